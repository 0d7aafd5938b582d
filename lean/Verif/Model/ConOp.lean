import Verif.Model.LCP
import Mathlib.Data.Matrix.Diagonal
/-!
Model of the operators of the library and of the constraint solver:
`Constraint/ConstraintOperator.cpp`, `Constraint/ConstraintSolver.cpp`, `Collision/CPSolver.hpp` (57-93),
`Collision/CPSolver.cpp` (570-592), `Trilinos/Preconditioner.hpp` (412-440).

Vectors are those of `Verif.Model.BCQP`: all components over all ranks, exact arithmetic.
-/
namespace Verif.ConOp
open BCQP

/-- A distribution map: the number of entries and, for each, the global index. -/
structure TMap where
  size : ℕ
  gids : Fin size → ℕ

/-- A multivector: its map and its columns. -/
structure MV where
  map : TMap
  cols : List (Vec map.size)

/-- Tpetra's `CrsMatrix::apply`: `Y = alpha M X + beta Y`. -/
def crsApply {m n : ℕ} (M : Matrix (Fin m) (Fin n) ℝ) (x : Vec n) (y : Vec m) (alpha beta : ℝ) : Vec m :=
  alpha • M.mulVec x + beta • y

/-- A `ConstraintOperator` (ConstraintOperator.cpp:4-28): the map of the constraints, `Dᵀ`, the mobility operator on `k`
degrees of freedom, and the diagonal `K⁻¹`.  `D` is the explicit transpose computed by the constructor. -/
structure ConOp (k : ℕ) where
  gmap : TMap
  Dt : Matrix (Fin gmap.size) (Fin k) ℝ
  mob : Vec k → Vec k
  invK : Vec gmap.size

variable {k : ℕ}

/-- ConstraintOperator.cpp:15-19: `DMatRcp`. -/
def ConOp.D (op : ConOp k) : Matrix (Fin k) (Fin op.gmap.size) ℝ := op.Dt.transpose

/-- ConstraintOperator.cpp:38-69: one column.  Returns `Ycol` and what stays in the members `forceRcp` and `velRcp`. -/
def ConOp.applyCol (op : ConOp k) (x y : Vec op.gmap.size) (alpha beta : ℝ) : Vec op.gmap.size × Vec k × Vec k :=
  let force := crsApply op.D x 0 1 0
  let vel := op.mob force
  let y := crsApply op.Dt vel y alpha beta
  let y := fun i => y i + alpha * op.invK i * x i
  (y, force, vel)

/-- Why an application is rejected. -/
inductive Reject where
  | columns
  | maps
  | operatorMap

/-- ConstraintOperator.cpp:30-71.  The transpose mode is accepted and ignored.  A multivector whose map is not the
operator's is rejected inside Tpetra. -/
noncomputable def ConOp.apply (op : ConOp k) (X Y : MV) (alpha beta : ℝ) : Except Reject MV :=
  open Classical in
  if X.cols.length ≠ Y.cols.length then .error .columns
  else if X.map ≠ Y.map then .error .maps
  else if h : X.map = op.gmap ∧ Y.map = op.gmap then
    let xs : List (Vec op.gmap.size) := h.1 ▸ X.cols
    let ys : List (Vec op.gmap.size) := h.2 ▸ Y.cols
    .ok ⟨op.gmap, List.zipWith (fun x y => (op.applyCol x y alpha beta).1) xs ys⟩
  else .error .operatorMap

/-- CPSolver.hpp:57-93: `CPMatOp::apply`, one column.  `alpha`, `beta` and the old `y` are not used. -/
def cpMatApply {m : ℕ} (fcTrans : Matrix (Fin m) (Fin k) ℝ) (mob : Vec k → Vec k) (x _y : Vec m) (_alpha _beta : ℝ) :
    Vec m :=
  let force := crsApply fcTrans.transpose x 0 1 0
  let vel := mob force
  crsApply fcTrans vel 0 1 0

/-- Preconditioner.hpp:412-440: `KinvOperator::apply`, one column.  `solve b g` is what the Krylov solver returns for the
right hand side `b` from the guess `g`.  `alpha`, `beta` and the old `y` are not used. -/
def kinvApply {m : ℕ} (solve : Vec m → Vec m → Vec m) (x _y : Vec m) (_alpha _beta : ℝ) : Vec m := solve x x

/-! ### ConstraintSolver -/

/-- The control parameters: ConstraintSolver.hpp, members `res`, `maxIte`, `solverChoice`. -/
structure Control where
  res : ℝ
  maxIte : ℕ
  choice : ℤ

/-- ConstraintSolver.cpp:37: the parameters that `reset` installs. -/
noncomputable def resetControl : Control := ⟨1 / 10 ^ 5, 1000000, 0⟩

/-- The calls that concern the control parameters. -/
inductive Call where
  | setControlParams (c : Control)
  | setup
  | reset
  | solveConstraints

/-- The parameters after a call; `none` before any were set (the members have no initialiser).
ConstraintSolver.cpp:4-6 (`setup` begins with `reset`), 36-37, 60; ConstraintSolver.hpp `setControlParams`. -/
noncomputable def afterCall (s : Option Control) : Call → Option Control
  | .setControlParams c => some c
  | .setup => some resetControl
  | .reset => some resetControl
  | .solveConstraints => s

/-- The parameters after a sequence of calls on a new object. -/
noncomputable def afterCalls (l : List Call) : Option Control := l.foldl afterCall none

/-- What `setup` prepares (ConstraintSolver.cpp:14-33): the operator, `q`, the flags of bilateral constraints and the
initial multipliers. -/
structure Prepared (k : ℕ) where
  op : ConOp k
  q : Vec op.gmap.size
  biFlag : Vec op.gmap.size
  gamma0 : Vec op.gmap.size

/-- ConstraintSolver.cpp:16-27, from what the collector builds: `delta0`, `invKappa` are divided by `dt`, and
`q = delta0/dt + Dᵀ vnc`. -/
noncomputable def setup (gmap : TMap) (Dt : Matrix (Fin gmap.size) (Fin k) ℝ) (mob : Vec k → Vec k)
    (delta0 invKappa biFlag gamma0 : Vec gmap.size) (velnc : Vec k) (dt : ℝ) : Prepared k :=
  let delta0 := (1 / dt) • delta0
  let invKappa := (1 / dt) • invKappa
  let deltanc := crsApply Dt velnc 0 1 0
  ⟨⟨gmap, Dt, mob, invKappa⟩, delta0 + deltanc, biFlag, gamma0⟩

/-- What `solveConstraints` leaves. -/
structure Solved (k m : ℕ) where
  gamma : Vec m
  forceB : Vec k
  velB : Vec k
  forceU : Vec k
  velU : Vec k
  history : List Hist
  ret : ℕ

/-- ConstraintSolver.cpp:66-67: the lower bound, 0 where the flag is 0 and `-1e8` where it is 1; the upper bound is the
default of the solver. -/
noncomputable def lowerBound {m : ℕ} (biFlag : Vec m) : Vec m := (-(10 : ℝ) ^ 8) • biFlag

/-- The problem `solveConstraints` gives to the solver. -/
noncomputable def Prepared.problem (P : Prepared k) (fl : ℝ → ℝ) : Problem P.op.gmap.size :=
  bcqp fl (fun x => (P.op.applyCol x 0 1 0).1) P.q (lowerBound P.biFlag) defaultUpper

/-- ConstraintSolver.cpp:72-83: the choice of the solver. -/
noncomputable def Prepared.run (P : Prepared k) (fl : ℝ → ℝ) (fuel : ℕ) (c : Control) :
    Except Stop (Out P.op.gmap.size) :=
  if c.choice = 1 then solveAPGD (P.problem fl) fuel P.gamma0 c.res c.maxIte []
  else solveBBPGD (P.problem fl) P.gamma0 c.res c.maxIte []

/-- ConstraintSolver.cpp:60-105.  The operator's members `force` and `vel` are those of its last application. -/
noncomputable def Prepared.solveConstraints (P : Prepared k) (fl : ℝ → ℝ) (fuel : ℕ) (c : Control) :
    Except Stop (Solved k P.op.gmap.size) := do
  let out ← P.run fl fuel c
  let gamma := out.x
  let gammaBi : Vec P.op.gmap.size := fun i => gamma i * P.biFlag i
  let forceB := crsApply P.op.D gammaBi 0 1 0
  let velB := P.op.mob forceB
  let force := (P.op.applyCol out.applied 0 1 0).2.1
  let vel := (P.op.applyCol out.applied 0 1 0).2.2
  let forceU := force - forceB
  let velU := vel - velB
  .ok ⟨gamma, forceB, velB, forceU, velU, out.history, out.ret⟩

end Verif.ConOp
