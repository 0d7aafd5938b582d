import Verif.Model.Mobility
import Verif.Model.Collector
import Verif.Model.ConOp
/-!
Model of one time step over all ranks: `SylinderSystem::runStep` (Sylinder/SylinderSystem.cpp:948-968) with
`resolveConstraints` (829-866), `ConstraintSolver::setup`, `solveConstraints` and `writebackGamma`
(Constraint/ConstraintSolver.cpp:4-34, 60-107), after the constraints were collected.

A distributed vector is the concatenation of the parts of the ranks, in the order of the ranks (contiguous maps, made by
`getTMAPFromLocalSize`).  The parts are those of the models `Mobility`, `Collector` and `ConOp`; this file puts them
together.
-/
namespace Verif.RunStep
open Mobility Collector ConOp BCQP

/-- What a rank has when `runStep` starts, and the constraints that the three collection functions put into its pool
(they use the geometry of the bodies, which nothing changes before `stepEuler`).  `mobMin` and `mobMax` are what the
mobility map returns as the rank's least and largest index.  `matOrder`, `vecOrder`: the writes of the threads in
`buildConstraintMatrixVector` in the order in which they happen. -/
structure RankIn where
  bodies : List (Draws × Sylinder)
  force : Option (List ℝ)
  velPart : Option (List ℝ)
  pool : Pool
  mobMin : ℤ
  mobMax : ℤ
  matOrder : List (ℕ × Entry)
  vecOrder : List (ℕ × VecEntry)

/-- The local parts of a distributed vector with the given local sizes. -/
def parts : List ℕ → List ℝ → List (List ℝ)
  | [], _ => []
  | n :: ns, l => l.take n :: parts ns (l.drop n)

/-- The mobility matrix of all ranks applied to a vector: it couples only entries of one rank (SylinderSystem.cpp:675-721,
the column indices are local). -/
noncomputable def mobAll (ms : List Csr) (sizes : List ℕ) (x : List ℝ) : Option (List ℝ) :=
  ((ms.zip (parts sizes x)).mapM fun (p : Csr × List ℝ) => p.1.apply p.2).map List.flatten

/-- `mobAll` as the operator that the constraint solver uses.  The values for an application without result are
irrelevant: there is none (`mobAll_eq`). -/
noncomputable def mobVec (ms : List Csr) (sizes : List ℕ) (k : ℕ) (x : Vec k) : Vec k :=
  fun j => ((mobAll ms sizes (List.ofFn x)).getD []).getD j 0

/-- The entry of a row in column `c`; entries of the same column add up. -/
noncomputable def denseRow (row : List Entry) (c : ℤ) : ℝ := ((row.filter fun e => e.1 = c).map Prod.snd).sum

/-- What the ranks prepare together: the number of degrees of freedom, the problem, the local sizes of the mobility map
and of the map of the constraints. -/
structure System where
  k : ℕ
  P : Prepared k
  sizes : List ℕ
  rows : List ℕ

/-- ConstraintSolver.cpp:4-34 `setup`, after the matrix (rows `rows`) and the vectors (`entries`) are there.  `none`: a column
outside of the mobility map (Tpetra stops). -/
noncomputable def assemble (dt : ℝ) (rows : List (List Entry)) (entries : List VecEntry) (rowSizes : List ℕ) (ms : List Csr)
    (sizes : List ℕ) (vnc : List ℝ) : Option System :=
  if rows.all fun row => row.all fun e => decide (0 ≤ e.1) && decide (e.1 < (vnc.length : ℤ)) then
    if h : entries.length = rows.length then
      let at' : Fin rows.length → VecEntry := fun i => entries.get (Fin.cast h.symm i)
      some
        { k := vnc.length
          P := setup ⟨rows.length, fun i => i⟩ (fun i j => denseRow (rows.get i) j) (mobVec ms sizes vnc.length)
            (fun i => (at' i).delta0) (fun i => (at' i).invKappa) (fun i => (at' i).biFlag) (fun i => (at' i).gammaGuess)
            vnc.get dt
          sizes := sizes
          rows := rowSizes }
    else none
  else none

/-- ConstraintSolver.cpp:4-34 `setup` on all ranks.  `pre`: mobility matrix and velocity of every rank.  `none`: see
`buildMatrix`, `buildVectors` and `assemble`. -/
noncomputable def setupAll (dt : ℝ) (ranks : List RankIn) (pre : List (Csr × List ℝ)) : Option System := do
  let As ← ranks.mapM fun r => buildMatrix r.pool r.mobMin r.mobMax r.matOrder
  let rowss ← As.mapM Crs.rows
  let vecs ← ranks.mapM fun r => buildVectors r.pool r.vecOrder
  assemble dt rowss.flatten vecs.flatten (rowss.map List.length) (pre.map Prod.fst) (pre.map fun p => p.2.length)
    (pre.map Prod.snd).flatten

/-- What a step leaves: per rank the bodies before and after the motion and the pool with the multipliers written back; the
history of the solver. -/
structure Out where
  steps : List StepOut
  pools : List Pool
  history : List Hist

/-- The local parts of the four vectors that the solver returns. -/
noncomputable def solverOuts {k m : ℕ} (sizes : List ℕ) (s : Solved k m) : List SolverOut :=
  (((parts sizes (List.ofFn s.forceU)).zip (parts sizes (List.ofFn s.velU))).zip
    ((parts sizes (List.ofFn s.forceB)).zip (parts sizes (List.ofFn s.velB)))).map
    fun p => ⟨p.1.1, p.1.2, p.2.1, p.2.2⟩

/-- SylinderSystem.cpp:948-968 with 829-866, all ranks.  `c` are the settings `conResTol`, `conMaxIte` and
`conSolverChoice`, set after `setup` (line 858). -/
noncomputable def runStepAll (cfg : Cfg) (c : Control) (fl : ℝ → ℝ) (fuel : ℕ) (ranks : List RankIn) : Option Out := do
  let pre ← ranks.mapM fun r => beforeSolve cfg r.force r.velPart r.bodies
  let sys ← setupAll cfg.dt ranks (pre.map fun p => (p.1, p.2.1))
  match sys.P.solveConstraints fl fuel c with
  | .error _ => none
  | .ok s =>
    let pools ← (ranks.zip (parts sys.rows (List.ofFn s.gamma))).mapM fun p => writeBackGamma p.1.pool p.2
    let steps ← (pre.zip (solverOuts sys.sizes s)).mapM fun p => afterSolve cfg p.1.2.1 p.2 p.1.2.2
    some ⟨steps, pools, s.history⟩

end Verif.RunStep
