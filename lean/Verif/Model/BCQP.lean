import Mathlib.Data.Real.Sqrt
import Mathlib.Data.Matrix.Mul
import Mathlib.Analysis.Normed.Group.Constructions
import Mathlib.Analysis.Normed.Group.Real
/-!
Model of `Constraint/BCQPSolver.cpp` (lines 134-510) and of the projected gradient solvers of
`Collision/CPSolver.cpp` (lines 13-28, 55-126, 293-538).

A distributed vector is modelled by the list of all its components over all ranks, `Vec n`; the operator `A` is an
arbitrary function.  Arithmetic is exact, except where a rounding `fl` is a parameter.  A division by zero (after
which the program works with infinities and NaNs) and `std::exit` are the outcome `Stop.undefined`; `Stop.fuel` means
that the number of loop passes allowed by the model was not enough.
-/
namespace Verif.BCQP

/-- A vector with `n` components. -/
abbrev Vec (n : ℕ) := Fin n → ℝ

/-- How a computation can fail to give a result. -/
inductive Stop where
  | fuel
  | undefined
deriving DecidableEq

variable {n : ℕ}

/-- `X.dot(Y)`. -/
def dot (x y : Vec n) : ℝ := ∑ i, x i * y i

/-- `X.norm2()`. -/
noncomputable def norm2 (x : Vec n) : ℝ := Real.sqrt (dot x x)

/-- `X.normInf()` (the norm of Mathlib on `Fin n → ℝ`). -/
noncomputable def normInf (x : Vec n) : ℝ := ‖x‖

/-- Division of doubles; by zero the result is not a number. -/
noncomputable def rdiv (a b : ℝ) : Except Stop ℝ := if b = 0 then .error .undefined else .ok (a / b)

/-- `std::numeric_limits<double>::epsilon()`. -/
noncomputable def dblEps : ℝ := 1 / 2 ^ 52

/-- `std::numeric_limits<double>::max()`. -/
noncomputable def dblMax : ℝ := (2 - 1 / 2 ^ 52) * 2 ^ 1023

/-- BCQPSolver.cpp:431-459: `max` with `lb`, then `min` with `ub`. -/
noncomputable def boundProjection (lb ub v : Vec n) : Vec n := fun i => min (max (v i) (lb i)) (ub i)

/-- BCQPSolver.cpp:475-485: one component of the residual vector; `none` is the "projection error" after which the
program exits.  `fl` rounds `lb + eps` and `ub - eps`. -/
noncomputable def residualAt (fl : ℝ → ℝ) (lb ub x y : ℝ) : Option ℝ :=
  let eps := dblEps * 100
  if x < fl (lb + eps) then some (min y 0)
  else if x > fl (ub - eps) then some (max y 0)
  else if x > lb ∧ x < ub then some y
  else none

/-- BCQPSolver.cpp:461-497: the vector `Q`; the function returns its 2-norm. -/
noncomputable def checkProjectionResidual (fl : ℝ → ℝ) (lb ub x y : Vec n) : Except Stop (Vec n) :=
  open Classical in
  if ∃ i, residualAt fl (lb i) (ub i) (x i) (y i) = none then .error .undefined
  else .ok (fun i => (residualAt fl (lb i) (ub i) (x i) (y i)).getD 0)

/-- BCQPSolver.cpp:499-510: the bounds used when none were set. -/
noncomputable def defaultLower : Vec n := fun _ => -dblMax / 10
/-- BCQPSolver.cpp:499-510. -/
noncomputable def defaultUpper : Vec n := fun _ => dblMax / 10

/-- An entry of the iteration history (the two entries that are always 0 are left out). -/
structure Hist where
  ite : ℕ
  step : ℝ
  res : ℝ
  mv : ℕ

/-- What a solve leaves: the vector in `xsol`, the history (oldest first), the return code, and the vector the operator
was last applied to (the operator keeps the force and velocity it computed from that one). -/
structure Out (n : ℕ) where
  x : Vec n
  history : List Hist
  ret : ℕ
  applied : Vec n

/-- The problem a projected gradient method works on: the operator, the vector, the projection, the residual. -/
structure Problem (n : ℕ) where
  A : Vec n → Vec n
  b : Vec n
  proj : Vec n → Vec n
  resid : Vec n → Vec n → Except Stop (Vec n)

/-- The gradient `A x + b`. -/
def Problem.grad (p : Problem n) (x : Vec n) : Vec n := p.A x + p.b

/-- The problem that `BCQPSolver` works on. -/
noncomputable def bcqp (fl : ℝ → ℝ) (A : Vec n → Vec n) (b lb ub : Vec n) : Problem n where
  A := A
  b := b
  proj := boundProjection lb ub
  resid := checkProjectionResidual fl lb ub

/-- BCQPSolver.cpp:206-226: the step size for the next iteration, alternating between two formulas. -/
noncomputable def stepAlternating (ite : ℕ) (xdiff gdiff : Vec n) : Except Stop ℝ :=
  let a := if ite % 2 = 0 then norm2 xdiff ^ 2 else dot xdiff gdiff
  let b := if ite % 2 = 0 then dot xdiff gdiff else norm2 gdiff ^ 2
  let b := if |b| < 10 * dblEps then b + 10 * dblEps else b
  rdiv a b

/-- CPSolver.cpp:374-386: the step size of `LCP_BBPGD`, always the first formula. -/
noncomputable def stepFirst (_ : ℕ) (xdiff gdiff : Vec n) : Except Stop ℝ :=
  let a := norm2 xdiff ^ 2
  let b := dot xdiff gdiff
  let b := if |b| < 10 * dblEps then b + 10 * dblEps else b
  rdiv a b

/-- BCQPSolver.cpp:182-240 and CPSolver.cpp:340-394: the loop.  The two differ in the projection and residual (in
`p`), the step size (`step`) and in the test for stagnation (`stag`, lines 228-232; `LCP_BBPGD` has none).
The first argument is `iteMax - iteCount`. -/
noncomputable def bbLoop (p : Problem n) (step : ℕ → Vec n → Vec n → Except Stop ℝ) (stag : ℝ → Prop)
    [DecidablePred stag] (tol : ℝ) :
    ℕ → (iteCount mvCount : ℕ) → (alpha : ℝ) → (xk xkm1 gradkm1 : Vec n) → List Hist → Except Stop (Out n)
  | 0, _, _, _, xk, xkm1, _, history => .ok ⟨xk, history, 0, xkm1⟩
  | left + 1, iteCount, mvCount, alpha, _, xkm1, gradkm1, history => do
    let iteCount := iteCount + 1
    let xk := p.proj (-alpha • gradkm1 + xkm1)
    let gradk := p.A xk
    let mvCount := mvCount + 1
    let gradk := gradk + p.b
    let q ← p.resid xk gradk
    let resPhi := norm2 q
    let history := history ++ [⟨iteCount, alpha, resPhi, mvCount⟩]
    if |resPhi| < tol then .ok ⟨xk, history, 0, xk⟩
    else do
      let xkdiff := xk - xkm1
      let gkdiff := gradk - gradkm1
      let alpha ← step iteCount xkdiff gkdiff
      if stag alpha then .ok ⟨xk, history, 1, xk⟩
      else bbLoop p step stag tol left iteCount mvCount alpha xkm1 xk gradk history

/-- BCQPSolver.cpp:134-247.  `iteMax` is an `int`; a negative limit behaves as 0. -/
noncomputable def solveBBPGD (p : Problem n) (x0 : Vec n) (tol : ℝ) (iteMax : ℕ) (history : List Hist) :
    Except Stop (Out n) := do
  let xk := x0
  let xkm1 := x0
  let gradkm1 := p.A xkm1
  let mvCount := 1
  let gradkm1 := gradkm1 + p.b
  let q ← p.resid xkm1 gradkm1
  let resPhi := norm2 q
  let history := history ++ [⟨0, 0, resPhi, mvCount⟩]
  if |resPhi| < tol then .ok ⟨xkm1, history, 0, xkm1⟩
  else do
    let alpha ← rdiv 1 (normInf q)
    bbLoop p stepAlternating (fun a => a < dblEps * 10) tol iteMax 0 mvCount alpha xk xkm1 gradkm1 history

/-- BCQPSolver.cpp:306-334 and CPSolver.cpp:455-485: the loop that doubles `Lk` until the Lipschitz condition holds;
returns the new iterate, its image under `A`, `Lk`, `tk` and the count of products. -/
noncomputable def lipLoop (p : Problem n) (yk g : Vec n) (right12 : ℝ) :
    ℕ → (xkp1 : Vec n) → (Lk tk : ℝ) → (mv : ℕ) → Except Stop (Vec n × Vec n × ℝ × ℝ × ℕ)
  | 0, _, _, _, _ => .error .fuel
  | fuel + 1, xkp1, Lk, tk, mv => do
    let xkdiff := xkp1 - yk
    let Axbkp1 := p.A xkp1
    let mv := mv + 1
    let left1 := dot xkp1 Axbkp1 * (1 / 2)
    let left2 := dot xkp1 p.b
    let right3 := dot g xkdiff
    let right4 := (1 / 2) * Lk * norm2 xkdiff ^ 2
    if left1 + left2 ≤ right12 + right3 + right4 then .ok (xkp1, Axbkp1, Lk, tk, mv)
    else do
      let Lk := Lk * 2
      let tk ← rdiv 1 Lk
      let xkp1 := p.proj (yk + (-tk) • g)
      lipLoop p yk g right12 fuel xkp1 Lk tk mv

/-- BCQPSolver.cpp:296-382 and CPSolver.cpp:443-533: the main loop.  They differ in projection and residual (in `p`)
and in the test for stagnation (`stag`, lines 336-340; `LCP_APGD` has none).  First argument: `iteMax - iteCount`. -/
noncomputable def apLoop (p : Problem n) (stag : ℝ → Prop) [DecidablePred stag] (tol : ℝ) (fuel : ℕ) :
    ℕ → (iteCount mv : ℕ) → (xk yk xhat applied : Vec n) → (thetak Lk tk resmin : ℝ) → List Hist →
      Except Stop (Out n)
  | 0, _, _, _, _, xhat, applied, _, _, _, _, history => .ok ⟨xhat, history, 0, applied⟩
  | left + 1, iteCount, mv, xk, yk, xhat, _, thetak, Lk, tk, resmin, history => do
    let iteCount := iteCount + 1
    let Axb := p.A yk
    let mv := mv + 1
    let g := p.b + Axb
    let xkp1 := p.proj (yk + (-tk) • g)
    let right1 := dot yk Axb * (1 / 2)
    let right2 := dot yk p.b
    let (xkp1, Axbkp1, Lk, tk, mv) ← lipLoop p yk g (right1 + right2) fuel xkp1 Lk tk mv
    if stag tk then .ok ⟨xhat, history, 1, xkp1⟩
    else do
      let thetakp1 := (-thetak * thetak + thetak * Real.sqrt (4 + thetak * thetak)) / 2
      let betakp1 ← rdiv (thetak * (1 - thetak)) (thetak * thetak + thetakp1)
      let ykp1 := (1 + betakp1) • xkp1 + (-betakp1) • xk
      let Axbkp1 := Axbkp1 + p.b
      let q ← p.resid xkp1 Axbkp1
      let resPhi := |norm2 q|
      let better := resPhi < resmin
      let resmin := if resPhi < resmin then resPhi else resmin
      let xhat := open Classical in if better then xkp1 else xhat
      let history := history ++ [⟨iteCount, tk, resPhi, mv⟩]
      if resPhi < tol then .ok ⟨xhat, history, 0, xkp1⟩
      else do
        let restart := dot g (xkp1 - xk) > 0
        let ykp1 := open Classical in if restart then xkp1 else ykp1
        let thetakp1 := open Classical in if restart then 1 else thetakp1
        let Lk := Lk * (9 / 10)
        let tk ← rdiv 1 Lk
        apLoop p stag tol fuel left iteCount mv xkp1 ykp1 xhat xkp1 thetakp1 Lk tk resmin history

/-- BCQPSolver.cpp:249-389 and CPSolver.cpp:402-538.  `fuel` bounds the passes of the inner loop, which the code does
not bound. -/
noncomputable def apgd (p : Problem n) (stag : ℝ → Prop) [DecidablePred stag] (fuel : ℕ) (x0 : Vec n) (tol : ℝ)
    (iteMax : ℕ) (history : List Hist) : Except Stop (Out n) := do
  let xk := x0
  let yk := x0
  let xhat : Vec n := fun _ => 1
  let xkdiff := -xhat + xk
  let temp := p.A xkdiff
  let mv := 1
  let Lk ← rdiv (norm2 temp) (norm2 xkdiff)
  let tk ← rdiv 1 Lk
  let history := history ++ [⟨0, tk, 0, mv⟩]
  apLoop p stag tol fuel iteMax 0 mv xk yk xhat xkdiff 1 Lk tk dblMax history

/-- BCQPSolver.cpp:249-389. -/
noncomputable def solveAPGD (p : Problem n) (fuel : ℕ) (x0 : Vec n) (tol : ℝ) (iteMax : ℕ) (history : List Hist) :
    Except Stop (Out n) :=
  apgd p (fun t => t < dblEps * 10) fuel x0 tol iteMax history

end Verif.BCQP
