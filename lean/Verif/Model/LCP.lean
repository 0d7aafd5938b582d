import Verif.Model.BCQP
/-!
Model of the linear complementarity solvers of `Collision/CPSolver.cpp`.  Vectors, history and the projected gradient
loops are those of `Verif.Model.BCQP`.  The debug branches (`DEBUGLCPCOL`) are not modelled.
-/
namespace Verif.LCP
open BCQP

variable {n : ℕ}

/-- CPSolver.cpp:13-28. -/
noncomputable def clipZero (v : Vec n) : Vec n := fun i => if v i < 0 then 0 else v i

/-- CPSolver.cpp:55-82. -/
noncomputable def minXY (x y : Vec n) : Vec n := fun i => min (x i) (y i)

/-- CPSolver.cpp:84-108: residual, `y = A x` without `b`. -/
noncomputable def checkResiduePhiB (x y b : Vec n) : ℝ := norm2 (fun i => min (x i) (y i + b i))

/-- CPSolver.cpp:110-126: residual, `y = A x + b`. -/
noncomputable def checkResiduePhi (x y : Vec n) : ℝ := norm2 (minXY x y)

/-- CPSolver.cpp:128-170: minimum map and mask. -/
noncomputable def hMinMap (x y : Vec n) : Vec n × Vec n :=
  (fun i => if x i < y i then x i else y i, fun i => if x i < y i then 1 else 0)

/-- The problem as the projected gradient loops see it. -/
noncomputable def lcp (A : Vec n → Vec n) (b : Vec n) : Problem n where
  A := A
  b := b
  proj := clipZero
  resid := fun x y => .ok (minXY x y)

/-- CPSolver.cpp:293-400. -/
noncomputable def lcpBBPGD (A : Vec n → Vec n) (b x0 : Vec n) (tol : ℝ) (iteMax : ℕ) (history : List Hist) :
    Except Stop (Out n) := do
  let p := lcp A b
  let xk := x0
  let xkm1 := x0
  let gradkm1 := A xkm1
  let mvCount := 1
  let gradkm1 := gradkm1 + b
  let q ← p.resid xkm1 gradkm1
  let resPhi := norm2 q
  let history := history ++ [⟨0, 0, resPhi, mvCount⟩]
  if |resPhi| < tol then .ok ⟨xkm1, history, 0, xkm1⟩
  else do
    let Ag := A gradkm1
    let mvCount := mvCount + 1
    let gTAg := dot gradkm1 Ag
    let gTg := norm2 gradkm1 ^ 2
    let gTAg := if |gTAg| < 10 * dblEps then gTAg + 10 * dblEps else gTAg
    let alpha ← rdiv gTg gTAg
    bbLoop p stepFirst (fun _ => False) tol iteMax 0 mvCount alpha xk xkm1 gradkm1 history

/-- CPSolver.cpp:402-538. -/
noncomputable def lcpAPGD (A : Vec n → Vec n) (b : Vec n) (fuel : ℕ) (x0 : Vec n) (tol : ℝ) (iteMax : ℕ)
    (history : List Hist) : Except Stop (Out n) :=
  apgd (lcp A b) (fun _ => False) fuel x0 tol iteMax history

/-- CPSolver.cpp:570-592: `mmNewtonOperator::apply`; on one column.  The scalars are accepted and not used, and so is the
old content of `Y`. -/
noncomputable def mmNewtonApply (A : Vec n → Vec n) (mask : Vec n) (x _y : Vec n) (_alpha _beta : ℝ) : Vec n :=
  fun i => if mask i > 1 / 2 then x i else A x i

/-- CPSolver.cpp:744-767: the line search; `fuel` bounds its passes.  Returns `xk`, `yk` and `tau`. -/
noncomputable def lineSearch (A : Vec n → Vec n) (b x dx : Vec n) (f0 gradf : ℝ) :
    ℕ → ℝ → Except Stop (Vec n × Vec n × ℝ)
  | 0, _ => .error .fuel
  | fuel + 1, tau =>
    let xk := clipZero (x + tau • dx)
    let yk := A xk + b
    let H := (hMinMap yk xk).1
    let fk := (1 / 2) * norm2 H ^ 2
    if fk ≤ f0 + tau * gradf then .ok (xk, yk, tau)
    else if tau * tau < 1 / 10 ^ 28 then .ok (xk, yk, tau)
    else lineSearch A b x dx f0 gradf fuel (tau * (1 / 2))

/-- What leaves the Newton loop: the vector in `xsol`, the history, the return code. -/
structure NewtonOut (n : ℕ) where
  x : Vec n
  history : List Hist
  ret : ℕ

/-- CPSolver.cpp:645-771: the loop.  `gmres mask H dx` is the vector the Krylov solver leaves in `dx`, an arbitrary
function here; the history's count of products (which depends on it) is not modelled and stays 0.  `x0` is `xsol`, which
keeps its value on `return 1`.  The code reads `xk`, `yk` in its first pass before they have been written. -/
noncomputable def newtonLoop (A : Vec n → Vec n) (b : Vec n) (gmres : Vec n → Vec n → Vec n → Vec n) (x0 : Vec n)
    (tol : ℝ) (fuel : ℕ) :
    ℕ → (iteCount : ℕ) → (x y xk yk dx : Vec n) → (err tk : ℝ) → List Hist → Except Stop (NewtonOut n)
  | 0, _, x, _, _, _, _, _, _, history => .ok ⟨x, history, 0⟩
  | left + 1, iteCount, x, y, xk, yk, dx, err, tk, history => do
    let iteCount := iteCount + 1
    let resPhi := checkResiduePhi xk yk
    let history := history ++ [⟨iteCount, tk, resPhi, 0⟩]
    if tk > 0 ∧ |resPhi| < tol then .ok ⟨x, history, 0⟩
    else do
      let (H, mask) := hMinMap x y
      let oldErr := err
      let err := (1 / 2) * norm2 H ^ 2
      let relErr ← rdiv |err - oldErr| |oldErr|
      if relErr < tol ∨ err < 1 / 10 ^ 14 then .ok ⟨x, history, 0⟩
      else do
        let dx := (-1 : ℝ) • gmres mask H dx
        let nablaH := mmNewtonApply A mask H 0 1 0
        let dx := if normInf dx < 1 / 10 ^ 14 then (-1 : ℝ) • nablaH else dx
        if norm2 nablaH < 1 / 10 ^ 14 then .ok ⟨x0, history, 1⟩
        else do
          let dx := if dot nablaH dx > -(1 / 10 ^ 14) * norm2 dx ^ 2 then (-1 : ℝ) • nablaH else dx
          let gradf := (1 / 1000) * dot nablaH dx
          let (xk, yk, tau) ← lineSearch A b x dx err gradf fuel 1
          newtonLoop A b gmres x0 tol fuel left iteCount xk yk x y dx err tau history

/-- CPSolver.cpp:595-777.  `junkX`, `junkY` are what the uninitialised vectors `xk`, `yk` happen to contain. -/
noncomputable def lcpNewton (A : Vec n → Vec n) (b : Vec n) (gmres : Vec n → Vec n → Vec n → Vec n)
    (junkX junkY x0 : Vec n) (fuel : ℕ) (tol : ℝ) (iteMax : ℕ) (history : List Hist) : Except Stop (NewtonOut n) :=
  let y := A x0 + b
  newtonLoop A b gmres x0 tol fuel iteMax 0 x0 y junkX junkY 0 (10 ^ 20) 0 history

end Verif.LCP
