import Verif.Model.PointDist
import Mathlib.Analysis.SpecialFunctions.Pow.Real
/-!
Model of `checkError` (Util/PointDistribution.cpp:105-165).  Finite numbers are exact reals; the quotients, which may
have a zero denominator, are doubles that can be infinite or NaN.  What is printed besides the verdict is not
modelled.
-/
namespace Verif.CheckErr

/-- A double that is not negative: a number, infinity or NaN. -/
inductive D where
  | num (x : ℝ)
  | inf
  | nan

/-- `a < b` of doubles: false if one of them is NaN. -/
def D.lt : D → D → Prop
  | .num x, .num y => x < y
  | .num _, .inf => True
  | .inf, _ => False
  | .nan, _ => False
  | .num _, .nan => False

/-- `x / y` for numbers that are not negative. -/
noncomputable def D.div (x y : ℝ) : D :=
  if y = 0 then (if x = 0 then .nan else .inf) else .num (x / y)

/-- `sqrt`. -/
noncomputable def D.sqrt : D → D
  | .num x => .num (Real.sqrt x)
  | .inf => .inf
  | .nan => .nan

open Classical in
/-- `std::max(a, b)`: `b` if `a < b`, otherwise `a`.  With a NaN among the arguments that is `a`. -/
noncomputable def D.max (a b : D) : D := if a.lt b then b else a

/-- PointDistribution.cpp:124-125: the variables of the loop (`maxU`, which is not used, is left out). -/
structure Acc where
  errorL2 : ℝ
  errorAbs : ℝ
  L2 : ℝ
  errorMaxL2 : ℝ
  errorMaxRel : D

/-- PointDistribution.cpp:124-125. -/
noncomputable def start : Acc := ⟨0, 0, 0, 0, .num 0⟩

/-- PointDistribution.cpp:128-134: one pass of the loop for `valueTrue[i] = p.1`, `value[i] = p.2`. -/
noncomputable def pass (a : Acc) (p : ℝ × ℝ) : Acc :=
  let temp := (p.1 - p.2) ^ 2
  { errorL2 := a.errorL2 + temp
    errorAbs := a.errorAbs + Real.sqrt temp
    L2 := a.L2 + p.1 ^ 2
    errorMaxL2 := if Real.sqrt temp < a.errorMaxL2 then a.errorMaxL2 else Real.sqrt temp
    errorMaxRel := D.max (D.div (Real.sqrt temp) |p.1|) a.errorMaxRel }

/-- What rank 0 prints in the end. -/
inductive Verdict where
  /-- line 119, followed by `exit(1)` -/
  | sizeError
  /-- only the errors: no bar was given -/
  | noBar
  /-- "Test Pass" -/
  | ok
  /-- "Error larger than given bar" -/
  | larger
deriving DecidableEq

open Classical in
/-- PointDistribution.cpp:117-161, on rank 0. -/
noncomputable def rank0 (value valueTrue : List ℝ) (bar : ℝ) : Verdict :=
  if value.length ≠ valueTrue.length then .sizeError
  else
    let a := (valueTrue.zip value).foldl pass start
    let errorRMS := D.sqrt (D.div a.errorL2 value.length)
    let errorRelL2 := D.sqrt (D.div a.errorL2 a.L2)
    if 0 < bar then
      if a.errorMaxL2 < bar ∧ a.errorMaxRel.lt (.num bar) ∧ a.errorAbs < bar ∧ errorRMS.lt (.num bar) ∧
          errorRelL2.lt (.num bar) then .ok else .larger
    else .noBar

/-- PointDistribution.cpp:105-165 over all ranks: `value` and `valueTrue` are the vectors the ranks pass. -/
noncomputable def checkError (value valueTrue : List (List ℝ)) (bar : ℝ) : Option Verdict := do
  let v ← PointDist.collectPts value
  let t ← PointDist.collectPts valueTrue
  let v0 ← v[0]?
  let t0 ← t[0]?
  some (rank0 v0 t0 bar)

end Verif.CheckErr
