import Mathlib.Data.Real.Basic
import Mathlib.Data.Matrix.Mul

/-! What a test of a solution should say.  Numbers are `none` if they are NaN. -/

namespace Verif.Spec.LCPTest

open Classical in
/-- The number of negative entries. -/
noncomputable def negatives (l : List (Option ℝ)) : ℕ := (l.filter fun v => decide (∃ r < (0 : ℝ), v = some r)).length

/-- `m` is the largest of the numbers `-v` for negative entries `v`, or 0 without such entries. -/
def Largest (l : List (Option ℝ)) (m : ℝ) : Prop :=
  (∀ v : ℝ, some v ∈ l → -v ≤ m) ∧ 0 ≤ m ∧ (m = 0 ∨ ∃ v < (0 : ℝ), some v ∈ l ∧ m = -v)

/-- `x` solves the complementarity problem of `A` and `b`. -/
def Solves {n : ℕ} (A : Matrix (Fin n) (Fin n) ℝ) (b x : Fin n → ℝ) : Prop :=
  ∀ i, 0 ≤ x i ∧ 0 ≤ (A.mulVec x + b) i ∧ x i * (A.mulVec x + b) i = 0

end Verif.Spec.LCPTest
