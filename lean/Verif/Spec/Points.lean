import Mathlib.Data.Real.Basic
/-! What the generators of points should give. -/
namespace Verif.Spec.Points

/-- Component `c` of point `i`. -/
noncomputable def comp (l : List ℝ) (i : ℕ) (c : Fin 3) : ℝ := l.getD (3 * i + c) 0

/-- The points of `l` are in the box. -/
def Inside (l : List ℝ) (shift box : ℝ) : Prop := ∀ v ∈ l, shift ≤ v ∧ v < shift + box

/-- The vector `l` has `n` points, no two of which are the same. -/
def Distinct (l : List ℝ) (n : ℕ) : Prop := l.length = 3 * n ∧ ∀ i < n, ∀ j < n, i ≠ j → ∃ c, comp l i c ≠ comp l j c

end Verif.Spec.Points
