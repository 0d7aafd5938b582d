import Mathlib.Data.Real.Basic
/-! What is assumed of the rounding of real numbers to `double` where a property depends on it. -/
namespace Verif.Spec

/-- Properties of round-to-nearest binary64 in the absence of overflow and underflow. -/
structure Rounding (fl : ℝ → ℝ) : Prop where
  /-- rounding is monotone -/
  mono : ∀ x y, x ≤ y → fl x ≤ fl y
  /-- integers up to `2^53` are representable -/
  int : ∀ k : ℕ, k ≤ 2 ^ 53 → fl k = k
  /-- relative error at most `2^-53`, stated for quotients of naturals below `2^53` -/
  quot : ∀ a n : ℕ, 0 < n → a ≤ 2 ^ 52 → n ≤ 2 ^ 52 → fl (a / n) ≤ (a / n) * (1 + 1 / 2 ^ 53)

end Verif.Spec
