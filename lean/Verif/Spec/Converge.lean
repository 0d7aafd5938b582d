import Verif.Spec.BCQP
/-! Specification for the convergence of the constraint solver (C92). -/
namespace Verif.Spec.Converge
open Verif.BCQP

/-- Rounding with a relative error of at most `2⁻⁵²` (exact arithmetic and every IEEE rounding of normal numbers). -/
def Rounds (fl : ℝ → ℝ) : Prop := ∀ r, |fl r - r| ≤ |r| / 2 ^ 52

/-- A positive definite matrix. -/
def PosDef {n : ℕ} (M : Matrix (Fin n) (Fin n) ℝ) : Prop := ∀ x : Vec n, x ≠ 0 → 0 < dot x (M.mulVec x)

/-- The curvatures of the quadratic form of the matrix are between `mu` and `L`. -/
def Quadratic {n : ℕ} (M : Matrix (Fin n) (Fin n) ℝ) (mu L : ℝ) : Prop :=
  ∀ x : Vec n, mu * dot x x ≤ dot x (M.mulVec x) ∧ dot x (M.mulVec x) ≤ L * dot x x

/-- There is room between the bounds for the tolerance `100 eps` with which the solver compares with the bounds. -/
def Room (fl : ℝ → ℝ) (lb ub : ℝ) : Prop := lb < fl (lb + dblEps * 100) ∧ fl (lb + dblEps * 100) ≤ ub ∧ fl (ub - dblEps * 100) < ub

/-- The bounds, and the places `100 eps` inside where the solver still takes a value to be on the bound, are more than `rho` away from `x`. -/
def Clear (fl : ℝ → ℝ) (lb ub x rho : ℝ) : Prop := lb < x - rho ∧ fl (lb + dblEps * 100) ≤ x - rho ∧ x + rho ≤ fl (ub - dblEps * 100) ∧ x + rho < ub

end Verif.Spec.Converge
