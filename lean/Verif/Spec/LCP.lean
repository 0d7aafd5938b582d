import Verif.Model.LCP
/-! Specification of the linear complementarity problem. -/
namespace Verif.Spec
open BCQP

variable {n : ℕ}

/-- `x ≥ 0`, `y ≥ 0`, `x ⊥ y`. -/
def Complementary (x y : Vec n) : Prop := (∀ i, 0 ≤ x i) ∧ (∀ i, 0 ≤ y i) ∧ ∑ i, x i * y i = 0

/-- The size of the violation of the problem at `x`: how much the components of `x` and `A x + b` keep the smaller of the
two from being zero. -/
noncomputable def violation (A : Vec n → Vec n) (b x : Vec n) : ℝ := Real.sqrt (∑ i, min (x i) (A x i + b i) ^ 2)

end Verif.Spec
