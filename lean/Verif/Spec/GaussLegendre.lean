import Mathlib.Algebra.Polynomial.Eval.Degree
import Mathlib.MeasureTheory.Integral.IntervalIntegral.Basic

/-! What a quadrature is. -/

namespace Verif.Spec.Gauss

/-- The sum that stands for the integral of `f`. -/
def quadrature (nodes weights : List ℝ) (f : ℝ → ℝ) : ℝ :=
  (List.zipWith (fun x w => w * f x) nodes weights).sum

/-- The sum of the absolute values of the first `n` coefficients. -/
noncomputable def size (n : ℕ) (p : Polynomial ℝ) : ℝ := ∑ k ∈ Finset.range n, |p.coeff k|

end Verif.Spec.Gauss
