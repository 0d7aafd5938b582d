import Verif.Model.BCQP
/-! Specification of bound constrained quadratic programming. -/
namespace Verif.Spec
open BCQP

variable {n : ℕ}

/-- The vector respects the bounds. -/
def InBox (lb ub x : Vec n) : Prop := ∀ i, lb i ≤ x i ∧ x i ≤ ub i

/-- First order optimality over the box, for the gradient `g`: no feasible direction descends. -/
def FirstOrder (lb ub x g : Vec n) : Prop := ∀ z, InBox lb ub z → 0 ≤ ∑ i, g i * (z i - x i)

/-- The objective `½ xᵀ M x + bᵀ x`. -/
noncomputable def objective (M : Matrix (Fin n) (Fin n) ℝ) (b x : Vec n) : ℝ :=
  (1 / 2) * (∑ i, x i * (M.mulVec x) i) + ∑ i, b i * x i

/-- `xᵀ M x ≥ 0` for all `x`. -/
def PosSemi (M : Matrix (Fin n) (Fin n) ℝ) : Prop := ∀ x : Vec n, 0 ≤ ∑ i, x i * (M.mulVec x) i

/-- `r` is the residual of the vector `x`: the 2-norm of what the residual check computes for `x` and `A x + b`. -/
def ResidualIs (p : Problem n) (x : Vec n) (r : ℝ) : Prop := ∃ q, p.resid x (p.A x + p.b) = .ok q ∧ r = norm2 q

/-- Smallest of a list of records by residual. -/
def SmallestRes (r : ℝ) (l : List Hist) : Prop := (∃ e ∈ l, e.res = r) ∧ ∀ e ∈ l, r ≤ e.res

end Verif.Spec
