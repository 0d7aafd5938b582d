import Verif.Spec.Collector
import Verif.Model.BCQP
/-! What a time step owes to a constraint. -/
namespace Verif.Spec.RunStep
open Verif.Collector BCQP

/-- Conditions at one constraint with multiplier `g`, rate of change `rate` of its separation, residual `res`. -/
structure Solves (fl : ℝ → ℝ) (dt res : ℝ) (b : Block) (rate g : ℝ) : Prop where
  uni : b.bilateral = false → 0 ≤ g ∧ g ≤ BCQP.dblMax / 10 ∧ (g ≤ fl (BCQP.dblMax / 10 - dblEps * 100) → -(dt * res) ≤ b.delta0 + dt * rate ∧
    (fl (dblEps * 100) ≤ g → |b.delta0 + dt * rate| ≤ dt * res))
  bi : b.bilateral = true → 0 < b.kappa → -(10 : ℝ) ^ 8 ≤ g ∧ g ≤ BCQP.dblMax / 10 ∧ (g ≤ fl (BCQP.dblMax / 10 - dblEps * 100) →
    -(dt * res) ≤ b.delta0 + dt * rate + g / b.kappa ∧ (fl (-(10 : ℝ) ^ 8 + dblEps * 100) ≤ g → |b.delta0 + dt * rate + g / b.kappa| ≤ dt * res))
  rigid : b.bilateral = true → ¬ 0 < b.kappa → -(10 : ℝ) ^ 8 ≤ g ∧ g ≤ BCQP.dblMax / 10 ∧ (g ≤ fl (BCQP.dblMax / 10 - dblEps * 100) →
    -(dt * res) ≤ b.delta0 + dt * rate ∧ (fl (-(10 : ℝ) ^ 8 + dblEps * 100) ≤ g → |b.delta0 + dt * rate| ≤ dt * res))

end Verif.Spec.RunStep
