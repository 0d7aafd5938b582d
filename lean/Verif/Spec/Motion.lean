import Verif.Model.Mobility
import Verif.Spec.Mobility
/-! The overdamped equation of motion of a body. -/
namespace Verif.Spec.Motion
open Verif.V3 Verif.Mobility Verif.Spec.Mobility

/-- A body that feels the force and torque `F` moves at `U`: the drag balances `F`, or the body is immovable and stays. -/
def Moves (mu : ℝ) (b : Sylinder) (F U : V3 × V3) : Prop :=
  (b.isImmovable = true ∧ U = (0, 0)) ∨
  (b.isImmovable = false ∧ ∃ para perp rot, b.calcDragCoeff Pi mu = some (para, perp, rot) ∧ 0 < para ∧ 0 < perp ∧ 0 < rot ∧
    drag para perp rot b.direction U = F)

/-- The Brownian velocity of a body with the random numbers `D`: none at temperature zero.  What it is like is C64. -/
def Thermal (mu dt kBT : ℝ) (D : Draws) (b : Sylinder) (w : V3 × V3) : Prop :=
  (kBT > 0 → ∃ t, brownBody mu dt kBT D b = some t ∧ w = (t.velBrown, t.omegaBrown)) ∧ (¬ kBT > 0 → w = (0, 0))

/-- Work that a force and torque do on a moving body in unit time. -/
def power (F U : V3 × V3) : ℝ := dot F.1 U.1 + dot F.2 U.2

end Verif.Spec.Motion
