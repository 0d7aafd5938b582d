import Verif.Model.Mobility
import Verif.Model.Equatn
/-! The ends of the bodies that links join, and how they move. -/
namespace Verif.Spec.Springs
open Verif.V3

/-- The plus end of a body. -/
noncomputable def plusEnd (s : Sylinder) : V3 := s.pos + (s.length / 2) • s.direction

/-- The minus end of the image of a body that is displaced by `D`. -/
noncomputable def minusEnd (s : Sylinder) (D : V3) : V3 := s.pos + D - (s.length / 2) • s.direction

/-- By how much the direction of a body that turns with angular velocity `w` for the time `dt` can differ from its first order change: half of the square of the
angle, and `fltEps = 2⁻²³` per time, below which the code does not turn bodies. -/
noncomputable def turning (dt : ℝ) (w : V3) : ℝ := (dt * norm w) ^ 2 / 2 + dt / 2 ^ 23

/-- How far an end of a body can move. -/
noncomputable def reach (dt : ℝ) (s : Sylinder) (u w : V3) : ℝ := dt * (norm u + norm w * s.length / 2)

end Verif.Spec.Springs
