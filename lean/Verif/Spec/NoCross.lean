import Verif.Spec.BoundaryCol
import Verif.Spec.NoOverlap
/-! Bodies and boundaries after a step. -/
namespace Verif.Spec.NoCross
open Verif.V3 Verif.BoundaryCol Verif.Spec.BoundaryCol

/-- Largest curvature, at the distance of `p`, of a boundary seen from inside; none for walls and obstacles. -/
noncomputable def curv : Bound → V3 → ℝ
  | .sphere b, p => if b.inside then 1 / norm (p - b.center) else 0
  | .wall _, _ => 0
  | .tube b, p => if b.inside then 1 / axisDist b.center b.axis p else 0

/-- Points of the body. -/
def Occupies (s : Sylinder) (z : V3) : Prop := ∃ p, Core s p ∧ norm (z - p) ≤ Rad s

end Verif.Spec.NoCross
