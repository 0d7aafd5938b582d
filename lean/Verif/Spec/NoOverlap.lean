import Verif.Spec.Near
/-! How a body that is part of a contact moves. -/
namespace Verif.Spec.NoOverlap
open Verif.Near Verif.Spec.Near

/-- Length of the axis that turns with the body: none for a sphere. -/
noncomputable def arm (x : EP) : ℝ :=
  open Classical in if Sphere x then 0 else x.lengthCollision

end Verif.Spec.NoOverlap
