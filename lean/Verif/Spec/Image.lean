import Verif.Model.Image
import Verif.Spec.Box
/-! Images of boxes and points in a periodic box. -/
namespace Verif.Image

/-- An image is displaced along periodic axes only. -/
def Allowed (pa : Axes) (s : Idx) : Prop :=
  (pa.x = false → s.x = 0) ∧ (pa.y = false → s.y = 0) ∧ (pa.z = false → s.z = 0)

/-- The periodic axes have a positive extent. -/
def Extent (pa : Axes) (size : V3) : Prop :=
  (pa.x = true → 0 < size.x) ∧ (pa.y = true → 0 < size.y) ∧ (pa.z = true → 0 < size.z)

/-- Along the periodic axes the two boxes have a common coordinate. -/
def Touches (pa : Axes) (a b : Box) : Prop :=
  (pa.x = true → a.low.x ≤ b.high.x ∧ b.low.x ≤ a.high.x) ∧ (pa.y = true → a.low.y ≤ b.high.y ∧ b.low.y ≤ a.high.y) ∧
    (pa.z = true → a.low.z ≤ b.high.z ∧ b.low.z ≤ a.high.z)

/-- Some axis is periodic. -/
def Axes.some (pa : Axes) : Prop := pa.x = true ∨ pa.y = true ∨ pa.z = true

end Verif.Image
