import Verif.Spec.DCP
/-! Feet of perpendiculars. -/
namespace Verif.Spec.DCP
open Verif.V3

/-- `f` is a point of the segment from `a` to `b`, and the line from `x` to `f` is perpendicular to the segment. -/
def Foot (a b x f : V3) : Prop := OnSegment a b f ∧ dot (b - a) (x - f) = 0

end Verif.Spec.DCP
