import Verif.Model.V3
/-! Points of segments and smallest distances. -/
namespace Verif.Spec.DCP
open Verif.V3

/-- `p` is a point of the segment between `a` and `b`. -/
def OnSegment (a b p : V3) : Prop := ∃ s : ℝ, 0 ≤ s ∧ s ≤ 1 ∧ p = (1 - s) • a + s • b

end Verif.Spec.DCP
