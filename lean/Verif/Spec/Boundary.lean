import Verif.Model.V3
/-! The three boundary surfaces and nearest points. -/
namespace Verif.Spec.Boundary
open Verif.V3

/-- Points of the sphere. -/
def OnSphere (c : V3) (r : ℝ) (p : V3) : Prop := (p - c).norm = r

/-- Points of the plane through `c` with normal direction `n` (of any length). -/
def OnPlane (c n p : V3) : Prop := dot (p - c) n = 0

/-- `f` is the foot of the perpendicular from `p` to the line through `c` with direction `a`. -/
def IsFoot (c a p f : V3) : Prop := (∃ s : ℝ, f = c + s • a) ∧ dot (p - f) a = 0

/-- Points of the infinite cylinder around the line through `c` with direction `a` (of any length). -/
def OnTube (c a : V3) (r : ℝ) (p : V3) : Prop := ∃ f, IsFoot c a p f ∧ (p - f).norm = r

/-- `p` is a point of the surface with the smallest distance from `q`. -/
def Nearest (S : V3 → Prop) (q p : V3) : Prop := S p ∧ ∀ p', S p' → (q - p).norm ≤ (q - p').norm

/-- `d` has the direction of `n` and the length `l`. -/
def Along (d n : V3) (l : ℝ) : Prop := d.norm = l ∧ ∃ k : ℝ, 0 ≤ k ∧ d = k • n

end Verif.Spec.Boundary
