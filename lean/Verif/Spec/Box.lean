import Verif.Model.Box
/-! Boxes as sets of points. -/
namespace Verif.Box

/-- The closed box as a set. -/
def Mem (p : V3) (b : Box) : Prop :=
  (b.low.x ≤ p.x ∧ p.x ≤ b.high.x) ∧ (b.low.y ≤ p.y ∧ p.y ≤ b.high.y) ∧ (b.low.z ≤ p.z ∧ p.z ≤ b.high.z)

/-- The half-open box as a set. -/
def MemHalf (p : V3) (b : Box) : Prop :=
  (b.low.x ≤ p.x ∧ p.x < b.high.x) ∧ (b.low.y ≤ p.y ∧ p.y < b.high.y) ∧ (b.low.z ≤ p.z ∧ p.z < b.high.z)

/-- The box has a point. -/
def Proper (b : Box) : Prop := b.low.x ≤ b.high.x ∧ b.low.y ≤ b.high.y ∧ b.low.z ≤ b.high.z

end Verif.Box
