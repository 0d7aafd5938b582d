import Verif.Spec.Near
/-! Pairs of rods that are not confused by a tolerance. -/
namespace Verif.Spec.Near
open Verif.V3 Verif.Near Verif.Collector

/-- `f` is the foot on the axis of `b` of the perpendicular from `q`. -/
def FootOn (b : EP) (q f : V3) : Prop := Core b f ∧ dot b.direction (q - f) = 0

/-- The axes are parallel; or no perpendicular from the axis of `b` meets the axis of `a`; or two such perpendiculars
differ by at least `2^-25.5` (times the length of `b` if that is larger than one). -/
def ClearPair (a b : EP) : Prop :=
  (b.direction = a.direction ∨ b.direction = -a.direction) ∨
  (∀ q f, Core b q → ¬ FootOn a q f) ∨
  ∃ q q' f f', Core b q ∧ Core b q' ∧ FootOn a q f ∧ FootOn a q' f' ∧
    max (b.lengthCollision ^ 2) 1 / 2 ^ 51 ≤ normSq ((q - f) - (q' - f'))

end Verif.Spec.Near
