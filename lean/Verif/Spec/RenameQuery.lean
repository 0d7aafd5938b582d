import Verif.Spec.DCPError
/-! Segments whose closest points are decided clearly. -/
namespace Verif.Spec.Rename
open Verif.V3 Verif.Spec.DCP

/-- No perpendicular from a point of the segment `Q0 Q1` meets the segment `P0 P1`, or there are two of them that differ by at least `sqrt (2 eps max(|Q|^2,1))`. -/
def Aslant (eps : ℝ) (P0 P1 Q0 Q1 : V3) : Prop :=
  (∀ x f, OnSegment Q0 Q1 x → ¬ Foot P0 P1 x f) ∨
    ∃ x y fx fy, OnSegment Q0 Q1 x ∧ OnSegment Q0 Q1 y ∧ Foot P0 P1 x fx ∧ Foot P0 P1 y fy ∧ 2 * eps * max (normSq (Q1 - Q0)) 1 ≤ normSq ((x - fx) - (y - fy))

/-- Two segments not shorter than `sqrt (2 eps)` that are parallel, or clearly not parallel. -/
def Decided (eps : ℝ) (P0 P1 Q0 Q1 : V3) : Prop :=
  2 * eps ≤ normSq (P1 - P0) ∧ 2 * eps ≤ normSq (Q1 - Q0) ∧ ((∃ l : ℝ, Q1 - Q0 = l • (P1 - P0)) ∨ (Aslant eps P0 P1 Q0 Q1 ∧ Aslant eps Q0 Q1 P0 P1))

end Verif.Spec.Rename
