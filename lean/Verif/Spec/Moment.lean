import Verif.Model.Moment
import Verif.Spec.Tree
import Verif.Spec.Box
/-! What the boxes of a tree cell are. -/
namespace Verif.Tree

/-- The box contains the set `s`. -/
def Covers (b : Box) (s : V3 → Prop) : Prop := ∀ p, s p → Box.Mem p b

/-- The box is the smallest one that contains the set `s`. -/
def Tight (b : Box) (s : V3 → Prop) : Prop := Covers b s ∧ ∀ B, Covers B s → ∀ p, Box.Mem p b → Box.Mem p B

/-- The positions of the particles `a, …, a + n - 1`. -/
def Centres {α : Type} (eps : List (Ep α)) (a n : ℕ) (p : V3) : Prop :=
  ∃ i e, a ≤ i ∧ i < a + n ∧ eps[i]? = some e ∧ p = e.pos

/-- The points within the search radius of one of the particles `a, …, a + n - 1`, along every axis. -/
def Reach {α : Type} (eps : List (Ep α)) (a n : ℕ) (p : V3) : Prop :=
  ∃ i e, a ≤ i ∧ i < a + n ∧ eps[i]? = some e ∧
    |p.x - e.pos.x| ≤ e.rs ∧ |p.y - e.pos.y| ≤ e.rs ∧ |p.z - e.pos.z| ≤ e.rs

/-- No coordinate, with the search radius added, is larger than the number that stands for infinity. -/
def Fits {α : Type} (big : ℝ) (e : Ep α) : Prop :=
  0 ≤ e.rs ∧ |e.pos.x| + e.rs ≤ big ∧ |e.pos.y| + e.rs ≤ big ∧ |e.pos.z| + e.rs ≤ big

end Verif.Tree
