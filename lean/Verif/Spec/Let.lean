import Verif.Model.Let
import Verif.Spec.Walk
import Verif.Spec.Image
import Verif.Spec.Morton
/-! What the exchange of particles between ranks is to do. -/
namespace Verif.Let
open Tree Image

/-- `T` is a tree for the particles `es`: they are sorted by some key in any way, and the tree is built over them. -/
def BuiltFrom {α : Type} (f : Morton.Frame) (big : ℝ) (limit : ℕ) (es : List (Ep α)) (T : MTree α) : Prop :=
  ∃ keys, Built big keys T ∧ T.limit = limit ∧ T.eps.Perm es ∧ T.eps.map (fun e => Morton.getKey f e.pos) = keys.map some

/-- The particles, trees and domains the exchange starts from: every rank has built the tree of its own particles, which lie
in its domain and inside the root domain. -/
structure World {α : Type} (d : Dinfo) (f : Morton.Frame) (big : ℝ) (T : ℕ → MTree α) : Prop where
  built : ∀ r < d.n, ∃ keys, Built big keys (T r)
  inDom : ∀ r < d.n, ∀ e ∈ (T r).eps, Box.MemHalf e.pos (d.dom r)
  radius : ∀ r < d.n, ∀ e ∈ (T r).eps, 0 ≤ e.rs
  proper : ∀ r < d.n, Box.Proper (d.dom r)
  inRoot : ∀ r < d.n, ∀ p, Box.Mem p (d.dom r) → Box.Mem p d.root
  extent : Extent d.pa d.size
  /-- the number that stands for infinity is large -/
  small : (d.pa.x = true → d.size.x < 2 * big) ∧ (d.pa.y = true → d.size.y < 2 * big) ∧ (d.pa.z = true → d.size.z < 2 * big)
  /-- the root cell contains all images that can be sent, in one direction or the other -/
  cell : ∀ a < d.n, ∀ b < d.n, ∀ s, Allowed d.pa s → ((T a).mom 0).vout.overlapped (d.image b s) →
    (∀ e ∈ (T a).eps, Morton.InRoot f (e.pos - shiftOf d.size s)) ∧ ∀ e ∈ (T b).eps, Morton.InRoot f (e.pos + shiftOf d.size s)
  /-- the start value of the search for runs is no image -/
  near : Allowed d.pa ⟨9999, 9999, 9999⟩ → ∀ a < d.n, ∀ b < d.n, ¬ ((T a).mom 0).vout.overlapped (d.image b ⟨9999, 9999, 9999⟩)

/-- The code builds trees for received particles. -/
def Builds {α : Type} (f : Morton.Frame) (big : ℝ) (build : List (Ep α) → Option (MTree α)) : Prop :=
  ∀ es, es ≠ [] → (∀ e ∈ es, Morton.InRoot f e.pos) → ∃ A, build es = some A ∧ BuiltFrom f big 1 es A

/-- The particle number `o.2.1` of rank `o.1`, displaced by `o.2.2` box lengths. -/
noncomputable def copyOf {α : Type} (d : Dinfo) (T : ℕ → MTree α) (o : ℕ × ℕ × Idx) : Option (Ep α) :=
  ((T o.1).eps[o.2.1]?).map (fun e => ⟨e.pos + shiftOf d.size o.2.2, e.rs, e.data⟩)

end Verif.Let
