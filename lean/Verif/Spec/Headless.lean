import Verif.Spec.Rename
/-! Configurations in which some rods are turned over, so that the head of the rod is where its tail was. -/
namespace Verif.Spec.Headless
open Verif.Sim Verif.V3 Verif.Spec.Resume

/-- What is seen of a body if those in `S` are turned over. -/
noncomputable def seenOver (S : ℤ → Bool) (b : Sylinder) : (ℤ × ℤ × Bool × ℝ × ℝ) × V3 × V3 := (kind b, b.pos, if S b.gid then -b.direction else b.direction)

/-- The bodies of `L'` are those of `L`, in any order, those in `S` turned over. -/
def TurnedOver (S : ℤ → Bool) (L L' : List Sylinder) : Prop := (L.map (seenOver S)).Perm (L'.map seen)

/-- The bodies in `S` are not linked to others. -/
def Unlinked (S : ℤ → Bool) (C : Sim.Cfg) : Prop := ∀ l ∈ C.linkMap, S l.1 = false ∧ S l.2 = false

/-- Rods are longer than `2⁻²⁵·⁵`, that is `sqrt (2 eps)` for the precision `eps` of `double`, in the size for collisions. -/
def Long (C : Sim.Cfg) (L : List Sylinder) : Prop := ∀ b ∈ L, Rename.Rod C b → 2 * DCP.dblEps ≤ (b.length * C.place.lengthColRatio) ^ 2

end Verif.Spec.Headless
