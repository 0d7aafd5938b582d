import Verif.Model.Force
import Verif.Spec.Let
import Verif.Spec.Radix
/-! What `calcForceAll` has to do. -/
namespace Verif.Force
open Tree Image Let

/-- The particles and domains `calcForceAll` starts from: every particle lies in the domain of its rank, the domains in the
root domain. -/
structure Setup {α : Type} (c : Config) (d : Dinfo) (P : ℕ → List (Ep α)) : Prop where
  inDom : ∀ r < d.n, ∀ e ∈ P r, Box.MemHalf e.pos (d.dom r)
  radius : ∀ r < d.n, ∀ e ∈ P r, 0 ≤ e.rs
  proper : ∀ r < d.n, Box.Proper (d.dom r)
  inRoot : ∀ r < d.n, ∀ p, Box.Mem p (d.dom r) → Box.Mem p d.root
  extent : Extent d.pa d.size
  /-- along periodic axes the coordinates are smaller than the number that stands for infinity -/
  small : (d.pa.x = true → -c.big < d.root.low.x ∧ d.root.high.x < c.big) ∧
    (d.pa.y = true → -c.big < d.root.low.y ∧ d.root.high.y < c.big) ∧ (d.pa.z = true → -c.big < d.root.low.z ∧ d.root.high.z < c.big)
  /-- not everything is in one point without search radius and with open boundaries -/
  spread : ∀ r < d.n, ∀ e ∈ P r, d.pa.some ∨ ∃ r' < d.n, ∃ e' ∈ P r', 0 < e'.rs ∨ e'.pos ≠ e.pos
  /-- the search radii are shorter than 9998 boxes -/
  short : d.pa.x = true → ∀ r < d.n, ∀ e ∈ P r, e.rs < 9998 * d.size.x
  leaf : 1 ≤ c.leaf
  group : c.leaf ≤ c.group
  threads : 1 ≤ c.nt

/-- The orders of the loops leave out nothing and repeat nothing. -/
def TreeExec.Valid (x : TreeExec) : Prop :=
  (∀ l r, (x.order l r).Perm (List.range' l (r - l))) ∧ ∀ l r, (x.order' l r).Perm (List.range' l (r - l))

/-- What is assumed of the runtime and of `std::sort` on a rank with the particles `es`. -/
structure RankExec.Valid {α : Type} (c : Config) (es : List (Ep α)) (x : RankExec α) : Prop where
  chunks : x.chunks.flatten.Perm es
  sortLoc : ∀ n, (x.sortLoc n).buf.length = n ∧ ∀ l, Radix.Static n c.nt ((x.sortLoc n).s l)
  sortGlb : ∀ n, (x.sortGlb n).buf.length = n ∧ ∀ l, Radix.Static n c.nt ((x.sortGlb n).s l)
  treeLoc : x.treeLoc.Valid
  treeGlb : x.treeGlb.Valid
  srt : ∀ l, (x.srt l).Perm l ∧ (x.srt l).Pairwise (fun s t => s.key.toNat ≤ t.key.toNat)
  treeSnd : ∀ l, (x.treeSnd l).Valid
  groups : ∀ n, (x.groups n).Perm (List.range n)
  back : ∀ n, (x.back n).Perm (List.range n)

/-- The particle number `o.2.1` of rank `o.1`, displaced by `o.2.2` box lengths. -/
noncomputable def copyAt {α : Type} (d : Dinfo) (P : ℕ → List (Ep α)) (o : ℕ × ℕ × Idx) : Option (Ep α) :=
  ((P o.1)[o.2.1]?).map fun e => ⟨e.pos + ⟨o.2.2.x * (d.root.high.x - d.root.low.x), o.2.2.y * (d.root.high.y - d.root.low.y),
    o.2.2.z * (d.root.high.z - d.root.low.z)⟩, e.rs, e.data⟩

/-- A call of the functor: the numbers of the particles of the group, where the particles of the interaction list come from,
and the two lists of particles. -/
structure Call (α : Type) where
  is : List ℕ
  js : List (ℕ × ℕ × Idx)
  ei : List (Ep α)
  ej : List (Ep α)

/-- The call is one for particles of rank `b`; its interaction list has existing particles, displaced along periodic axes,
none twice, and it has all of them that are within the search radius of a particle of the group, or have a particle of the
group in theirs. -/
structure Call.Good {α : Type} (d : Dinfo) (P : ℕ → List (Ep α)) (b : ℕ) (c : Call α) : Prop where
  ei : c.ei.map some = c.is.map (fun (i : ℕ) => (P b)[i]?)
  ej : c.ej.map some = c.js.map (copyAt d P)
  nodup : c.js.Nodup
  valid : ∀ o ∈ c.js, o.1 < d.n ∧ Allowed d.pa o.2.2
  complete : ∀ i ∈ c.is, ∀ (a j : ℕ) (k : Idx) (e e' : Ep α), a < d.n → Allowed d.pa k → (P b)[i]? = some e →
    copyAt d P (a, j, k) = some e' → (e.pos - e'.pos).normSq ≤ max (e.rs * e.rs) (e'.rs * e'.rs) → (a, j, k) ∈ c.js

/-- The forces and the output of rank `b` are those of good calls of the functor, in which every particle of the rank takes
part exactly once. -/
def Computes {α R O : Type} (d : Dinfo) (P : ℕ → List (Ep α)) (b : ℕ) (ftr : List (Ep α) → List (Ep α) → List R × List O)
    (forces : List (Option R)) (out : List O) : Prop :=
  forces.length = (P b).length ∧ ∃ calls : List (Call α), (calls.flatMap Call.is).Perm (List.range (P b).length) ∧
    (∀ c ∈ calls, c.Good d P b ∧ c.is.map (fun (i : ℕ) => forces[i]?) = (ftr c.ei c.ej).1.map (fun r => some (some r))) ∧
    out = calls.flatMap (fun c => (ftr c.ei c.ej).2)

end Verif.Force
