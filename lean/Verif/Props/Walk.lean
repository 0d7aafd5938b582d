import Verif.Lemmas.Groups
import Verif.Spec.Moment
import Mathlib.Tactic.Linarith
import Mathlib.Algebra.Order.Ring.Abs
import Mathlib.Tactic.NormNum
/-! C72, C73: groups of particles and their interaction lists. -/
namespace Verif
open Tree

/-- `LinkCell` and `CalcMoment` always succeed, so there is a built tree for all particles. -/
theorem built_exists {α : Type} (big : ℝ) (keys : List (BitVec 64)) (hs : SortedKeys keys) (limit : ℕ) (hl : 1 ≤ limit)
    (eps : List (Ep α)) (hlen : eps.length = keys.length) :
    ∃ T : MTree α, Built big keys T ∧ T.eps = eps ∧ T.limit = limit := by
  obtain ⟨r, R, h1, h2⟩ := linkCell_final keys hs limit hl (fun l r => List.range' l (r - l)) (fun _ _ => List.Perm.refl _)
    (fun _ => 0) (fun _ => ⟨0, none, none, 0⟩)
  obtain ⟨mom, h3, _⟩ := calcMoment_eq big r keys limit (fun l r => List.range' l (r - l)) (fun _ _ => List.Perm.refl _)
    eps (linked_of_final keys limit R r h2) hlen (fun _ => Mom.init big)
  exact ⟨⟨r, mom, eps, limit⟩, ⟨_, _, _, _, _, fun _ _ => List.Perm.refl _, fun _ _ => List.Perm.refl _, hs, hl, hlen, h1, h3⟩,
    rfl, rfl⟩

/-- The interaction list of a target box lists, each once, exactly the particles whose search sphere meets the inner
box or which lie in the outer box.  The walk never leaves the arrays and nests at most 22 calls. -/
theorem C72_interaction_list {α : Type} (big : ℝ) (keys : List (BitVec 64)) (T : MTree α) (hT : Built big keys T)
    (tb : Target) (hb : Box.Proper tb.vin) (hr : ∀ e ∈ T.eps, 0 ≤ e.rs) :
    ∃ L, interactionList T tb = some L ∧ L.Nodup ∧ ∀ i, i ∈ L ↔ ∃ e, T.eps[i]? = some e ∧
      ((∃ q, Box.Mem q tb.vin ∧ (q - e.pos).normSq ≤ e.rs * e.rs) ∨ Box.Mem e.pos tb.vout) := by
  obtain ⟨L, h1, h2, h3⟩ := interactionList_spec hT.good tb hb hr
  refine ⟨L, h1, h2.imp (fun h => by omega), fun i => ?_⟩
  rw [h3]
  constructor
  · rintro ⟨e, he, hk⟩
    refine ⟨e, he, ?_⟩
    rcases hk with hk | hk
    · left
      obtain ⟨q, q1, q2⟩ := distMinSq_attained tb.vin e.pos hb
      exact ⟨q, q1, by rw [← q2]; exact hk⟩
    · right; exact (Box.overlappedPos_iff _ _).mp hk
  · rintro ⟨e, he, hk⟩
    refine ⟨e, he, ?_⟩
    rcases hk with ⟨q, q1, q2⟩ | hk
    · left; exact le_trans (distMinSq_le tb.vin e.pos q q1) q2
    · right; exact (Box.overlappedPos_iff _ _).mpr hk

example : ∃ T : MTree Unit, Built 100 [0#64, 3#64, 3#64, 9#64] T ∧ (∀ e ∈ T.eps, 0 ≤ e.rs) ∧
    Box.Proper (⟨⟨0, 0, 0⟩, ⟨1, 1, 1⟩⟩ : Box) := by
  obtain ⟨T, h1, h2, _⟩ := built_exists 100 [0#64, 3#64, 3#64, 9#64] ⟨by simp, by simp⟩ 1 (le_refl _)
    [Ep.mk ⟨0, 0, 0⟩ 1 (), Ep.mk ⟨0, 1, 1⟩ 1 (), Ep.mk ⟨0, 1, 1⟩ 0 (), Ep.mk ⟨2, 2, 3⟩ 3 ()] rfl
  refine ⟨T, h1, ?_, ?_⟩
  · rw [h2]; intro e he
    simp only [List.mem_cons, List.not_mem_nil, or_false] at he
    rcases he with h | h | h | h <;> subst h <;> norm_num
  · simp only [Box.Proper]; norm_num

/-- The groups are consecutive blocks that hold every particle exactly once; the inner box of a group contains the
positions of its members, the outer box everything within their search radii; a group has at most `n_group_limit`
members unless they sit in one cell of the last level. -/
theorem C73_groups_partition {α : Type} (big : ℝ) (keys : List (BitVec 64)) (T : MTree α) (hT : Built big keys T)
    (glimit : ℕ) (hgl : T.limit ≤ glimit) :
    ∃ gs, ipGroups T glimit = some gs ∧ Tiling 0 keys.length gs ∧
      (∀ i < keys.length, ∃ (k : ℕ) (g : Group), gs[k]? = some g ∧ g.adr ≤ i ∧ i < g.adr + g.n ∧
        ∀ (k' : ℕ) (g' : Group), gs[k']? = some g' → g'.adr ≤ i → i < g'.adr + g'.n → k' = k) ∧
      ∀ g ∈ gs, Covers g.vin (Centres T.eps g.adr g.n) ∧ Covers g.vout (Reach T.eps g.adr g.n) ∧ Box.Proper g.vin ∧
        (g.n ≤ glimit ∨ ∃ c, IsTree T.r keys T.limit 21 c g.adr g.n) := by
  obtain ⟨gs, h1, h2, h3⟩ := makeGroups_spec hT.good glimit hgl hT.good.linked.root depth (by decide)
  rw [Nat.zero_add] at h2
  refine ⟨gs, h1, h2, fun i hi => h2.exists i (Nat.zero_le _) hi, fun g hg => ?_⟩
  have hok := h3 g hg
  have hcov : Covers g.vin (Centres T.eps g.adr g.n) := by
    rintro p ⟨i, e, i1, i2, he, rfl⟩
    rw [hok.vin]
    exact (mem_hull big (mem_slice T.eps g.adr g.n i e i1 i2 he)).1
  refine ⟨hcov, ?_, ?_, hok.size⟩
  · rintro p ⟨i, e, i1, i2, he, hx, hy, hz⟩
    rw [hok.vout]
    apply (mem_hull big (mem_slice T.eps g.adr g.n i e i1 i2 he)).2.mem
    rw [abs_le] at hx hy hz
    refine ⟨⟨?_, ?_⟩, ⟨?_, ?_⟩, ?_, ?_⟩ <;> simp only [Box.around] <;> linarith
  · have hpos : ∀ {a b : ℕ} {gs : List Group}, Tiling a b gs → ∀ g ∈ gs, 0 < g.n := by
      intro a b gs h
      induction h with
      | nil => simp
      | cons a b g gs _ h2 _ ih =>
        intro g' hg'
        rcases List.mem_cons.mp hg' with h | h
        · subst h; exact h2
        · exact ih g' h
    have hn := hpos h2 g hg
    have hrange := (h2.range.2 g hg).2
    have hlen := hT.good.len
    exact (hcov _ ⟨g.adr, _, le_refl _, by omega, List.getElem?_eq_getElem (by omega), rfl⟩).proper

/-- No neighbour is missed: if the particle `j` of the (global) tree is within the search radius of the member `i` of a
group of the (local) tree, or the other way round, then `j` is in the interaction list of the group. -/
theorem C72_no_neighbour_missed {α β : Type} (big big' : ℝ) (keys keys' : List (BitVec 64)) (Tl : MTree α) (Tg : MTree β)
    (hl : Built big keys Tl) (hg : Built big' keys' Tg) (hr : ∀ e ∈ Tg.eps, 0 ≤ e.rs) (hrl : ∀ e ∈ Tl.eps, 0 ≤ e.rs)
    (glimit : ℕ) (hgl : Tl.limit ≤ glimit) (gs : List Group) (hgs : ipGroups Tl glimit = some gs) (g : Group) (hmem : g ∈ gs)
    (i j : ℕ) (ei : Ep α) (ej : Ep β) (hi : Tl.eps[i]? = some ei) (hj : Tg.eps[j]? = some ej) (h1 : g.adr ≤ i)
    (h2 : i < g.adr + g.n) (hd : (ei.pos - ej.pos).normSq ≤ ei.rs * ei.rs ∨ (ei.pos - ej.pos).normSq ≤ ej.rs * ej.rs) :
    ∃ L, interactionList Tg ⟨g.vin, g.vout⟩ = some L ∧ j ∈ L := by
  obtain ⟨gs', e1, _, _, e4⟩ := C73_groups_partition big keys Tl hl glimit hgl
  obtain rfl := Option.some.inj (e1.symm.trans hgs)
  obtain ⟨c1, c2, c3, _⟩ := e4 g hmem
  obtain ⟨L, f1, _, f3⟩ := C72_interaction_list big' keys' Tg hg ⟨g.vin, g.vout⟩ c3 hr
  refine ⟨L, f1, (f3 j).mpr ⟨ej, hj, ?_⟩⟩
  rcases hd with hd | hd
  · right
    apply c2
    have hsym : (ej.pos - ei.pos).normSq ≤ ei.rs * ei.rs := by
      have : (ej.pos - ei.pos).normSq = (ei.pos - ej.pos).normSq := by
        simp only [V3.normSq, V3.dot, V3.sub_x, V3.sub_y, V3.sub_z]; ring
      rw [this]; exact hd
    obtain ⟨⟨x1, x2⟩, ⟨y1, y2⟩, z1, z2⟩ := normSq_around (hrl ei (List.mem_of_getElem? hi)) hsym
    simp only [Box.around] at x1 x2 y1 y2 z1 z2
    refine ⟨i, ei, h1, h2, hi, abs_le.mpr ⟨?_, ?_⟩, abs_le.mpr ⟨?_, ?_⟩, abs_le.mpr ⟨?_, ?_⟩⟩ <;> linarith
  · left
    exact ⟨ei.pos, c1 _ ⟨i, ei, h1, h2, hi, rfl⟩, hd⟩

example : ∃ T : MTree Unit, ∃ gs g, Built 100 [0#64, 3#64] T ∧ ipGroups T 2 = some gs ∧ g ∈ gs ∧ g.adr ≤ 1 ∧
    1 < g.adr + g.n ∧ ∃ ei ej, T.eps[1]? = some ei ∧ T.eps[0]? = some ej ∧
      (ei.pos - ej.pos).normSq ≤ ej.rs * ej.rs := by
  obtain ⟨T, h1, h2, h3⟩ := built_exists 100 [0#64, 3#64] ⟨by simp, by simp⟩ 1 (le_refl _)
    [Ep.mk ⟨0, 0, 0⟩ 2 (), Ep.mk ⟨0, 1, 1⟩ 1 ()] rfl
  obtain ⟨gs, e1, _, e3, _⟩ := C73_groups_partition 100 _ T h1 2 (by omega)
  obtain ⟨k, g, k1, k2, k3, _⟩ := e3 1 (by simp)
  refine ⟨T, gs, g, h1, e1, List.mem_of_getElem? k1, k2, k3, _, _, by rw [h2]; rfl, by rw [h2]; rfl, ?_⟩
  simp only [V3.normSq, V3.dot, V3.sub_x, V3.sub_y, V3.sub_z]
  norm_num

end Verif
