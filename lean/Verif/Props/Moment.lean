import Verif.Lemmas.Moment
import Verif.Spec.Moment
import Mathlib.Algebra.Order.Ring.Abs
import Mathlib.Tactic.Linarith
import Mathlib.Tactic.NormNum
/-! C71: the boxes of the tree cells. -/
namespace Verif
open Tree

/-- For every linked tree, every old content of the cells and every order of the parallel loops, `CalcMoment` stays
inside its arrays; afterwards the inner box of every cell contains the positions of its particles, and the outer box
contains everything within the search radii of its particles; and if all coordinates fit, they are the smallest such
boxes.  Empty cells have empty boxes. -/
theorem C71_cell_boxes {α : Type} (big : ℝ) (r : Result) (keys : List (BitVec 64)) (limit : ℕ)
    (order : ℕ → ℕ → List ℕ) (hord : ∀ l r, (order l r).Perm (List.range' l (r - l))) (eps : List (Ep α))
    (hL : Linked r keys limit) (hlen : eps.length = keys.length) (mom : ℕ → Mom) :
    ∃ mom', calcMoment big limit order r eps mom = some mom' ∧ ∀ lev c a n, IsTree r keys limit lev c a n →
      Covers (mom' c).vin (Centres eps a n) ∧ Covers (mom' c).vout (Reach eps a n) ∧
      (0 < n → (∀ e ∈ eps, Fits big e) → Tight (mom' c).vin (Centres eps a n) ∧ Tight (mom' c).vout (Reach eps a n)) ∧
      (n = 0 → (mom' c).vin = Box.negative big ∧ (mom' c).vout = Box.negative big) := by
  obtain ⟨mom', h1, h2⟩ := calcMoment_eq big r keys limit order hord eps hL hlen mom
  refine ⟨mom', h1, fun lev c a n ht => ?_⟩
  have hm := h2 lev c a n (Nat.zero_le _) ht
  have hin : Covers (mom' c).vin (Centres eps a n) := by
    rintro p ⟨i, e, i1, i2, he, rfl⟩
    rw [hm]; exact (mem_hull big (mem_slice eps a n i e i1 i2 he)).1
  have hout : Covers (mom' c).vout (Reach eps a n) := by
    rintro p ⟨i, e, i1, i2, he, hx, hy, hz⟩
    rw [hm]
    apply (mem_hull big (mem_slice eps a n i e i1 i2 he)).2.mem
    rw [abs_le] at hx hy hz
    refine ⟨⟨?_, ?_⟩, ⟨?_, ?_⟩, ?_, ?_⟩ <;> simp only [Box.around] <;> linarith
  refine ⟨hin, hout, fun hn hfit => ?_, fun hn => ?_⟩
  · have hle : a + n ≤ eps.length := by
      rw [hlen]
      cases ht with
      | empty => omega
      | leaf => assumption
      | node => assumption
    obtain ⟨e0, he0⟩ : ∃ e, eps[a]? = some e := ⟨_, List.getElem?_eq_getElem (by omega)⟩
    have hneg : ∀ B : Box, (∀ p, p = e0.pos → Box.Mem p B) → Box.Le (Box.negative big) B := by
      intro B hB
      obtain ⟨f0, f1, f2, f3⟩ := hfit e0 (List.mem_of_getElem? he0)
      obtain ⟨⟨b1, b2⟩, ⟨b3, b4⟩, b5, b6⟩ := hB _ rfl
      have g1 := abs_le.mp (show |e0.pos.x| ≤ big by linarith)
      have g2 := abs_le.mp (show |e0.pos.y| ≤ big by linarith)
      have g3 := abs_le.mp (show |e0.pos.z| ≤ big by linarith)
      refine ⟨⟨?_, ?_⟩, ⟨?_, ?_⟩, ?_, ?_⟩ <;> simp only [Box.negative] <;> linarith
    have hsl : ∀ e ∈ slice eps a n, ∃ i, a ≤ i ∧ i < a + n ∧ eps[i]? = some e := by
      intro e he
      obtain ⟨k, hk⟩ := List.mem_iff_getElem?.mp he
      have hkn : k < n := by
        have h := (List.getElem?_eq_some_iff.mp hk).1
        rw [slice, List.length_take] at h
        omega
      rw [slice, List.getElem?_take_of_lt hkn, List.getElem?_drop] at hk
      exact ⟨a + k, by omega, by omega, hk⟩
    have hnonneg : ∀ (i : ℕ) (e : Ep α), eps[i]? = some e → 0 ≤ e.rs := fun i e he => (hfit e (List.mem_of_getElem? he)).1
    constructor
    · refine ⟨hin, fun B hB p hp => ?_⟩
      rw [hm] at hp
      have hB0 := hneg B (fun p hp => hB p ⟨a, e0, le_refl _, by omega, he0, hp⟩)
      -- the outer boxes are bounded by the outer box itself
      refine (hull_le big (C := (hull big (slice eps a n)).vout) hB0 (init_le_hull big _).2 (l := slice eps a n)
        (fun e he => ?_)).1.mem hp
      obtain ⟨i, i1, i2, hi⟩ := hsl e he
      exact ⟨hB _ ⟨i, e, i1, i2, hi, rfl⟩, (mem_hull big he).2⟩
    · refine ⟨hout, fun B hB p hp => ?_⟩
      rw [hm] at hp
      have hself : ∀ (i : ℕ) (e : Ep α), eps[i]? = some e → a ≤ i → i < a + n → ∀ q, Box.Mem q (Box.around e.pos e.rs) → Box.Mem q B := by
        intro i e he i1 i2 q hq
        apply hB q
        refine ⟨i, e, i1, i2, he, ?_⟩
        obtain ⟨⟨b1, b2⟩, ⟨b3, b4⟩, b5, b6⟩ := hq
        simp only [Box.around] at b1 b2 b3 b4 b5 b6
        refine ⟨abs_le.mpr ⟨?_, ?_⟩, abs_le.mpr ⟨?_, ?_⟩, abs_le.mpr ⟨?_, ?_⟩⟩ <;> linarith
      have hproper : ∀ (i : ℕ) (e : Ep α), eps[i]? = some e → Box.Proper (Box.around e.pos e.rs) := fun i e he => by
        have := hnonneg i e he
        refine ⟨?_, ?_, ?_⟩ <;> simp only [Box.around] <;> linarith
      have hB0 := hneg B (fun p hp => hself a e0 he0 (le_refl _) (by omega) p (by
        subst hp
        have := hnonneg a e0 he0
        refine ⟨⟨?_, ?_⟩, ⟨?_, ?_⟩, ?_, ?_⟩ <;> simp only [Box.around] <;> linarith))
      refine (hull_le big (B := (hull big (slice eps a n)).vin) (init_le_hull big _).1 hB0 (l := slice eps a n)
        (fun e he => ?_)).2.mem hp
      obtain ⟨i, i1, i2, hi⟩ := hsl e he
      exact ⟨(mem_hull big he).1, (Box.le_iff_mem (hproper i e hi)).mpr (hself i e hi i1 i2)⟩
  · subst hn
    rw [hm, slice_zero]
    exact ⟨rfl, rfl⟩

/-- A tree of one cell with one particle. -/
def oneCell : Result := ⟨fun c => if c = 0 then ⟨1, some 8, some 0, 0⟩ else ⟨0, none, none, 0⟩, 16, 0,
  fun l => if l = 0 then 0 else 8⟩

theorem oneCell_linked (k : BitVec 64) : Linked oneCell [k] 1 := by
  refine ⟨?_, rfl, rfl, Nat.zero_le _, ?_⟩
  · exact IsTree.leaf 0 0 0 1 (by decide) (by decide) (by decide) (by decide) (by decide) (by decide) (by decide) rfl
      (by simp) (Or.inl (by decide))
  · intro lev c h1 _ h3
    obtain rfl : lev = 0 := by simpa [oneCell] using h1
    have h8 : c < 8 := by simpa [oneCell] using h3
    by_cases h0 : c = 0
    · subst h0
      exact ⟨0, 1, IsTree.leaf 0 0 0 1 (by decide) (by decide) (by decide) (by decide) (by decide) (by decide)
        (by decide) rfl (by simp) (Or.inl (by decide))⟩
    · refine ⟨0, 0, IsTree.empty 0 c 0 ?_ ?_ ?_ (le_refl _) ?_ ?_⟩ <;> simp [oneCell, h0] <;> omega

example : Linked oneCell [7#64] 1 ∧ ∀ e ∈ [Ep.mk ⟨1, 2, 3⟩ 2 ()], Fits 100 e :=
  ⟨oneCell_linked _, by
    intro e he
    obtain rfl := List.mem_singleton.mp he
    simp only [Fits]
    norm_num⟩

/-- A coordinate above the number that stands for infinity makes the boxes too large. -/
theorem C71_huge_coordinates_false (big : ℝ) (hb : 0 < big) (mom : ℕ → Mom) :
    ∃ mom', calcMoment big 1 (fun l r => List.range' l (r - l)) oneCell [Ep.mk ⟨2 * big, 0, 0⟩ 0 ()] mom = some mom' ∧
      ¬ Tight (mom' 0).vin (Centres [Ep.mk ⟨2 * big, 0, 0⟩ 0 ()] 0 1) := by
  obtain ⟨mom', h1, h2⟩ := calcMoment_eq big oneCell [7#64] 1 (fun l r => List.range' l (r - l))
    (fun l r => List.Perm.refl _) [Ep.mk ⟨2 * big, 0, 0⟩ 0 ()] (oneCell_linked _) rfl mom
  refine ⟨mom', h1, fun h => ?_⟩
  have hm := h2 0 0 0 1 (le_refl _) (oneCell_linked _).root
  have h3 := h.2 ⟨⟨2 * big, 0, 0⟩, ⟨2 * big, 0, 0⟩⟩ (by
    rintro p ⟨i, e, _, i2, he, rfl⟩
    obtain rfl : i = 0 := by omega
    obtain rfl := Option.some.inj he
    exact ⟨⟨le_refl _, le_refl _⟩, ⟨le_refl _, le_refl _⟩, le_refl _, le_refl _⟩) ⟨big, 0, 0⟩ (by
      rw [hm]
      simp only [hull, slice, List.drop_zero, List.take, List.foldl, Mom.atLeaf, Mom.init, Box.mergePos, Box.negative,
        Box.pickMin_eq, Box.pickMax_eq, Box.Mem]
      refine ⟨⟨min_le_left _ _, le_trans (by linarith) (le_max_right _ _)⟩, ⟨min_le_right _ _, le_max_right _ _⟩,
        min_le_right _ _, le_max_right _ _⟩)
  have := h3.1.1
  simp only at this
  linarith

end Verif
