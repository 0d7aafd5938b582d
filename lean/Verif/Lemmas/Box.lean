import Verif.Spec.Box
import Mathlib.Order.MinMax
/-! Lemmas about boxes. -/
namespace Verif.Box

theorem pickMax_eq (a b : ℝ) : pickMax a b = max a b := by
  unfold pickMax
  split
  · rename_i h; exact (max_eq_left (le_of_lt h)).symm
  · rename_i h; exact (max_eq_right (not_lt.mp h)).symm

theorem pickMin_eq (a b : ℝ) : pickMin a b = min a b := by
  unfold pickMin
  split
  · rename_i h; exact (min_eq_left h).symm
  · rename_i h; exact (min_eq_right (le_of_lt (not_le.mp h))).symm

theorem contained_iff (b : Box) (p : V3) : b.contained p ↔ MemHalf p b := by
  unfold contained MemHalf
  simp only [not_or, not_lt, not_le]
  tauto

theorem overlappedPos_iff (b : Box) (p : V3) : b.overlappedPos p ↔ Mem p b := by
  unfold overlappedPos Mem
  simp only [not_or, not_lt]
  tauto

theorem overlapped_iff (b a : Box) : b.overlapped a ↔
    (b.low.x ≤ a.high.x ∧ a.low.x ≤ b.high.x) ∧ (b.low.y ≤ a.high.y ∧ a.low.y ≤ b.high.y) ∧
      (b.low.z ≤ a.high.z ∧ a.low.z ≤ b.high.z) := by
  unfold overlapped
  simp only [not_or, not_lt]
  tauto

theorem overlapped_comm (a b : Box) : a.overlapped b ↔ b.overlapped a := by
  rw [overlapped_iff, overlapped_iff]; tauto

theorem overlapped_of_mem {a b : Box} {p : V3} (ha : Mem p a) (hb : Mem p b) : a.overlapped b := by
  rw [overlapped_iff]
  obtain ⟨⟨a1, a2⟩, ⟨a3, a4⟩, a5, a6⟩ := ha
  obtain ⟨⟨b1, b2⟩, ⟨b3, b4⟩, b5, b6⟩ := hb
  exact ⟨⟨le_trans a1 b2, le_trans b1 a2⟩, ⟨le_trans a3 b4, le_trans b3 a4⟩, le_trans a5 b6, le_trans b5 a6⟩

theorem mem_shift (b : Box) (v p : V3) : Mem p (b.shift v) ↔ Mem (p - v) b := by
  unfold Mem shift
  simp only [V3.add_x, V3.add_y, V3.add_z, V3.sub_x, V3.sub_y, V3.sub_z]
  constructor <;> rintro ⟨⟨_, _⟩, ⟨_, _⟩, _, _⟩ <;> refine ⟨⟨?_, ?_⟩, ⟨?_, ?_⟩, ?_, ?_⟩ <;> linarith

theorem memHalf_shift (b : Box) (v p : V3) : MemHalf p (b.shift v) ↔ MemHalf (p - v) b := by
  unfold MemHalf shift
  simp only [V3.add_x, V3.add_y, V3.add_z, V3.sub_x, V3.sub_y, V3.sub_z]
  constructor <;> rintro ⟨⟨_, _⟩, ⟨_, _⟩, _, _⟩ <;> refine ⟨⟨?_, ?_⟩, ⟨?_, ?_⟩, ?_, ?_⟩ <;> linarith

theorem MemHalf.mem {p : V3} {b : Box} (h : MemHalf p b) : Mem p b :=
  ⟨⟨h.1.1, le_of_lt h.1.2⟩, ⟨h.2.1.1, le_of_lt h.2.1.2⟩, h.2.2.1, le_of_lt h.2.2.2⟩

theorem Mem.proper {p : V3} {b : Box} (h : Mem p b) : Proper b :=
  ⟨le_trans h.1.1 h.1.2, le_trans h.2.1.1 h.2.1.2, le_trans h.2.2.1 h.2.2.2⟩

/-- The cube around a point. -/
noncomputable def around (p : V3) (r : ℝ) : Box := ⟨⟨p.x - r, p.y - r, p.z - r⟩, ⟨p.x + r, p.y + r, p.z + r⟩⟩

theorem mergePos_eq (a : Box) (p : V3) : a.mergePos p = a.merge ⟨p, p⟩ := rfl
theorem mergeSphere_eq (a : Box) (p : V3) (r : ℝ) : a.mergeSphere p r = a.merge (around p r) := rfl

theorem merge_assoc (a b c : Box) : (a.merge b).merge c = a.merge (b.merge c) := by
  simp only [merge, pickMax_eq, pickMin_eq, max_assoc, min_assoc]

theorem merge_comm (a b : Box) : a.merge b = b.merge a := by
  simp only [merge, pickMax_eq, pickMin_eq, max_comm, min_comm]

theorem merge_self (a : Box) : a.merge a = a := by
  simp only [merge, pickMax_eq, pickMin_eq, max_self, min_self]

/-- `a` lies inside `b`, coordinate by coordinate. -/
def Le (a b : Box) : Prop :=
  (b.low.x ≤ a.low.x ∧ a.high.x ≤ b.high.x) ∧ (b.low.y ≤ a.low.y ∧ a.high.y ≤ b.high.y) ∧
    (b.low.z ≤ a.low.z ∧ a.high.z ≤ b.high.z)

theorem Le.refl (a : Box) : Le a a := ⟨⟨le_refl _, le_refl _⟩, ⟨le_refl _, le_refl _⟩, le_refl _, le_refl _⟩

theorem Le.trans {a b c : Box} (h : Le a b) (h' : Le b c) : Le a c := by
  obtain ⟨⟨a1, a2⟩, ⟨a3, a4⟩, a5, a6⟩ := h
  obtain ⟨⟨b1, b2⟩, ⟨b3, b4⟩, b5, b6⟩ := h'
  exact ⟨⟨le_trans b1 a1, le_trans a2 b2⟩, ⟨le_trans b3 a3, le_trans a4 b4⟩, le_trans b5 a5, le_trans a6 b6⟩

theorem Le.mem {a b : Box} {p : V3} (h : Le a b) (hp : Mem p a) : Mem p b := by
  obtain ⟨⟨a1, a2⟩, ⟨a3, a4⟩, a5, a6⟩ := h
  obtain ⟨⟨b1, b2⟩, ⟨b3, b4⟩, b5, b6⟩ := hp
  exact ⟨⟨le_trans a1 b1, le_trans b2 a2⟩, ⟨le_trans a3 b3, le_trans b4 a4⟩, le_trans a5 b5, le_trans b6 a6⟩

theorem Le.overlapped {a b c : Box} (h : Le a b) (ho : c.overlapped a) : c.overlapped b := by
  rw [overlapped_iff] at *
  obtain ⟨⟨a1, a2⟩, ⟨a3, a4⟩, a5, a6⟩ := h
  obtain ⟨⟨b1, b2⟩, ⟨b3, b4⟩, b5, b6⟩ := ho
  exact ⟨⟨le_trans b1 a2, le_trans a1 b2⟩, ⟨le_trans b3 a4, le_trans a3 b4⟩, le_trans b5 a6, le_trans a5 b6⟩

theorem le_merge_left (a b : Box) : Le a (a.merge b) := by
  simp only [Le, merge, pickMax_eq, pickMin_eq]
  exact ⟨⟨min_le_left _ _, le_max_left _ _⟩, ⟨min_le_left _ _, le_max_left _ _⟩, min_le_left _ _, le_max_left _ _⟩

theorem le_merge_right (a b : Box) : Le b (a.merge b) := by
  rw [merge_comm]; exact le_merge_left b a

theorem merge_le {a b c : Box} (ha : Le a c) (hb : Le b c) : Le (a.merge b) c := by
  obtain ⟨⟨a1, a2⟩, ⟨a3, a4⟩, a5, a6⟩ := ha
  obtain ⟨⟨b1, b2⟩, ⟨b3, b4⟩, b5, b6⟩ := hb
  simp only [Le, merge, pickMax_eq, pickMin_eq]
  exact ⟨⟨le_min a1 b1, max_le a2 b2⟩, ⟨le_min a3 b3, max_le a4 b4⟩, le_min a5 b5, max_le a6 b6⟩

theorem merge_eq_right {a b : Box} (h : Le a b) : a.merge b = b := by
  obtain ⟨⟨a1, a2⟩, ⟨a3, a4⟩, a5, a6⟩ := h
  simp only [merge, pickMax_eq, pickMin_eq, max_eq_right a2, max_eq_right a4, max_eq_right a6, min_eq_right a1,
    min_eq_right a3, min_eq_right a5]

theorem le_iff_mem {a b : Box} (ha : Proper a) : Le a b ↔ ∀ p, Mem p a → Mem p b := by
  constructor
  · exact fun h p hp => h.mem hp
  · intro h
    obtain ⟨h1, h2, h3⟩ := ha
    obtain ⟨⟨l1, _⟩, ⟨l2, _⟩, l3, _⟩ := h a.low ⟨⟨le_refl _, h1⟩, ⟨le_refl _, h2⟩, le_refl _, h3⟩
    obtain ⟨⟨_, u1⟩, ⟨_, u2⟩, _, u3⟩ := h a.high ⟨⟨h1, le_refl _⟩, ⟨h2, le_refl _⟩, h3, le_refl _⟩
    exact ⟨⟨l1, u1⟩, ⟨l2, u2⟩, l3, u3⟩

theorem axisDist_le (lo hi t q : ℝ) (h1 : lo ≤ q) (h2 : q ≤ hi) :
    axisDist lo hi t * axisDist lo hi t ≤ (q - t) * (q - t) := by
  unfold axisDist
  split
  · nlinarith
  · split
    · nlinarith
    · nlinarith [mul_self_nonneg (q - t)]

theorem axisDist_attained (lo hi t : ℝ) (h : lo ≤ hi) :
    ∃ q, lo ≤ q ∧ q ≤ hi ∧ (q - t) * (q - t) = axisDist lo hi t * axisDist lo hi t := by
  unfold axisDist
  split
  · exact ⟨hi, h, le_refl _, by ring⟩
  · split
    · exact ⟨lo, le_refl _, h, by ring⟩
    · exact ⟨t, by linarith, by linarith, by ring⟩

theorem axisDistBox_le (alo ahi blo bhi p q : ℝ) (h1 : alo ≤ p) (h2 : p ≤ ahi) (h3 : blo ≤ q) (h4 : q ≤ bhi) :
    axisDistBox alo ahi blo bhi * axisDistBox alo ahi blo bhi ≤ (q - p) * (q - p) := by
  unfold axisDistBox
  simp only
  split
  · split
    · rename_i g1 g2
      have : 0 < blo - ahi := by
        by_contra hc
        nlinarith
      nlinarith
    · rename_i g1 g2
      have : 0 < alo - bhi := by
        by_contra hc
        nlinarith
      nlinarith
  · nlinarith [mul_self_nonneg (q - p)]

theorem axisDistBox_attained (alo ahi blo bhi : ℝ) (ha : alo ≤ ahi) (hb : blo ≤ bhi) :
    ∃ p q, (alo ≤ p ∧ p ≤ ahi) ∧ (blo ≤ q ∧ q ≤ bhi) ∧
      (q - p) * (q - p) = axisDistBox alo ahi blo bhi * axisDistBox alo ahi blo bhi := by
  unfold axisDistBox
  simp only
  split
  · split
    · exact ⟨ahi, blo, ⟨ha, le_refl _⟩, ⟨le_refl _, hb⟩, by ring⟩
    · exact ⟨alo, bhi, ⟨le_refl _, ha⟩, ⟨hb, le_refl _⟩, by ring⟩
  · rename_i g
    have h1 : blo ≤ ahi := by
      by_contra hc
      exact g (by nlinarith)
    have h2 : alo ≤ bhi := by
      by_contra hc
      exact g (by nlinarith)
    refine ⟨max alo blo, max alo blo, ⟨le_max_left _ _, max_le ha h1⟩, ⟨le_max_right _ _, max_le h2 hb⟩, by ring⟩

end Verif.Box
