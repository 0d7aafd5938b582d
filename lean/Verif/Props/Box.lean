import Verif.Lemmas.Box
import Mathlib.Tactic.NormNum
/-! C69: boxes of the domain decomposition and of the tree. -/
namespace Verif
open Box

/-- `contained` is membership in the half-open box, `overlapped` of a point membership in the closed box. -/
theorem C69_point_tests (b : Box) (p : V3) :
    (b.contained p ↔ MemHalf p b) ∧ (b.overlappedPos p ↔ Box.Mem p b) :=
  ⟨contained_iff b p, overlappedPos_iff b p⟩

/-- Two boxes with points overlap exactly when the closed boxes have a point in common. -/
theorem C69_overlap_iff_common_point (a b : Box) (ha : Proper a) (hb : Proper b) :
    a.overlapped b ↔ ∃ p, Box.Mem p a ∧ Box.Mem p b := by
  constructor
  · intro h
    rw [overlapped_iff] at h
    obtain ⟨⟨h1, h2⟩, ⟨h3, h4⟩, h5, h6⟩ := h
    obtain ⟨a1, a2, a3⟩ := ha
    obtain ⟨b1, b2, b3⟩ := hb
    refine ⟨⟨max a.low.x b.low.x, max a.low.y b.low.y, max a.low.z b.low.z⟩, ⟨⟨?_, ?_⟩, ⟨?_, ?_⟩, ?_, ?_⟩,
      ⟨?_, ?_⟩, ⟨?_, ?_⟩, ?_, ?_⟩ <;> simp [*]
  · rintro ⟨p, h1, h2⟩
    exact overlapped_of_mem h1 h2

example : Proper ⟨⟨0, 0, 0⟩, ⟨1, 1, 1⟩⟩ ∧ Proper ⟨⟨1, 1, 1⟩, ⟨2, 1, 3⟩⟩ := by
  unfold Proper; norm_num

/-- `merge` gives the smallest box around both boxes. -/
theorem C69_merge_is_hull (a b c : Box) (ha : Proper a) (hb : Proper b) :
    (∀ p, Box.Mem p (a.merge b) → Box.Mem p c) ↔
      (∀ p, Box.Mem p a → Box.Mem p c) ∧ ∀ p, Box.Mem p b → Box.Mem p c := by
  have hm : Proper (a.merge b) := by
    obtain ⟨a1, a2, a3⟩ := ha
    have h := le_merge_left a b
    exact ⟨le_trans h.1.1 (le_trans a1 h.1.2), le_trans h.2.1.1 (le_trans a2 h.2.1.2),
      le_trans h.2.2.1 (le_trans a3 h.2.2.2)⟩
  rw [← le_iff_mem hm, ← le_iff_mem ha, ← le_iff_mem hb]
  exact ⟨fun h => ⟨(le_merge_left a b).trans h, (le_merge_right a b).trans h⟩, fun h => merge_le h.1 h.2⟩

/-- Merging a point, or a point with a size, is merging the box of that point. -/
theorem C69_merge_points (a : Box) (p : V3) (r : ℝ) (hr : 0 ≤ r) :
    Box.Mem p (a.mergePos p) ∧ (∀ q, (q - p).normSq ≤ r * r → Box.Mem q (a.mergeSphere p r)) ∧
      (∀ q, Box.Mem q a → Box.Mem q (a.mergePos p) ∧ Box.Mem q (a.mergeSphere p r)) := by
  refine ⟨?_, ?_, fun q hq => ⟨?_, ?_⟩⟩
  · rw [mergePos_eq]
    exact (le_merge_right a ⟨p, p⟩).mem ⟨⟨le_refl _, le_refl _⟩, ⟨le_refl _, le_refl _⟩, le_refl _, le_refl _⟩
  · intro q hq
    rw [mergeSphere_eq]
    apply (le_merge_right a (around p r)).mem
    simp only [V3.normSq, V3.dot, V3.sub_x, V3.sub_y, V3.sub_z] at hq
    have hx : (q.x - p.x) ^ 2 ≤ r ^ 2 := by nlinarith [mul_self_nonneg (q.y - p.y), mul_self_nonneg (q.z - p.z)]
    have hy : (q.y - p.y) ^ 2 ≤ r ^ 2 := by nlinarith [mul_self_nonneg (q.x - p.x), mul_self_nonneg (q.z - p.z)]
    have hz : (q.z - p.z) ^ 2 ≤ r ^ 2 := by nlinarith [mul_self_nonneg (q.x - p.x), mul_self_nonneg (q.y - p.y)]
    have hx' := abs_le.mp (abs_le_of_sq_le_sq hx hr)
    have hy' := abs_le.mp (abs_le_of_sq_le_sq hy hr)
    have hz' := abs_le.mp (abs_le_of_sq_le_sq hz hr)
    refine ⟨⟨?_, ?_⟩, ⟨?_, ?_⟩, ?_, ?_⟩ <;> simp only [around] <;> linarith
  · rw [mergePos_eq]; exact (le_merge_left _ _).mem hq
  · rw [mergeSphere_eq]; exact (le_merge_left _ _).mem hq

/-- `getDistanceMinSQ` of a point is the squared distance to the nearest point of the box. -/
theorem C69_distance_to_point (b : Box) (p : V3) (hb : Proper b) :
    (∀ q, Box.Mem q b → b.distMinSq p ≤ (q - p).normSq) ∧ ∃ q, Box.Mem q b ∧ b.distMinSq p = (q - p).normSq := by
  constructor
  · rintro q ⟨⟨h1, h2⟩, ⟨h3, h4⟩, h5, h6⟩
    have hx := axisDist_le _ _ p.x q.x h1 h2
    have hy := axisDist_le _ _ p.y q.y h3 h4
    have hz := axisDist_le _ _ p.z q.z h5 h6
    simp only [distMinSq, V3.normSq, V3.dot, V3.sub_x, V3.sub_y, V3.sub_z]
    linarith
  · obtain ⟨h1, h2, h3⟩ := hb
    obtain ⟨x, x1, x2, x3⟩ := axisDist_attained _ _ p.x h1
    obtain ⟨y, y1, y2, y3⟩ := axisDist_attained _ _ p.y h2
    obtain ⟨z, z1, z2, z3⟩ := axisDist_attained _ _ p.z h3
    refine ⟨⟨x, y, z⟩, ⟨⟨x1, x2⟩, ⟨y1, y2⟩, z1, z2⟩, ?_⟩
    simp only [distMinSq, V3.normSq, V3.dot, V3.sub_x, V3.sub_y, V3.sub_z, x3, y3, z3]

/-- `getDistanceMinSQ` of a box is the squared distance between the nearest points of the two boxes. -/
theorem C69_distance_to_box (b a : Box) (ha : Proper a) (hb : Proper b) :
    (∀ p q, Box.Mem p a → Box.Mem q b → b.distMinSqBox a ≤ (q - p).normSq) ∧
      ∃ p q, Box.Mem p a ∧ Box.Mem q b ∧ b.distMinSqBox a = (q - p).normSq := by
  constructor
  · rintro p q ⟨⟨h1, h2⟩, ⟨h3, h4⟩, h5, h6⟩ ⟨⟨g1, g2⟩, ⟨g3, g4⟩, g5, g6⟩
    have hx := axisDistBox_le _ _ _ _ p.x q.x h1 h2 g1 g2
    have hy := axisDistBox_le _ _ _ _ p.y q.y h3 h4 g3 g4
    have hz := axisDistBox_le _ _ _ _ p.z q.z h5 h6 g5 g6
    simp only [distMinSqBox, V3.normSq, V3.dot, V3.sub_x, V3.sub_y, V3.sub_z]
    linarith
  · obtain ⟨h1, h2, h3⟩ := ha
    obtain ⟨g1, g2, g3⟩ := hb
    obtain ⟨x, x', x1, x2, x3⟩ := axisDistBox_attained _ _ _ _ h1 g1
    obtain ⟨y, y', y1, y2, y3⟩ := axisDistBox_attained _ _ _ _ h2 g2
    obtain ⟨z, z', z1, z2, z3⟩ := axisDistBox_attained _ _ _ _ h3 g3
    refine ⟨⟨x, y, z⟩, ⟨x', y', z'⟩, ⟨x1, y1, z1⟩, ⟨x2, y2, z2⟩, ?_⟩
    simp only [distMinSqBox, V3.normSq, V3.dot, V3.sub_x, V3.sub_y, V3.sub_z, x3, y3, z3]

example : Box.distMinSqBox ⟨⟨0, 0, 0⟩, ⟨1, 1, 1⟩⟩ ⟨⟨3, 0, 0⟩, ⟨4, 1, 1⟩⟩ = 4 := by
  unfold Box.distMinSqBox axisDistBox; norm_num

/-- The box distance is only right for boxes with points: for the box left by `initNegativeVolume` (an empty cell) it is
0, as if the boxes touched. -/
theorem C69_distance_negative_box_false (big : ℝ) (h : 1 < big) :
    Box.distMinSqBox ⟨⟨0, 0, 0⟩, ⟨1, 1, 1⟩⟩ (negative big) = 0 ∧ ¬ ∃ p, Box.Mem p (negative big) := by
  constructor
  · have h1 : ¬ (0 - -big) * (big - 1) < 0 := by nlinarith
    have e : axisDistBox big (-big) 0 1 = 0 := by unfold axisDistBox; exact if_neg h1
    simp only [Box.distMinSqBox, negative, e]
    ring
  · rintro ⟨p, ⟨h1, h2⟩, _⟩
    simp only [negative] at h1 h2
    linarith

/-- Shifting a box shifts its points. -/
theorem C69_shift (b : Box) (v p : V3) :
    (Box.Mem p (b.shift v) ↔ Box.Mem (p - v) b) ∧ (MemHalf p (b.shift v) ↔ MemHalf (p - v) b) :=
  ⟨mem_shift b v p, memHalf_shift b v p⟩

end Verif
