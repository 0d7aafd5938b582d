import Verif.Model.Boundary
import Verif.Spec.Boundary
namespace Verif.V3

theorem norm_zero : norm 0 = 0 := (norm_eq_zero 0).2 rfl

theorem sub_eq_zero (a b : V3) : a - b = 0 ↔ a = b := by
  constructor
  · intro h
    have hx := congrArg V3.x h; have hy := congrArg V3.y h; have hz := congrArg V3.z h
    simp at hx hy hz
    ext <;> linarith
  · rintro rfl; ext <;> simp

theorem normalized_zero : normalized 0 = 0 := by
  unfold normalized; rw [if_neg]; simp [normSq, dot]

theorem normalized_eq (a : V3) (h : a ≠ 0) : normalized a = (1 / norm a) • a := by
  unfold normalized; rw [if_pos (normSq_pos a h)]

theorem normalized_smul_pos (k : ℝ) (hk : 0 < k) (a : V3) : normalized (k • a) = normalized a := by
  by_cases h : a = 0
  · subst h
    have : k • (0 : V3) = 0 := by ext <;> simp
    rw [this]
  · have h' : k • a ≠ 0 := by
      intro h0
      have := congrArg norm h0
      rw [norm_smul, norm_zero, abs_of_pos hk] at this
      exact absurd this (by have := norm_pos a h; positivity)
    have hp := norm_pos a h
    rw [normalized_eq _ h', normalized_eq _ h, norm_smul, abs_of_pos hk]
    ext <;> simp <;> field_simp

theorem normSq_one_of_norm (a : V3) (h : norm a = 1) : dot a a = 1 := by
  have := norm_mul_self a
  rw [h] at this; unfold normSq at this; linarith

theorem abs_norm_sub_le (a b : V3) : |norm a - norm b| ≤ norm (a - b) := by
  rw [abs_le]
  constructor
  · have := norm_sub_le b a 0
    have e1 : b - 0 = b := by ext <;> simp
    have e2 : a - 0 = a := by ext <;> simp
    rw [e1, e2, norm_sub_comm b a] at this; linarith
  · have := norm_sub_le a b 0
    have e1 : b - 0 = b := by ext <;> simp
    have e2 : a - 0 = a := by ext <;> simp
    rw [e1, e2] at this; linarith

theorem normSq_normalized (a : V3) (h : a ≠ 0) : dot (normalized a) (normalized a) = 1 :=
  normSq_one_of_norm _ (norm_normalized a h)

/-- Component perpendicular to a unit vector is not longer. -/
theorem norm_perp_le (v u : V3) (hu : dot u u = 1) : norm (v - (dot v u) • u) ≤ norm v := by
  unfold norm
  apply Real.sqrt_le_sqrt
  have : normSq (v - (dot v u) • u) = normSq v - (dot v u) ^ 2 * (2 - dot u u) := by
    simp only [normSq, dot, sub_x, sub_y, sub_z, smul_x, smul_y, smul_z]; ring
  rw [this, hu]
  nlinarith [sq_nonneg (dot v u)]

theorem dot_le_one (a b : V3) (ha : norm a = 1) (hb : norm b ≤ 1) : dot a b ≤ 1 := by
  have := dot_le_norm_mul a b
  rw [ha] at this; linarith

theorem norm_normalized_le (a : V3) : norm (normalized a) ≤ 1 := by
  by_cases h : a = 0
  · subst h; rw [normalized_zero, norm_zero]; norm_num
  · rw [norm_normalized a h]

end Verif.V3
