import Verif.Props.DCP
/-! Two segments for which `DCPQuery` is wrong: the line on which the derivative along the first segment is zero cuts off a corner of the square of parameters that is smaller than the tolerance. -/
namespace Verif.DCP
open Verif.V3

theorem dblEps_small : dblEps ≤ 1 / 1000 := by unfold dblEps; norm_num

/-- The parameters found: the middle of the line in the corner. -/
theorem parameters_corner (k : Coef) (L α : ℝ) (hL : 1 / 100 ≤ L) (hα : 2 ≤ α) (ka : k.a = L * α) (kb : k.b = L * (1 + dblEps)) (kc : k.c = L) (kd : k.d = L)
    (ke : k.e = 0) : parameters dblEps k = some ⟨dblEps / α / 2, (1 / (1 + dblEps) + 1) / 2, true⟩ := by
  set η := dblEps with hη
  have h0 : 0 < η := dblEps_pos
  have h1 : η ≤ 1 / 1000 := dblEps_small
  have h2 : η ≤ L / 10 := by rw [hη]; unfold dblEps; linarith [show (1 : ℝ) / 2 ^ 52 ≤ 1 / 1000 by norm_num]
  have hL0 : 0 < L := by linarith
  have hα0 : 0 < α := by linarith
  have hapos : 0 < k.a := by rw [ka]; positivity
  have ha2 : 2 * L ≤ k.a := by rw [ka]; nlinarith
  have f00 : k.f00 = L := by simp [Coef.f00, kd]
  have f10 : k.f10 = L + k.a := by simp [Coef.f10, f00]
  have f01 : k.f01 = -(L * η) := by simp [Coef.f01, f00, kb]; ring
  have f11 : k.f11 = k.a - L * η := by simp [Coef.f11, f10, kb]; ring
  have hs0 : getClampedRoot η k.a k.f00 k.f10 = some (0, false) := by
    obtain ⟨r, m, hr, -⟩ := getClampedRoot_some η k.a k.f00 k.f10 (by simp [Coef.f10]) hapos
    have hm := getClampedRoot_exact η k.a k.f00 k.f10 (by simp [Coef.f10]) hapos (by linarith) r m hr
    subst hm
    obtain ⟨r', m', hr', _, _, hroot, _⟩ := getClampedRoot_some η k.a k.f00 k.f10 (by simp [Coef.f10]) hapos
    rw [hr] at hr'
    injection hr' with hr'
    injection hr' with e1 e2
    subst e1 e2
    have hR := hroot rfl
    have : r = 0 := by
      by_contra hc
      have := hR.lt_zero hapos (lt_of_le_of_ne hR.lo (Ne.symm hc))
      rw [f00] at this; linarith
    rw [hr, this]
  have hs1 : getClampedRoot η k.a k.f01 k.f11 = some (η / α, false) := by
    obtain ⟨r, m, hr, _, _, hroot, _⟩ := getClampedRoot_some η k.a k.f01 k.f11
      (by simp [Coef.f10, Coef.f11, Coef.f01]) hapos
    have hm := getClampedRoot_exact η k.a k.f01 k.f11 (by simp [Coef.f10, Coef.f11, Coef.f01]) hapos (by linarith) r m hr
    subst hm
    have hR := hroot rfl
    have hLη : 0 < L * η := by positivity
    have hr0 : 0 < r := by
      by_contra hc
      have := (hR.low (not_lt.1 hc)).2
      rw [f01] at this; linarith
    have hr1 : r < 1 := by
      by_contra hc
      have := (hR.high (not_lt.1 hc)).2
      rw [f01] at this
      nlinarith
    have := hR.mid hr0 hr1
    rw [f01, ka] at this
    have e : r = η / α := by
      rw [eq_div_iff hα0.ne']
      have : L * (r * α) = L * η := by linarith
      exact mul_left_cancel₀ hL0.ne' this
    rw [hr, e]
  have hsp : 0 < η / α := by positivity
  have hsl : η / α < 1 := by rw [div_lt_one hα0]; linarith
  have hsη : η / α ≤ η / 2 := by apply div_le_div_of_nonneg_left <;> linarith
  have c0 : classify 0 = -1 := by simp [classify]
  have c1 : classify (η / α) = 0 := by
    unfold classify
    rw [if_neg (not_le.2 hsp), if_neg (not_le.2 hsl)]
  have hq0 : 0 ≤ 1 / (1 + η) := by positivity
  have hq1 : 1 / (1 + η) ≤ 1 := by rw [div_le_one (by linarith)]; linarith
  have hrat : ratio k.f00 k.b = some (1 / (1 + η)) := by
    unfold ratio
    have hb : k.b ≠ 0 := by rw [kb]; positivity
    have e : k.f00 / k.b = 1 / (1 + η) := by rw [f00, kb]; field_simp
    rw [if_neg hb, e]
    simp only
    rw [if_neg]
    rintro (h | h) <;> linarith
  have hci : computeIntersection k 0 (η / α) (-1) 0 = some (⟨0, 0, 1 / (1 + η)⟩, ⟨3, η / α, 1⟩) := by
    unfold computeIntersection
    rw [hrat]
    simp
  have hd : 1 - 1 / (1 + η) = η / (1 + η) := by field_simp; ring
  have hd0 : 0 < η / (1 + η) := by positivity
  have hdη : η / (1 + η) < η := by rw [div_lt_iff₀ (by linarith)]; nlinarith
  have hcm : computeMinimum η k ⟨0, 0, 1 / (1 + η)⟩ ⟨3, η / α, 1⟩ = some ⟨η / α / 2, (1 / (1 + η) + 1) / 2, true⟩ := by
    unfold computeMinimum
    simp only
    rw [if_pos]
    · congr 2 <;> ring
    rw [hd, kb, kc, ke, abs_of_pos hL0]
    constructor
    · have e : η / (1 + η) * (-(L * (1 + η)) * 0 - 0 + L * (1 / (1 + η))) = L * (η / (1 + η) * (1 / (1 + η))) := by ring
      rw [e, abs_of_nonneg (by positivity)]
      apply mul_lt_mul_of_pos_left _ hL0
      nlinarith
    · have e : η / (1 + η) * (-(L * (1 + η)) * (η / α) - 0 + L * 1) = L * (η / (1 + η) * (1 - (1 + η) * (η / α))) := by ring
      have hx0 : 0 ≤ 1 - (1 + η) * (η / α) := by nlinarith
      have hx1 : 1 - (1 + η) * (η / α) ≤ 1 := by
        have : 0 ≤ (1 + η) * (η / α) := by positivity
        linarith
      rw [e, abs_of_nonneg (by positivity)]
      apply mul_lt_mul_of_pos_left _ hL0
      nlinarith
  unfold parameters
  rw [if_pos ⟨hapos, by rw [kc]; exact hL0⟩]
  simp only [hs0, hs1, Option.bind_eq_bind, Option.bind_some, c0, c1]
  rw [if_neg (by decide), if_neg (by decide), hci]
  simp only [Option.bind_some]
  rw [hcm]
  rfl

/-- Two segments from nearly the same place: the ends `o` and `o + (0, ℓ/2, 0)` are at distance `ℓ/2`; the distance found is above `ℓ`. -/
theorem query_corner (o : V3) (l : ℝ) (hl : 1 / 10 ≤ l) : ∃ r, query dblEps (o + ⟨0, l / 2, 0⟩) (o + ⟨l * (1 + dblEps), l * (5 / 2), 0⟩) o (o + ⟨l, 0, 0⟩) = some r ∧
    (11 / 10) * l ≤ r.distance := by
  have h0 : 0 < dblEps := dblEps_pos
  have h1 : dblEps ≤ 1 / 1000 := dblEps_small
  have hp := parameters_corner (coef (o + ⟨0, l / 2, 0⟩) (o + ⟨l * (1 + dblEps), l * (5 / 2), 0⟩) o (o + ⟨l, 0, 0⟩)) (l ^ 2) ((1 + dblEps) ^ 2 + 4)
    (by nlinarith) (by nlinarith) (by simp only [coef, dot, sub_x, sub_y, sub_z, add_x, add_y, add_z]; ring)
    (by simp only [coef, dot, sub_x, sub_y, sub_z, add_x, add_y, add_z]; ring) (by simp only [coef, dot, sub_x, sub_y, sub_z, add_x, add_y, add_z]; ring)
    (by simp only [coef, dot, sub_x, sub_y, sub_z, add_x, add_y, add_z]; ring) (by simp only [coef, dot, sub_x, sub_y, sub_z, add_x, add_y, add_z]; ring)
  refine ⟨_, query_eq dblEps _ _ _ _ _ hp, ?_⟩
  show _ ≤ V3.norm _
  apply Real.le_sqrt_of_sq_le
  simp only [normSq, dot, sub_x, sub_y, sub_z, smul_x, smul_y, smul_z, add_x, add_y, add_z]
  set η := dblEps
  have hx0 : 0 ≤ η / ((1 + η) ^ 2 + 4) := by positivity
  have hx1 : η / ((1 + η) ^ 2 + 4) ≤ η := by rw [div_le_iff₀ (by positivity)]; nlinarith
  have hy : 999 / 1000 ≤ 1 / (1 + η) := by rw [le_div_iff₀ (by linarith)]; linarith
  set x := η / ((1 + η) ^ 2 + 4)
  set y := 1 / (1 + η)
  have e1 : ∀ o : ℝ, (1 - x / 2) * (o + 0) + x / 2 * (o + l * (1 + η)) - ((1 - (y + 1) / 2) * o + (y + 1) / 2 * (o + l)) =
      -(l * ((y + 1) / 2 - x / 2 * (1 + η))) := fun o => by ring
  have e2 : ∀ o : ℝ, (1 - x / 2) * (o + l / 2) + x / 2 * (o + l * (5 / 2)) - ((1 - (y + 1) / 2) * o + (y + 1) / 2 * (o + 0)) = l * (1 / 2 + x) := fun o => by ring
  have e3 : ∀ o : ℝ, (1 - x / 2) * (o + 0) + x / 2 * (o + 0) - ((1 - (y + 1) / 2) * o + (y + 1) / 2 * (o + 0)) = 0 := fun o => by ring
  rw [e1, e2, e3]
  have hA : 998 / 1000 ≤ (y + 1) / 2 - x / 2 * (1 + η) := by nlinarith
  have hB : 1 / 2 ≤ 1 / 2 + x := by linarith
  have hA2 : (998 / 1000) ^ 2 ≤ ((y + 1) / 2 - x / 2 * (1 + η)) ^ 2 := pow_le_pow_left₀ (by norm_num) hA 2
  have hB2 : (1 / 2) ^ 2 ≤ (1 / 2 + x) ^ 2 := pow_le_pow_left₀ (by norm_num) hB 2
  have : (11 / 10 * l) ^ 2 ≤ l ^ 2 * ((((y + 1) / 2 - x / 2 * (1 + η)) ^ 2) + (1 / 2 + x) ^ 2) := by
    have : (11 / 10 : ℝ) ^ 2 ≤ (((y + 1) / 2 - x / 2 * (1 + η)) ^ 2) + (1 / 2 + x) ^ 2 := by nlinarith
    nlinarith [sq_nonneg l]
  nlinarith

end Verif.DCP
