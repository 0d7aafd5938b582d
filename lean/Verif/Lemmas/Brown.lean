import Verif.Lemmas.Step
import Verif.Lemmas.Orient
namespace Verif.Mobility
open Verif.V3 Verif.Spec.Mobility

/-- The factorisation of a symmetric matrix with positive leading minors. -/
theorem lltL_spec (a : Mat3) (s01 : a 0 1 = a 1 0) (s02 : a 0 2 = a 2 0) (s12 : a 1 2 = a 2 1) (d1 : 0 < a 0 0)
    (d2 : 0 < a 0 0 * a 1 1 - a 1 0 * a 1 0)
    (d3 : 0 < a 0 0 * (a 1 1 * a 2 2 - a 2 1 * a 2 1) - a 1 0 * (a 1 0 * a 2 2 - a 2 1 * a 2 0) +
      a 2 0 * (a 1 0 * a 2 1 - a 1 1 * a 2 0)) : lltL a * (lltL a).transpose = a := by
  set D2 := a 0 0 * a 1 1 - a 1 0 * a 1 0 with hD2
  set D3 := a 0 0 * (a 1 1 * a 2 2 - a 2 1 * a 2 1) - a 1 0 * (a 1 0 * a 2 2 - a 2 1 * a 2 0) +
      a 2 0 * (a 1 0 * a 2 1 - a 1 1 * a 2 0) with hD3
  set r := Real.sqrt (a 0 0) with hr
  have hr2 : r * r = a 0 0 := Real.mul_self_sqrt d1.le
  have hrp : 0 < r := Real.sqrt_pos.2 d1
  have hx1 : a 1 1 - a 1 0 / r * (a 1 0 / r) = D2 / a 0 0 := by
    rw [hD2, ← hr2]; field_simp
  have hx1p : 0 < D2 / a 0 0 := by positivity
  set t := Real.sqrt (D2 / a 0 0) with ht
  have ht2 : t * t = D2 / a 0 0 := Real.mul_self_sqrt hx1p.le
  have htp : 0 < t := Real.sqrt_pos.2 hx1p
  have hll : a 2 0 / r * (a 1 0 / r) = a 2 0 * a 1 0 / a 0 0 := by rw [← hr2]; field_simp
  have hl20 : a 2 0 / r * (a 2 0 / r) = a 2 0 * a 2 0 / a 0 0 := by rw [← hr2]; field_simp
  have hl21 : (a 2 1 - a 2 0 / r * (a 1 0 / r)) / t * ((a 2 1 - a 2 0 / r * (a 1 0 / r)) / t) =
      (a 2 1 - a 2 0 * a 1 0 / a 0 0) ^ 2 / (D2 / a 0 0) := by
    rw [← ht2, hll]; field_simp
  have hx2 : a 2 2 - (a 2 0 / r * (a 2 0 / r) + (a 2 1 - a 2 0 / r * (a 1 0 / r)) / t * ((a 2 1 - a 2 0 / r * (a 1 0 / r)) / t)) =
      D3 / D2 := by
    rw [hl20, hl21, eq_div_iff d2.ne']
    have h0 := d1.ne'
    have : (a 2 1 - a 2 0 * a 1 0 / a 0 0) ^ 2 / (D2 / a 0 0) * D2 = (a 2 1 - a 2 0 * a 1 0 / a 0 0) ^ 2 * a 0 0 := by
      field_simp
    rw [sub_mul, add_mul, this, hD3, hD2]
    field_simp
    ring
  have hx2p : 0 < D3 / D2 := by positivity
  set u := Real.sqrt (D3 / D2) with hu
  have hu2 : u * u = D3 / D2 := Real.mul_self_sqrt hx2p.le
  have hL : lltL a = !![r, 0, 0; a 1 0 / r, t, 0; a 2 0 / r, (a 2 1 - a 2 0 / r * (a 1 0 / r)) / t, u] := by
    unfold lltL
    simp only
    rw [if_neg (not_le.2 d1), ← hr, hx1, if_neg (not_le.2 hx1p), ← ht, hx2, if_neg (not_le.2 hx2p)]
  rw [hL]
  ext i j
  fin_cases i <;> fin_cases j
  · simp [Matrix.mul_apply, Fin.sum_univ_three, hr2]
  · simp [Matrix.mul_apply, Fin.sum_univ_three, s01]; field_simp
  · simp [Matrix.mul_apply, Fin.sum_univ_three, s02]; field_simp
  · simp [Matrix.mul_apply, Fin.sum_univ_three]; field_simp
  · simp [Matrix.mul_apply, Fin.sum_univ_three]; rw [ht2, ← hx1]; ring
  · simp only [Matrix.mul_apply, Fin.sum_univ_three]; simp [s12]; field_simp; ring
  · simp [Matrix.mul_apply, Fin.sum_univ_three]; field_simp
  · simp only [Matrix.mul_apply, Fin.sum_univ_three]; simp; field_simp; ring
  · simp only [Matrix.mul_apply, Fin.sum_univ_three]; simp; rw [hu2, ← hx2]; ring

/-- The translational mobility of a body. -/
noncomputable def nmat (a b : ℝ) (q : V3) : Mat3 := (a - b) • outer q + b • (1 : Mat3)

theorem nmat_eq (a b : ℝ) (q : V3) : nmat a b q = a • outer q + b • (1 - outer q) := by
  unfold nmat; rw [sub_smul, smul_sub]; abel

theorem lltL_nmat (a b : ℝ) (ha : 0 < a) (hb : 0 < b) (q : V3) (hq : dot q q = 1) :
    lltL (nmat a b q) * (lltL (nmat a b q)).transpose = nmat a b q := by
  have hq : q.x * q.x + q.y * q.y + q.z * q.z = 1 := hq
  have hx := mul_self_nonneg q.x
  have hy := mul_self_nonneg q.y
  have hz := mul_self_nonneg q.z
  apply lltL_spec
  · simp [nmat, outer, mul_comm]
  · simp [nmat, outer, mul_comm]
  · simp [nmat, outer, mul_comm]
  · simp [nmat, outer]
    have : (a - b) * (q.x * q.x) + b = a * (q.x * q.x) + b * (q.y * q.y + q.z * q.z) := by linear_combination (-b) * hq
    rw [this]
    rcases eq_or_lt_of_le hx with h | h
    · rw [← h]; rw [← h] at hq
      have : q.y * q.y + q.z * q.z = 1 := by linarith
      rw [this]; linarith
    · have : 0 < a * (q.x * q.x) := mul_pos ha h
      have : 0 ≤ b * (q.y * q.y + q.z * q.z) := mul_nonneg hb.le (by linarith)
      linarith
  · simp [nmat, outer]
    have : ((a - b) * (q.x * q.x) + b) * ((a - b) * (q.y * q.y) + b) - (a - b) * (q.y * q.x) * ((a - b) * (q.y * q.x)) =
        b * (b * (q.z * q.z) + a * (q.x * q.x + q.y * q.y)) := by linear_combination (- b ^ 2) * hq
    rw [← sub_pos, this]
    apply mul_pos hb
    rcases eq_or_lt_of_le hz with h | h
    · have : q.x * q.x + q.y * q.y = 1 := by linarith
      rw [← h, this]; linarith
    · have : 0 < b * (q.z * q.z) := mul_pos hb h
      have : 0 ≤ a * (q.x * q.x + q.y * q.y) := mul_nonneg ha.le (by linarith)
      linarith
  · have : 0 < a * b ^ 2 := by positivity
    convert this using 1
    simp [nmat, outer]
    linear_combination ((a - b) * b ^ 2) * hq

theorem mul3_smul (c : ℝ) (m : Mat3) (v : V3) : mul3 (c • m) v = c • mul3 m v := by
  ext <;> simp [mul3] <;> ring

theorem mul3_neg (m : Mat3) (v : V3) : mul3 m (-v) = -mul3 m v := by
  ext <;> simp [mul3] <;> ring

theorem mul3_zero (v : V3) : mul3 0 v = 0 := by
  ext <;> simp [mul3]

theorem brown_immovable (mu dt kBT : ℝ) (hdt : dt ≠ 0) (W : Draws) (s : Sylinder) (h : s.isImmovable = true) :
    brownBody mu dt kBT W s = some { s with velBrown := 0, omegaBrown := 0 } := by
  unfold brownBody
  rw [if_neg hdt]
  simp only [dragInv, h, if_true, Option.map_some]
  have hz : ∀ q : V3, (0 - 0 : ℝ) • outer q + (0 : ℝ) • (1 : Mat3) = 0 := fun q => by simp
  have hl : lltL 0 = 0 := by
    ext i j
    fin_cases i <;> fin_cases j <;> simp [lltL, lower]
  simp only [hz, hl, sub_self, mul3_zero, Real.sqrt_zero, zero_mul]
  congr 2 <;> (ext <;> simp [mul3, hl])

end Verif.Mobility
