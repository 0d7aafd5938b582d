import Verif.Lemmas.Units
import Verif.Lemmas.Brown
/-! Lemmas for C117: Brownian motion in other units. -/
namespace Verif.Units
open V3 Mobility Spec.Mobility Spec.Units

/-- The second and the third leading minor. -/
noncomputable def minor2 (a : Mobility.Mat3) : ℝ := a 0 0 * a 1 1 - a 1 0 * a 1 0
noncomputable def minor3 (a : Mobility.Mat3) : ℝ := a 0 0 * (a 1 1 * a 2 2 - a 2 1 * a 2 1) - a 1 0 * (a 1 0 * a 2 2 - a 2 1 * a 2 0) + a 2 0 * (a 1 0 * a 2 1 - a 1 1 * a 2 0)

theorem lltL_closed (a : Mobility.Mat3) (d1 : 0 < a 0 0) (d2 : 0 < minor2 a) (d3 : 0 < minor3 a) :
    lltL a = !![Real.sqrt (a 0 0), 0, 0; a 1 0 / Real.sqrt (a 0 0), Real.sqrt (minor2 a / a 0 0), 0;
      a 2 0 / Real.sqrt (a 0 0), (a 2 1 - a 2 0 / Real.sqrt (a 0 0) * (a 1 0 / Real.sqrt (a 0 0))) / Real.sqrt (minor2 a / a 0 0), Real.sqrt (minor3 a / minor2 a)] := by
  unfold minor2 minor3 at *
  set D2 := a 0 0 * a 1 1 - a 1 0 * a 1 0 with hD2
  set D3 := a 0 0 * (a 1 1 * a 2 2 - a 2 1 * a 2 1) - a 1 0 * (a 1 0 * a 2 2 - a 2 1 * a 2 0) +
      a 2 0 * (a 1 0 * a 2 1 - a 1 1 * a 2 0) with hD3
  set r := Real.sqrt (a 0 0) with hr
  have hr2 : r * r = a 0 0 := Real.mul_self_sqrt d1.le
  have hrp : 0 < r := Real.sqrt_pos.2 d1
  have hx1 : a 1 1 - a 1 0 / r * (a 1 0 / r) = D2 / a 0 0 := by
    rw [hD2, ← hr2]; field_simp
  have hx1p : 0 < D2 / a 0 0 := by positivity
  set t := Real.sqrt (D2 / a 0 0) with ht
  have ht2 : t * t = D2 / a 0 0 := Real.mul_self_sqrt hx1p.le
  have htp : 0 < t := Real.sqrt_pos.2 hx1p
  have hll : a 2 0 / r * (a 1 0 / r) = a 2 0 * a 1 0 / a 0 0 := by rw [← hr2]; field_simp
  have hl20 : a 2 0 / r * (a 2 0 / r) = a 2 0 * a 2 0 / a 0 0 := by rw [← hr2]; field_simp
  have hl21 : (a 2 1 - a 2 0 / r * (a 1 0 / r)) / t * ((a 2 1 - a 2 0 / r * (a 1 0 / r)) / t) =
      (a 2 1 - a 2 0 * a 1 0 / a 0 0) ^ 2 / (D2 / a 0 0) := by
    rw [← ht2, hll]; field_simp
  have hx2 : a 2 2 - (a 2 0 / r * (a 2 0 / r) + (a 2 1 - a 2 0 / r * (a 1 0 / r)) / t * ((a 2 1 - a 2 0 / r * (a 1 0 / r)) / t)) =
      D3 / D2 := by
    rw [hl20, hl21, eq_div_iff d2.ne']
    have h0 := d1.ne'
    have : (a 2 1 - a 2 0 * a 1 0 / a 0 0) ^ 2 / (D2 / a 0 0) * D2 = (a 2 1 - a 2 0 * a 1 0 / a 0 0) ^ 2 * a 0 0 := by
      field_simp
    rw [sub_mul, add_mul, this, hD3, hD2]
    field_simp
    ring
  have hx2p : 0 < D3 / D2 := by positivity
  set u := Real.sqrt (D3 / D2) with hu
  have hu2 : u * u = D3 / D2 := Real.mul_self_sqrt hx2p.le
  have hL : lltL a = !![r, 0, 0; a 1 0 / r, t, 0; a 2 0 / r, (a 2 1 - a 2 0 / r * (a 1 0 / r)) / t, u] := by
    unfold lltL
    simp only
    rw [if_neg (not_le.2 d1), ← hr, hx1, if_neg (not_le.2 hx1p), ← ht, hx2, if_neg (not_le.2 hx2p)]
  exact hL

theorem lltL_units {c : ℝ} (hc : 0 < c) (a : Mobility.Mat3) (d1 : 0 < a 0 0) (d2 : 0 < minor2 a) (d3 : 0 < minor3 a) : lltL (c • a) = Real.sqrt c • lltL a := by
  have e2 : minor2 (c • a) = c * c * minor2 a := by unfold minor2; simp only [Matrix.smul_apply, smul_eq_mul]; ring
  have e3 : minor3 (c • a) = c * c * c * minor3 a := by unfold minor3; simp only [Matrix.smul_apply, smul_eq_mul]; ring
  have e1 : (c • a) 0 0 = c * a 0 0 := rfl
  have hs : 0 < Real.sqrt c := Real.sqrt_pos.2 hc
  have hss : Real.sqrt c * Real.sqrt c = c := Real.mul_self_sqrt hc.le
  have h1 : Real.sqrt (c * a 0 0) = Real.sqrt c * Real.sqrt (a 0 0) := Real.sqrt_mul hc.le _
  have h2 : Real.sqrt (c * c * minor2 a / (c * a 0 0)) = Real.sqrt c * Real.sqrt (minor2 a / a 0 0) := by
    rw [← Real.sqrt_mul hc.le]
    congr 1
    field_simp
  have h3 : Real.sqrt (c * c * c * minor3 a / (c * c * minor2 a)) = Real.sqrt c * Real.sqrt (minor3 a / minor2 a) := by
    rw [← Real.sqrt_mul hc.le]
    congr 1
    field_simp
  rw [lltL_closed a d1 d2 d3, lltL_closed (c • a) (by rw [e1]; positivity) (by rw [e2]; positivity) (by rw [e3]; positivity), e1, e2, e3, h1, h2, h3]
  have hr : 0 < Real.sqrt (a 0 0) := Real.sqrt_pos.2 d1
  have ht : 0 < Real.sqrt (minor2 a / a 0 0) := Real.sqrt_pos.2 (by positivity)
  generalize Real.sqrt (a 0 0) = r at *
  generalize Real.sqrt (minor2 a / a 0 0) = t at *
  generalize Real.sqrt (minor3 a / minor2 a) = u at *
  generalize Real.sqrt c = s at *
  subst hss
  ext i j
  fin_cases i <;> fin_cases j <;> simp <;> field_simp

theorem minors_nmat (a b : ℝ) (ha : 0 < a) (hb : 0 < b) (q : V3) (hq : dot q q = 1) : 0 < nmat a b q 0 0 ∧ 0 < minor2 (nmat a b q) ∧ 0 < minor3 (nmat a b q) := by
  have hq : q.x * q.x + q.y * q.y + q.z * q.z = 1 := hq
  have hx := mul_self_nonneg q.x
  have hy := mul_self_nonneg q.y
  have hz := mul_self_nonneg q.z
  unfold minor2 minor3
  refine ⟨?_, ?_, ?_⟩
  · simp [nmat, outer]
    have : (a - b) * (q.x * q.x) + b = a * (q.x * q.x) + b * (q.y * q.y + q.z * q.z) := by linear_combination (-b) * hq
    rw [this]
    rcases eq_or_lt_of_le hx with h | h
    · rw [← h]; rw [← h] at hq
      have : q.y * q.y + q.z * q.z = 1 := by linarith
      rw [this]; linarith
    · have : 0 < a * (q.x * q.x) := mul_pos ha h
      have : 0 ≤ b * (q.y * q.y + q.z * q.z) := mul_nonneg hb.le (by linarith)
      linarith
  · simp [nmat, outer]
    have : ((a - b) * (q.x * q.x) + b) * ((a - b) * (q.y * q.y) + b) - (a - b) * (q.y * q.x) * ((a - b) * (q.y * q.x)) =
        b * (b * (q.z * q.z) + a * (q.x * q.x + q.y * q.y)) := by linear_combination (- b ^ 2) * hq
    rw [← sub_pos, this]
    apply mul_pos hb
    rcases eq_or_lt_of_le hz with h | h
    · have : q.x * q.x + q.y * q.y = 1 := by linarith
      rw [← h, this]; linarith
    · have : 0 < b * (q.z * q.z) := mul_pos hb h
      have : 0 ≤ a * (q.x * q.x + q.y * q.y) := mul_nonneg ha.le (by linarith)
      linarith
  · have : 0 < a * b ^ 2 := by positivity
    convert this using 1
    simp [nmat, outer]
    linear_combination ((a - b) * b ^ 2) * hq

theorem nmat_units (c a b : ℝ) (q : V3) : nmat (c * a) (c * b) q = c • nmat a b q := by
  unfold nmat
  rw [smul_add, smul_smul, smul_smul, mul_sub]

/-- A turn about the first axis. -/
theorem turned (w d : ℝ) (hw : Equatn.fltEps ≤ w) (hw0 : 0 < w) : (Equatn.rotateEquatn ⟨1, 0, 0, 0⟩ ⟨w, 0, 0⟩ d).rot ⟨0, 0, 1⟩ = ⟨0, -(2 * Real.sin (w * d / 2) * Real.cos (w * d / 2)),
    1 - 2 * Real.sin (w * d / 2) ^ 2⟩ := by
  have hn : V3.norm ⟨w, 0, 0⟩ = w := by
    unfold V3.norm V3.normSq V3.dot
    simp only [mul_zero, add_zero]
    exact Real.sqrt_mul_self hw0.le
  have hcs := Real.sin_sq_add_cos_sq (w * d / 2)
  unfold Equatn.rotateEquatn
  rw [hn]
  simp only
  rw [if_neg (not_lt.2 hw)]
  generalize Real.sin (w * d / 2) = a at *
  generalize Real.cos (w * d / 2) = b at *
  have hq : (⟨1 * b - V3.dot ⟨0, 0, 0⟩ ⟨w, 0, 0⟩ * a * (1 / w), (((1 / w) • (1 * a) • (⟨w, 0, 0⟩ : V3)) + b • (⟨0, 0, 0⟩ : V3) + (a * (1 / w)) • V3.cross ⟨w, 0, 0⟩ ⟨0, 0, 0⟩).x,
      (((1 / w) • (1 * a) • (⟨w, 0, 0⟩ : V3)) + b • (⟨0, 0, 0⟩ : V3) + (a * (1 / w)) • V3.cross ⟨w, 0, 0⟩ ⟨0, 0, 0⟩).y,
      (((1 / w) • (1 * a) • (⟨w, 0, 0⟩ : V3)) + b • (⟨0, 0, 0⟩ : V3) + (a * (1 / w)) • V3.cross ⟨w, 0, 0⟩ ⟨0, 0, 0⟩).z⟩ : Quat) = ⟨b, a, 0, 0⟩ := by
    simp [V3.dot, V3.cross]
    field_simp
  rw [hq]
  have h1 : Quat.normSq ⟨b, a, 0, 0⟩ = 1 := by unfold Quat.normSq; simp only; nlinarith
  unfold Quat.normalize
  rw [h1, if_pos one_pos, Real.sqrt_one]
  ext <;> simp [Quat.rot, Quat.vec, V3.cross] <;> ring

end Verif.Units
