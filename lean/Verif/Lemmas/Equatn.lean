import Verif.Spec.Equatn
import Mathlib.Tactic.LinearCombination
/-! Helper lemmas for quaternions. -/
namespace Verif.Equatn
open Spec

theorem normSq_eq (q : Quat) : q.normSq = q.w ^ 2 + q.x ^ 2 + q.y ^ 2 + q.z ^ 2 := by
  unfold Quat.normSq; ring

theorem normalize_unit (q : Quat) (h : UnitQuat q) : q.normalize = q := by
  have h1 : q.normSq = 1 := by rw [normSq_eq]; exact h
  unfold Quat.normalize
  simp [h1]

theorem fltEps_pos : 0 < fltEps := by unfold fltEps; positivity

/-- The turn about `omega` by the angle `|omega| dt` as a quaternion. -/
noncomputable def turnQuat (omega : V3) (dt : ℝ) : Quat :=
  let k := (1 / omega.norm) • omega
  ⟨Real.cos (omega.norm * dt / 2), Real.sin (omega.norm * dt / 2) * k.x, Real.sin (omega.norm * dt / 2) * k.y,
    Real.sin (omega.norm * dt / 2) * k.z⟩

theorem unit_dir (omega : V3) (h : ¬ omega.norm < fltEps) :
    ((1 / omega.norm) • omega).x ^ 2 + ((1 / omega.norm) • omega).y ^ 2 + ((1 / omega.norm) • omega).z ^ 2 = 1 := by
  have hp : 0 < omega.norm := lt_of_lt_of_le fltEps_pos (not_lt.mp h)
  have := V3.norm_sq omega
  simp only [V3.smul_x, V3.smul_y, V3.smul_z]
  unfold V3.normSq V3.dot at this
  field_simp
  linarith

theorem unit_hamilton (a b : Quat) (ha : UnitQuat a) (hb : UnitQuat b) : UnitQuat (hamilton a b) := by
  unfold UnitQuat at *
  have : (hamilton a b).w ^ 2 + (hamilton a b).x ^ 2 + (hamilton a b).y ^ 2 + (hamilton a b).z ^ 2 =
      (a.w ^ 2 + a.x ^ 2 + a.y ^ 2 + a.z ^ 2) * (b.w ^ 2 + b.x ^ 2 + b.y ^ 2 + b.z ^ 2) := by
    simp only [hamilton]; ring
  rw [this, ha, hb]; ring

theorem unit_turnQuat (omega : V3) (dt : ℝ) (h : ¬ omega.norm < fltEps) : UnitQuat (turnQuat omega dt) := by
  have := unit_dir omega h
  unfold UnitQuat turnQuat
  simp only at this ⊢
  have h2 := Real.sin_sq_add_cos_sq (omega.norm * dt / 2)
  linear_combination h2 + Real.sin (omega.norm * dt / 2) ^ 2 * this

theorem rotateEquatn_eq (q : Quat) (omega : V3) (dt : ℝ) (hq : UnitQuat q) (h : ¬ omega.norm < fltEps) :
    rotateEquatn q omega dt = hamilton (turnQuat omega dt) q := by
  have : rotateEquatn q omega dt = (hamilton (turnQuat omega dt) q).normalize := by
    unfold rotateEquatn
    rw [if_neg h]
    congr 1
    ext <;> simp [hamilton, turnQuat, V3.dot] <;> ring
  rw [this, normalize_unit _ (unit_hamilton _ _ (unit_turnQuat omega dt h) hq)]

theorem hamilton_assoc (a b c : Quat) : hamilton (hamilton a b) c = hamilton a (hamilton b c) := by
  ext <;> simp only [hamilton] <;> ring

theorem turnQuat_add (omega : V3) (s t : ℝ) (h : ¬ omega.norm < fltEps) :
    hamilton (turnQuat omega t) (turnQuat omega s) = turnQuat omega (s + t) := by
  have hd := unit_dir omega h
  have e : omega.norm * (s + t) / 2 = omega.norm * s / 2 + omega.norm * t / 2 := by ring
  generalize hk : (1 / omega.norm) • omega = k at hd
  ext
  · simp only [hamilton, turnQuat, hk, e, Real.cos_add]
    linear_combination (-(Real.sin (omega.norm * s / 2) * Real.sin (omega.norm * t / 2))) * hd
  all_goals simp only [hamilton, turnQuat, hk, e, Real.sin_add]; ring

theorem rot_eq_turned (q : Quat) (hq : UnitQuat q) (v : V3) : q.rot v = turned q v := by
  unfold UnitQuat at hq
  ext
  · simp [Quat.rot, turned, hamilton, pureQuat, conj, Quat.vec]
    linear_combination (-v.x) * hq
  · simp [Quat.rot, turned, hamilton, pureQuat, conj, Quat.vec]
    linear_combination (-v.y) * hq
  · simp [Quat.rot, turned, hamilton, pureQuat, conj, Quat.vec]
    linear_combination (-v.z) * hq

theorem turned_hamilton (a b : Quat) (v : V3) : turned (hamilton a b) v = turned a (turned b v) := by
  ext <;> simp only [turned, hamilton, pureQuat, conj, Quat.vec] <;> ring

theorem turned_turnQuat (omega : V3) (dt : ℝ) (h : ¬ omega.norm < fltEps) (v : V3) :
    turned (turnQuat omega dt) v = rodrigues ((1 / omega.norm) • omega) (omega.norm * dt) v := by
  have hd := unit_dir omega h
  generalize hk : (1 / omega.norm) • omega = k at hd ⊢
  have e : omega.norm * dt = 2 * (omega.norm * dt / 2) := by ring
  have hc : Real.cos (omega.norm * dt) =
      Real.cos (omega.norm * dt / 2) ^ 2 - Real.sin (omega.norm * dt / 2) ^ 2 := by
    conv_lhs => rw [e]
    rw [Real.cos_two_mul']
  have hs : Real.sin (omega.norm * dt) =
      2 * Real.sin (omega.norm * dt / 2) * Real.cos (omega.norm * dt / 2) := by
    conv_lhs => rw [e]
    rw [Real.sin_two_mul]
  have h2 := Real.sin_sq_add_cos_sq (omega.norm * dt / 2)
  unfold rodrigues
  rw [hc, hs]
  unfold turned turnQuat
  simp only [hk]
  generalize Real.sin (omega.norm * dt / 2) = s at *
  generalize Real.cos (omega.norm * dt / 2) = c at *
  ext
  · simp [hamilton, pureQuat, conj, Quat.vec, V3.dot]
    linear_combination (-(s ^ 2 * v.x)) * hd + ((k.x * v.x + k.y * v.y + k.z * v.z) * k.x) * h2
  · simp [hamilton, pureQuat, conj, Quat.vec, V3.dot]
    linear_combination (-(s ^ 2 * v.y)) * hd + ((k.x * v.x + k.y * v.y + k.z * v.z) * k.y) * h2
  · simp [hamilton, pureQuat, conj, Quat.vec, V3.dot]
    linear_combination (-(s ^ 2 * v.z)) * hd + ((k.x * v.x + k.y * v.y + k.z * v.z) * k.z) * h2

end Verif.Equatn
