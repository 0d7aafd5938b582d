import Verif.Lemmas.Equatn
import Mathlib.Analysis.SpecialFunctions.Trigonometric.Deriv
import Mathlib.Analysis.Calculus.Deriv.Prod
/-! Properties C13-C16: quaternions, random points, `copySwap`. -/
namespace Verif
open Equatn Spec

/-- C13: a unit quaternion stays one. -/
theorem C13_unit (q : Quat) (omega : V3) (dt : ℝ) (hq : UnitQuat q) : UnitQuat (rotateEquatn q omega dt) := by
  by_cases h : omega.norm < fltEps
  · unfold rotateEquatn
    rw [if_pos h]
    exact hq
  · rw [rotateEquatn_eq q omega dt hq h]
    exact unit_hamilton _ _ (unit_turnQuat omega dt h) hq

/-- C13: every direction carried by the orientation is turned about `omega` by exactly `|omega| dt`. -/
theorem C13_rotation (q : Quat) (omega : V3) (dt : ℝ) (hq : UnitQuat q) (h : fltEps ≤ omega.norm) (v : V3) :
    (rotateEquatn q omega dt).rot v = rodrigues ((1 / omega.norm) • omega) (omega.norm * dt) (q.rot v) := by
  rw [rot_eq_turned _ (C13_unit q omega dt hq), rot_eq_turned q hq, rotateEquatn_eq q omega dt hq (not_lt.mpr h),
    turned_hamilton, turned_turnQuat omega dt (not_lt.mpr h)]

/-- C13: two steps make one. -/
theorem C13_compose (q : Quat) (omega : V3) (dt1 dt2 : ℝ) (hq : UnitQuat q) :
    rotateEquatn (rotateEquatn q omega dt1) omega dt2 = rotateEquatn q omega (dt1 + dt2) := by
  by_cases h : omega.norm < fltEps
  · unfold rotateEquatn
    simp only [if_pos h]
  · rw [rotateEquatn_eq _ omega dt2 (C13_unit q omega dt1 hq) h, rotateEquatn_eq q omega dt1 hq h,
      rotateEquatn_eq q omega _ hq h, ← hamilton_assoc, turnQuat_add omega dt1 dt2 h]

/-- C13: below float epsilon nothing changes. -/
theorem C13_small (q : Quat) (omega : V3) (dt : ℝ) (h : omega.norm < fltEps) : rotateEquatn q omega dt = q := by
  unfold rotateEquatn
  rw [if_pos h]

/-- C13: the Euler step of a particle moves its centre by `vel dt` and turns its director about `omega`. -/
theorem C13_stepEuler (pos vel omega : V3) (q : Quat) (dt : ℝ) (hq : UnitQuat q) (h : fltEps ≤ omega.norm) :
    (stepEuler pos vel omega q dt).1 = ⟨pos.x + dt * vel.x, pos.y + dt * vel.y, pos.z + dt * vel.z⟩ ∧
    UnitQuat (stepEuler pos vel omega q dt).2 ∧
    (stepEuler pos vel omega q dt).2.rot ⟨0, 0, 1⟩ =
      rodrigues ((1 / omega.norm) • omega) (omega.norm * dt) (q.rot ⟨0, 0, 1⟩) :=
  ⟨by ext <;> simp [stepEuler], C13_unit q omega dt hq, C13_rotation q omega dt hq h _⟩

theorem sampleOmega_norm : (⟨0, 0, 1⟩ : V3).norm = 1 := by simp [V3.norm, V3.normSq, V3.dot]

example : UnitQuat ⟨3 / 5, 0, 4 / 5, 0⟩ ∧ fltEps ≤ (⟨0, 0, 1⟩ : V3).norm := by
  refine ⟨by unfold UnitQuat; norm_num, ?_⟩
  rw [sampleOmega_norm]
  unfold fltEps
  norm_num

/-- C14: the random orientation is a unit quaternion. -/
theorem C14_orientation (u1 u2 u3 : ℝ) (h0 : 0 ≤ u1) (h1 : u1 ≤ 1) : UnitQuat (setUnitRandomEquatn u1 u2 u3) := by
  unfold UnitQuat setUnitRandomEquatn
  simp only
  have ha := Real.sq_sqrt (show 0 ≤ 1 - u1 by linarith)
  have hb := Real.sq_sqrt h0
  have e2 := Real.sin_sq_add_cos_sq (2 * piLit * u2)
  have e3 := Real.sin_sq_add_cos_sq (2 * piLit * u3)
  linear_combination ha * 1 + hb + (Real.sqrt (1 - u1)) ^ 2 * e2 + (Real.sqrt u1) ^ 2 * e3

/-- C14: the random point lies in the circle. -/
theorem C14_circle (radius a b : ℝ) (h0 : 0 ≤ b) (h1 : b ≤ 1) :
    (getRandPointInCircle radius a b).1 ^ 2 + (getRandPointInCircle radius a b).2 ^ 2 ≤ radius ^ 2 := by
  unfold getRandPointInCircle
  simp only
  have hb := Real.sq_sqrt h0
  have e := Real.sin_sq_add_cos_sq (2 * piLit * a)
  have : (radius * Real.sqrt b * Real.cos (2 * piLit * a)) ^ 2 +
      (radius * Real.sqrt b * Real.sin (2 * piLit * a)) ^ 2 = radius ^ 2 * b := by
    linear_combination radius ^ 2 * hb + radius ^ 2 * (Real.sqrt b) ^ 2 * e
  rw [this]
  nlinarith [sq_nonneg radius]

/-- C14: the random point lies exactly on the sphere, at the height the second draw says. -/
theorem C14_sphere (radius a b : ℝ) (h0 : 0 ≤ b) (h1 : b ≤ 1) :
    (getRandPointOnSphere radius a b).x ^ 2 + (getRandPointOnSphere radius a b).y ^ 2 +
      (getRandPointOnSphere radius a b).z ^ 2 = radius ^ 2 ∧
    (getRandPointOnSphere radius a b).z = (2 * b - 1) * radius := by
  unfold getRandPointOnSphere getRandPointAngleOnSphere
  simp only
  have e := Real.sin_sq_add_cos_sq (2 * piLit * a)
  have e2 := Real.sin_sq_add_cos_sq (Real.arccos (2 * b - 1))
  refine ⟨?_, ?_⟩
  · linear_combination radius ^ 2 * e2 + radius ^ 2 * (Real.sin (Real.arccos (2 * b - 1))) ^ 2 * e
  · rw [Real.cos_arccos (by linarith) (by linarith)]

example : (0 : ℝ) ≤ 1 / 3 ∧ (1 / 3 : ℝ) ≤ 1 := by norm_num

/-- A 3-vector as a column. -/
def col (v : V3) : Fin 3 → ℝ := ![v.x, v.y, v.z]

/-- A quaternion as a column, scalar part first. -/
def qcol (q : Quat) : Fin 4 → ℝ := ![q.w, q.x, q.y, q.z]

/-- C15: `psi omega` is orthogonal to `q`. -/
theorem C15_tangent (q : Quat) (omega : V3) : qcol q ⬝ᵥ (getPsiMatFromEquatn q).mulVec (col omega) = 0 := by
  simp [qcol, col, getPsiMatFromEquatn, Matrix.mulVec, dotProduct, Fin.sum_univ_succ]
  ring

/-- C15: `psiᵀ psi` is a quarter of `|q|²` times the identity. -/
theorem C15_gram (q : Quat) : (getPsiMatFromEquatn q).transpose * getPsiMatFromEquatn q =
    ((q.w ^ 2 + q.x ^ 2 + q.y ^ 2 + q.z ^ 2) / 4) • (1 : Matrix (Fin 3) (Fin 3) ℝ) := by
  ext i j
  fin_cases i <;> fin_cases j <;>
    simp [getPsiMatFromEquatn, Matrix.mul_apply, Fin.sum_univ_succ] <;> ring

/-- C15: `psi omega` is half the product `(0,omega) q`. -/
theorem C15_product (q : Quat) (omega : V3) :
    (getPsiMatFromEquatn q).mulVec (col omega) = (1 / 2 : ℝ) • qcol (hamilton (pureQuat omega) q) := by
  ext i
  fin_cases i <;>
    simp [qcol, col, hamilton, pureQuat, getPsiMatFromEquatn, Matrix.mulVec, dotProduct, Fin.sum_univ_succ] <;> ring

/-- C15: `psi omega` is the time derivative of the orientation that `rotateEquatn` returns, at every time. -/
theorem C15_derivative (q : Quat) (omega : V3) (hq : UnitQuat q) (h : fltEps ≤ omega.norm) (t : ℝ) :
    HasDerivAt (fun s => qcol (rotateEquatn q omega s))
      ((getPsiMatFromEquatn (rotateEquatn q omega t)).mulVec (col omega)) t := by
  have h' := not_lt.mpr h
  have hp : omega.norm ≠ 0 := (lt_of_lt_of_le fltEps_pos h).ne'
  have hd := unit_dir omega h'
  have hs : HasDerivAt (fun s => Real.sin (omega.norm * s / 2))
      (Real.cos (omega.norm * t / 2) * (omega.norm / 2)) t := by
    have : HasDerivAt (fun s : ℝ => omega.norm * s / 2) (omega.norm / 2) t := by
      simpa using ((hasDerivAt_id t).const_mul omega.norm).div_const 2
    exact this.sin
  have hc : HasDerivAt (fun s => Real.cos (omega.norm * s / 2))
      (-Real.sin (omega.norm * t / 2) * (omega.norm / 2)) t := by
    have : HasDerivAt (fun s : ℝ => omega.norm * s / 2) (omega.norm / 2) t := by
      simpa using ((hasDerivAt_id t).const_mul omega.norm).div_const 2
    exact this.cos
  have key : ∀ A B : ℝ, HasDerivAt (fun s => A * Real.cos (omega.norm * s / 2) + B * Real.sin (omega.norm * s / 2))
      (A * (-Real.sin (omega.norm * t / 2) * (omega.norm / 2)) +
        B * (Real.cos (omega.norm * t / 2) * (omega.norm / 2))) t :=
    fun A B => (hc.const_mul A).add (hs.const_mul B)
  rw [C15_product]
  simp only [rotateEquatn_eq q omega _ hq h']
  have ho : ∃ k : V3, k.x ^ 2 + k.y ^ 2 + k.z ^ 2 = 1 ∧ (1 / omega.norm) • omega = k ∧ omega = omega.norm • k := by
    refine ⟨_, hd, rfl, ?_⟩
    ext <;> simp <;> field_simp
  obtain ⟨k, hk, hkd, hko⟩ := ho
  have ht : ∀ s, turnQuat omega s = ⟨Real.cos (omega.norm * s / 2), Real.sin (omega.norm * s / 2) * k.x,
      Real.sin (omega.norm * s / 2) * k.y, Real.sin (omega.norm * s / 2) * k.z⟩ := by
    intro s; unfold turnQuat; simp only [hkd]
  rw [hasDerivAt_pi]
  have c0 := key q.w (-(k.x * q.x + k.y * q.y + k.z * q.z))
  have c1 := key q.x (k.x * q.w + k.y * q.z - k.z * q.y)
  have c2 := key q.y (-k.x * q.z + k.y * q.w + k.z * q.x)
  have c3 := key q.z (k.x * q.y - k.y * q.x + k.z * q.w)
  have ox : omega.x = omega.norm * k.x := congrArg V3.x hko
  have oy : omega.y = omega.norm * k.y := congrArg V3.y hko
  have oz : omega.z = omega.norm * k.z := congrArg V3.z hko
  intro i
  fin_cases i
  · refine (c0.congr_deriv ?_).congr_of_eventuallyEq (Filter.Eventually.of_forall fun s => ?_)
    · simp [qcol, hamilton, pureQuat, ht, ox, oy, oz]
      linear_combination (omega.norm / 2 * Real.sin (omega.norm * t / 2) * q.w) * hk
    · simp [qcol, hamilton, ht]; ring
  · refine (c1.congr_deriv ?_).congr_of_eventuallyEq (Filter.Eventually.of_forall fun s => ?_)
    · simp [qcol, hamilton, pureQuat, ht, ox, oy, oz]
      linear_combination (omega.norm / 2 * Real.sin (omega.norm * t / 2) * q.x) * hk
    · simp [qcol, hamilton, ht]; ring
  · refine (c2.congr_deriv ?_).congr_of_eventuallyEq (Filter.Eventually.of_forall fun s => ?_)
    · simp [qcol, hamilton, pureQuat, ht, ox, oy, oz]
      linear_combination (omega.norm / 2 * Real.sin (omega.norm * t / 2) * q.y) * hk
    · simp [qcol, hamilton, ht]; ring
  · refine (c3.congr_deriv ?_).congr_of_eventuallyEq (Filter.Eventually.of_forall fun s => ?_)
    · simp [qcol, hamilton, pureQuat, ht, ox, oy, oz]
      linear_combination (omega.norm / 2 * Real.sin (omega.norm * t / 2) * q.z) * hk
    · simp [qcol, hamilton, ht]; ring

/-- C15: the cross product matrix. -/
theorem C15_cross (p v : V3) : (getCrossProductMatrix p).mulVec (col v) = col (V3.cross p v) := by
  ext i
  fin_cases i <;> simp [col, getCrossProductMatrix, Matrix.mulVec, dotProduct, Fin.sum_univ_succ] <;> ring

/-- C16 is false: whenever the two values differ, `copySwap` does not exchange them. -/
theorem C16_copySwap_false {T : Type} (a b : T) (h : a ≠ b) : copySwap a b ≠ (b, a) := by
  intro e
  exact h (congrArg Prod.fst e)

/-- C16, what is left: equal values are exchanged (and only those). -/
theorem C16_copySwap_partial {T : Type} (a b : T) : copySwap a b = (b, a) ↔ a = b := by
  constructor
  · intro e; exact congrArg Prod.fst e
  · rintro rfl; rfl

/-- C16: what `copySwap` does instead: the second value is lost, both are the first. -/
theorem C16_copySwap_actual {T : Type} (a b : T) : copySwap a b = (a, a) := rfl

example : (3 : ℕ) ≠ 4 := by decide

end Verif
