import Verif.Lemmas.Equatn
import Verif.Props.Equatn
import Mathlib.Analysis.SpecialFunctions.Trigonometric.Bounds
/-! Turns about nearly the same axis by nearly the same angle. -/
namespace Verif.Equatn
open Spec

/-- The squared norm of a quaternion. -/
def sq (q : Quat) : ℝ := q.w ^ 2 + q.x ^ 2 + q.y ^ 2 + q.z ^ 2

def qsub (p q : Quat) : Quat := ⟨p.w - q.w, p.x - q.x, p.y - q.y, p.z - q.z⟩

theorem sq_nonneg (q : Quat) : 0 ≤ sq q := by unfold sq; positivity

theorem sq_hamilton (a b : Quat) : sq (hamilton a b) = sq a * sq b := by simp only [sq, hamilton]; ring

theorem sq_conj (a : Quat) : sq (conj a) = sq a := by simp only [sq, conj]; ring

theorem sq_pure (v : V3) : sq (pureQuat v) = V3.normSq v := by simp only [sq, pureQuat, V3.normSq, V3.dot]; ring

/-- Two turns of a vector. -/
theorem turned_diff (p q : Quat) (hp : UnitQuat p) (hq : UnitQuat q) (v : V3) : V3.normSq (turned p v - turned q v) ≤ 4 * sq (qsub p q) * V3.normSq v := by
  have h1 : sq (hamilton (hamilton (qsub p q) (pureQuat v)) (conj p)) = sq (qsub p q) * V3.normSq v := by
    rw [sq_hamilton, sq_hamilton, sq_conj, sq_pure, show sq p = 1 from hp, mul_one]
  have h2 : sq (hamilton (hamilton q (pureQuat v)) (conj (qsub p q))) = sq (qsub p q) * V3.normSq v := by
    rw [sq_hamilton, sq_hamilton, sq_conj, sq_pure, show sq q = 1 from hq]
    ring
  have h3 : (turned p v - turned q v).x = (hamilton (hamilton (qsub p q) (pureQuat v)) (conj p)).x + (hamilton (hamilton q (pureQuat v)) (conj (qsub p q))).x ∧
      (turned p v - turned q v).y = (hamilton (hamilton (qsub p q) (pureQuat v)) (conj p)).y + (hamilton (hamilton q (pureQuat v)) (conj (qsub p q))).y ∧
      (turned p v - turned q v).z = (hamilton (hamilton (qsub p q) (pureQuat v)) (conj p)).z + (hamilton (hamilton q (pureQuat v)) (conj (qsub p q))).z := by
    simp only [V3.sub_x, V3.sub_y, V3.sub_z, turned, hamilton, qsub, pureQuat, conj, Quat.vec]
    refine ⟨?_, ?_, ?_⟩ <;> ring
  generalize hamilton (hamilton (qsub p q) (pureQuat v)) (conj p) = A at h1 h3
  generalize hamilton (hamilton q (pureQuat v)) (conj (qsub p q)) = B at h2 h3
  rw [mul_assoc]
  generalize sq (qsub p q) * V3.normSq v = M at *
  simp only [V3.normSq, V3.dot]
  rw [h3.1, h3.2.1, h3.2.2]
  unfold sq at h1 h2
  nlinarith [_root_.sq_nonneg (A.x - B.x), _root_.sq_nonneg (A.y - B.y), _root_.sq_nonneg (A.z - B.z), _root_.sq_nonneg A.w, _root_.sq_nonneg B.w]

theorem turned_sub (p : Quat) (hp : UnitQuat p) (v w : V3) : V3.normSq (turned p v - turned p w) = V3.normSq (v - w) := by
  have e : turned p v - turned p w = turned p (v - w) := by
    ext <;> simp [turned, hamilton, pureQuat, conj, Quat.vec] <;> ring
  rw [e]
  have h1 : sq (hamilton (hamilton p (pureQuat (v - w))) (conj p)) = V3.normSq (v - w) := by
    rw [sq_hamilton, sq_hamilton, sq_conj, sq_pure, show sq p = 1 from hp]
    ring
  rw [← h1]
  simp only [turned, V3.normSq, V3.dot, Quat.vec, sq]
  have h0 : (hamilton (hamilton p (pureQuat (v - w))) (conj p)).w = 0 := by
    simp only [hamilton, pureQuat, conj]
    ring
  rw [h0]
  ring

/-- A chord is no longer than the way in the tangent space. -/
theorem chord (a b : ℝ) (u v : V3) (hu : u.x ^ 2 + u.y ^ 2 + u.z ^ 2 = 1) (hv : v.x ^ 2 + v.y ^ 2 + v.z ^ 2 = 1) :
    (Real.cos a - Real.cos b) ^ 2 + (Real.sin a * u.x - Real.sin b * v.x) ^ 2 + (Real.sin a * u.y - Real.sin b * v.y) ^ 2 + (Real.sin a * u.z - Real.sin b * v.z) ^ 2 ≤
      (a * u.x - b * v.x) ^ 2 + (a * u.y - b * v.y) ^ 2 + (a * u.z - b * v.z) ^ 2 := by
  obtain ⟨k, hk⟩ : ∃ k, k = u.x * v.x + u.y * v.y + u.z * v.z := ⟨_, rfl⟩
  have k1 : k ≤ 1 := by rw [hk]; nlinarith [_root_.sq_nonneg (u.x - v.x), _root_.sq_nonneg (u.y - v.y), _root_.sq_nonneg (u.z - v.z)]
  have k2 : -1 ≤ k := by rw [hk]; nlinarith [_root_.sq_nonneg (u.x + v.x), _root_.sq_nonneg (u.y + v.y), _root_.sq_nonneg (u.z + v.z)]
  have f1 : 0 ≤ (a - b) ^ 2 - 2 + 2 * (Real.cos a * Real.cos b + Real.sin a * Real.sin b) := by
    have := Real.one_sub_sq_div_two_le_cos (x := a - b)
    rw [Real.cos_sub] at this
    linarith
  have f2 : 0 ≤ (a + b) ^ 2 - 2 + 2 * (Real.cos a * Real.cos b - Real.sin a * Real.sin b) := by
    have := Real.one_sub_sq_div_two_le_cos (x := a + b)
    rw [Real.cos_add] at this
    linarith
  have s1 := Real.sin_sq_add_cos_sq a
  have s2 := Real.sin_sq_add_cos_sq b
  generalize Real.sin a = sa at *
  generalize Real.sin b = sb at *
  generalize Real.cos a = ca at *
  generalize Real.cos b = cb at *
  have e1 : (ca - cb) ^ 2 + (sa * u.x - sb * v.x) ^ 2 + (sa * u.y - sb * v.y) ^ 2 + (sa * u.z - sb * v.z) ^ 2 = 2 - 2 * (ca * cb + sa * sb * k) := by
    rw [hk]
    linear_combination s1 + s2 + sa ^ 2 * hu + sb ^ 2 * hv
  have e2 : (a * u.x - b * v.x) ^ 2 + (a * u.y - b * v.y) ^ 2 + (a * u.z - b * v.z) ^ 2 = a ^ 2 + b ^ 2 - 2 * a * b * k := by
    rw [hk]
    linear_combination a ^ 2 * hu + b ^ 2 * hv
  rw [e1, e2]
  have g1 := mul_nonneg (by linarith : (0 : ℝ) ≤ (1 + k) / 2) f1
  have g2 := mul_nonneg (by linarith : (0 : ℝ) ≤ (1 - k) / 2) f2
  nlinarith [g1, g2]

theorem turn_diff (p q : Quat) (hp : UnitQuat p) (hq : UnitQuat q) (v : V3) (c : ℝ) (hc : 0 ≤ c) (h : 4 * sq (qsub p q) ≤ c ^ 2) (hv : V3.norm v ≤ 1) :
    V3.norm (turned p v - turned q v) ≤ c := by
  have h1 := turned_diff p q hp hq v
  have h2 : V3.normSq v ≤ 1 := by rw [← V3.norm_sq]; nlinarith [V3.norm_nonneg v]
  have h3 : V3.normSq (turned p v - turned q v) ≤ c ^ 2 := by
    have := mul_le_mul_of_nonneg_left h2 (by linarith [sq_nonneg (qsub p q)] : 0 ≤ 4 * sq (qsub p q))
    linarith
  have := Real.sqrt_le_sqrt h3
  rwa [Real.sqrt_sq hc] at this

/-- The turn of a step. -/
noncomputable def turnOf (omega : V3) (dt : ℝ) : Quat := if omega.norm < fltEps then ⟨1, 0, 0, 0⟩ else turnQuat omega dt

theorem unit_turnOf (omega : V3) (dt : ℝ) : UnitQuat (turnOf omega dt) := by
  unfold turnOf
  split_ifs with h
  · unfold UnitQuat; norm_num
  · exact unit_turnQuat omega dt h

theorem rotate_turned (o : Quat) (ho : UnitQuat o) (omega : V3) (dt : ℝ) (v : V3) : (rotateEquatn o omega dt).rot v = turned (turnOf omega dt) (o.rot v) := by
  rw [rot_eq_turned _ (C13_unit o omega dt ho), rot_eq_turned o ho]
  unfold turnOf
  split_ifs with h
  · rw [C13_small o omega dt h]
    ext <;> simp [turned, hamilton, pureQuat, conj, Quat.vec]
  · rw [rotateEquatn_eq o omega dt ho h, turned_hamilton]

theorem turn_small (omega : V3) (dt : ℝ) (h : ¬ omega.norm < fltEps) : 4 * sq (qsub (turnQuat omega dt) ⟨1, 0, 0, 0⟩) ≤ (dt * omega.norm) ^ 2 := by
  have hd := unit_dir omega h
  have := chord (omega.norm * dt / 2) 0 ((1 / omega.norm) • omega) ((1 / omega.norm) • omega) hd hd
  simp only [Real.cos_zero, Real.sin_zero, zero_mul, sub_zero] at this
  unfold sq qsub turnQuat
  simp only [sub_zero]
  generalize (1 / omega.norm) • omega = u at *
  nlinarith [this]

theorem turn_close (omega omega' : V3) (dt : ℝ) (hdt : 0 ≤ dt) : 4 * sq (qsub (turnOf omega' dt) (turnOf omega dt)) ≤ (dt * ((omega' - omega).norm + fltEps)) ^ 2 := by
  have hf := fltEps_pos
  have hn := V3.norm_nonneg (omega' - omega)
  have key : ∀ a b : ℝ, 0 ≤ a → a ≤ b → (dt * a) ^ 2 ≤ (dt * b) ^ 2 := fun a b ha hab =>
    pow_le_pow_left₀ (mul_nonneg hdt ha) (mul_le_mul_of_nonneg_left hab hdt) 2
  have t1 := V3.norm_add_le (omega' - omega) omega
  have t2 := V3.norm_add_le (omega - omega') omega'
  have e1 : omega' - omega + omega = omega' := by ext <;> simp
  have e2 : omega - omega' + omega' = omega := by ext <;> simp
  rw [e1] at t1
  rw [e2, V3.norm_sub_comm] at t2
  unfold turnOf
  split_ifs with h' h h
  · simp only [sq, qsub, sub_self]
    norm_num
    positivity
  · have := turn_small omega dt h
    have e : sq (qsub ⟨1, 0, 0, 0⟩ (turnQuat omega dt)) = sq (qsub (turnQuat omega dt) ⟨1, 0, 0, 0⟩) := by simp only [sq, qsub]; ring
    rw [e]
    exact this.trans (key _ _ (V3.norm_nonneg _) (by linarith))
  · exact (turn_small omega' dt h').trans (key _ _ (V3.norm_nonneg _) (by linarith))
  · refine le_trans ?_ (key _ _ hn (by linarith))
    have := chord (omega'.norm * dt / 2) (omega.norm * dt / 2) ((1 / omega'.norm) • omega') ((1 / omega.norm) • omega) (unit_dir omega' h') (unit_dir omega h)
    have p1 : 0 < omega.norm := lt_of_lt_of_le hf (not_lt.mp h)
    have p2 : 0 < omega'.norm := lt_of_lt_of_le hf (not_lt.mp h')
    have c : ∀ (w y : ℝ), 0 < w → w * dt / 2 * (1 / w * y) = dt / 2 * y := by
      intro w y hw
      field_simp
    simp only [V3.smul_x, V3.smul_y, V3.smul_z, c _ _ p1, c _ _ p2] at this
    rw [mul_pow, V3.norm_sq]
    simp only [V3.normSq, V3.dot, V3.sub_x, V3.sub_y, V3.sub_z, sq, qsub, turnQuat, V3.smul_x, V3.smul_y, V3.smul_z]
    nlinarith [this]

/-- Bodies of nearly the same direction and angular velocity have nearly the same direction after a step. -/
theorem direction_err (o o' : Quat) (ho : UnitQuat o) (ho' : UnitQuat o') (omega omega' : V3) (dt : ℝ) (hdt : 0 ≤ dt) (v : V3) (hv : V3.norm (o.rot v) ≤ 1) :
    V3.norm ((rotateEquatn o' omega' dt).rot v - (rotateEquatn o omega dt).rot v) ≤ V3.norm (o'.rot v - o.rot v) + dt * ((omega' - omega).norm + fltEps) := by
  rw [rotate_turned o' ho', rotate_turned o ho]
  refine (V3.norm_sub_le _ (turned (turnOf omega' dt) (o.rot v)) _).trans (add_le_add ?_ ?_)
  · unfold V3.norm
    rw [turned_sub _ (unit_turnOf _ _)]
  · exact turn_diff _ _ (unit_turnOf _ _) (unit_turnOf _ _) _ _ (mul_nonneg hdt (by linarith [V3.norm_nonneg (omega' - omega), fltEps_pos]))
      (turn_close omega omega' dt hdt) hv

end Verif.Equatn
