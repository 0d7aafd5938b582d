import Verif.Spec.FloatStep
import Verif.Lemmas.Turn
import Mathlib.Analysis.InnerProductSpace.PiL2
import Mathlib.Tactic.Linarith
import Mathlib.Tactic.Ring
import Mathlib.Tactic.FieldSimp
import Mathlib.Tactic.Positivity

namespace Verif.FloatStep

open Verif.Spec Verif.Spec.FloatStep
open Equatn (fltEps)

/-! ### Relative errors -/

/-- `a` is `b` up to `k` factors between `1 - u` and `1 / (1 - u)`. -/
def Rel (u : ℝ) (k : ℕ) (a b : ℝ) : Prop := ∃ t, a = b * t ∧ (1 - u) ^ k ≤ t ∧ t ≤ ((1 - u) ^ k)⁻¹

section
variable {u : ℝ} (hu : 0 ≤ u) (hu1 : u < 1)
include hu hu1

theorem pow_pos' (k : ℕ) : 0 < (1 - u) ^ k := pow_pos (by linarith) k

theorem Rel.refl (a : ℝ) : Rel u 0 a a := ⟨1, by simp, by simp, by simp⟩

theorem Rel.round {A : Arith} (hA : Accurate A u) (a : ℝ) : Rel u 1 (A.fl a) a := by
  have h := hA.fl a
  by_cases h0 : a = 0
  · subst h0
    have : A.fl 0 = 0 := by simpa using h
    refine ⟨1, by simp [this], by simpa using hu, ?_⟩
    rw [pow_one, one_le_inv₀ (by linarith)]; linarith
  · refine ⟨A.fl a / a, by field_simp, ?_, ?_⟩
    all_goals
      have hd : |A.fl a / a - 1| ≤ u := by
        rw [show A.fl a / a - 1 = (A.fl a - a) / a by field_simp, abs_div, div_le_iff₀ (abs_pos.2 h0)]
        exact h
      have := abs_le.1 hd
    · rw [pow_one]; linarith
    · rw [pow_one]
      have : A.fl a / a ≤ 1 + u := by linarith
      refine this.trans ?_
      rw [le_inv_comm₀ (by linarith) (by linarith), inv_eq_one_div, le_div_iff₀ (by linarith)]
      nlinarith

theorem Rel.trans {j k : ℕ} {a b c : ℝ} (h1 : Rel u j a b) (h2 : Rel u k b c) : Rel u (j + k) a c := by
  obtain ⟨s, rfl, hs1, hs2⟩ := h1
  obtain ⟨t, rfl, ht1, ht2⟩ := h2
  have pj := pow_pos' hu hu1 j
  have pk := pow_pos' hu hu1 k
  refine ⟨t * s, by ring, ?_, ?_⟩
  · rw [pow_add, mul_comm]
    exact mul_le_mul ht1 hs1 pj.le (pk.le.trans ht1)
  · rw [pow_add, mul_inv, mul_comm]
    exact mul_le_mul hs2 ht2 (pk.le.trans ht1) (inv_nonneg.2 pj.le)

theorem Rel.mul {j k : ℕ} {a b c d : ℝ} (h1 : Rel u j a b) (h2 : Rel u k c d) : Rel u (j + k) (a * c) (b * d) := by
  obtain ⟨s, rfl, hs1, hs2⟩ := h1
  obtain ⟨t, rfl, ht1, ht2⟩ := h2
  have pj := pow_pos' hu hu1 j
  have pk := pow_pos' hu hu1 k
  refine ⟨s * t, by ring, ?_, ?_⟩
  · rw [pow_add]; exact mul_le_mul hs1 ht1 pk.le (pj.le.trans hs1)
  · rw [pow_add, mul_inv]; exact mul_le_mul hs2 ht2 (pk.le.trans ht1) (inv_nonneg.2 pj.le)

theorem Rel.inv {k : ℕ} {a b : ℝ} (h : Rel u k a b) : Rel u k (1 / a) (1 / b) := by
  obtain ⟨s, rfl, hs1, hs2⟩ := h
  have pk := pow_pos' hu hu1 k
  have ps : 0 < s := pk.trans_le hs1
  refine ⟨s⁻¹, by rw [one_div, mul_inv, one_div], ?_, ?_⟩
  · rw [le_inv_comm₀ pk ps]; exact hs2
  · exact inv_anti₀ pk hs1

theorem Rel.mono {j k : ℕ} (hjk : j ≤ k) {a b : ℝ} (h : Rel u j a b) : Rel u k a b := by
  obtain ⟨s, rfl, hs1, hs2⟩ := h
  have : (1 - u) ^ k ≤ (1 - u) ^ j := pow_le_pow_of_le_one (by linarith) (by linarith) hjk
  exact ⟨s, rfl, this.trans hs1, hs2.trans (inv_anti₀ (pow_pos' hu hu1 k) this)⟩

theorem Rel.add {k : ℕ} {a b c d : ℝ} (hb : 0 ≤ b) (hd : 0 ≤ d) (h1 : Rel u k a b) (h2 : Rel u k c d) :
    Rel u k (a + c) (b + d) := by
  obtain ⟨s, rfl, hs1, hs2⟩ := h1
  obtain ⟨t, rfl, ht1, ht2⟩ := h2
  have pk := pow_pos' hu hu1 k
  by_cases h0 : b + d = 0
  · have hb0 : b = 0 := by linarith
    have hd0 : d = 0 := by linarith
    subst hb0; subst hd0
    exact ⟨s, by simp, hs1, hs2⟩
  · have hp : 0 < b + d := lt_of_le_of_ne (by linarith) (Ne.symm h0)
    refine ⟨(b * s + d * t) / (b + d), by field_simp, ?_, ?_⟩
    · rw [le_div_iff₀ hp]; nlinarith
    · rw [div_le_iff₀ hp]; nlinarith

theorem Rel.nonneg {k : ℕ} {a b : ℝ} (hb : 0 ≤ b) (h : Rel u k a b) : 0 ≤ a := by
  obtain ⟨s, rfl, hs1, _⟩ := h
  exact mul_nonneg hb ((pow_pos' hu hu1 k).le.trans hs1)

theorem Rel.pos {k : ℕ} {a b : ℝ} (hb : 0 < b) (h : Rel u k a b) : 0 < a := by
  obtain ⟨s, rfl, hs1, _⟩ := h
  exact mul_pos hb ((pow_pos' hu hu1 k).trans_le hs1)

theorem Rel.sqrt {k : ℕ} {a b : ℝ} (hb : 0 ≤ b) (h : Rel u k a b) : Rel u k (Real.sqrt a) (Real.sqrt b) := by
  obtain ⟨s, rfl, hs1, hs2⟩ := h
  have pk := pow_pos' hu hu1 k
  have p1 : (1 - u) ^ k ≤ 1 := pow_le_one₀ (by linarith) (by linarith)
  refine ⟨Real.sqrt s, Real.sqrt_mul hb s, ?_, ?_⟩
  · refine Real.le_sqrt_of_sq_le (le_trans ?_ hs1); nlinarith
  · refine Real.sqrt_le_iff.2 ⟨inv_nonneg.2 pk.le, hs2.trans ?_⟩
    have : 1 ≤ ((1 - u) ^ k)⁻¹ := (one_le_inv₀ pk).2 p1
    nlinarith

theorem Rel.abs {k : ℕ} (hk : k * u ≤ 1 / 2) {a b : ℝ} (h : Rel u k a b) : |a - b| ≤ 2 * k * u * |b| := by
  obtain ⟨s, rfl, hs1, hs2⟩ := h
  have pk := pow_pos' hu hu1 k
  have bern : 1 - k * u ≤ (1 - u) ^ k := by
    have := one_add_mul_le_pow (a := -u) (by linarith) k
    have e : (1 + -u) ^ k = (1 - u) ^ k := by ring_nf
    rw [e] at this; linarith
  have hup : s ≤ 1 + 2 * k * u := by
    refine hs2.trans ?_
    rw [inv_le_iff_one_le_mul₀ pk]
    have : (0 : ℝ) ≤ k * u := by positivity
    nlinarith
  have hlo : 1 - 2 * k * u ≤ s := by
    have : (0 : ℝ) ≤ k * u := by positivity
    linarith
  rw [show b * s - b = (s - 1) * b by ring, abs_mul]
  exact mul_le_mul_of_nonneg_right (abs_le.2 ⟨by linarith, by linarith⟩) (abs_nonneg b)

end

/-! ### Absolute errors -/

/-- `a` is `b` up to `e u M`, where `M` is a bound of `b`. -/
def Ap (u e M a b : ℝ) : Prop := |a - b| ≤ e * u * M ∧ |b| ≤ M

section
variable {u : ℝ} (hu : 0 ≤ u)
include hu

theorem Ap.exact {M b : ℝ} (h : |b| ≤ M) : Ap u 0 M b b := ⟨by simp, h⟩

theorem Ap.nonneg {e M a b : ℝ} (h : Ap u e M a b) : 0 ≤ M := (abs_nonneg b).trans h.2

theorem Ap.mono {e f M a b : ℝ} (h : Ap u e M a b) (hef : e ≤ f) : Ap u f M a b :=
  ⟨h.1.trans (mul_le_mul_of_nonneg_right (mul_le_mul_of_nonneg_right hef hu) (h.nonneg hu)), h.2⟩

theorem Ap.le {e M a b : ℝ} (h : Ap u e M a b) (he : e * u ≤ 1) : |a| ≤ 2 * M := by
  have h1 := h.1
  have hM := h.nonneg hu
  have : |a| ≤ |a - b| + |b| := by
    have := abs_add_le (a - b) b
    simpa using this
  have := h.2
  nlinarith

theorem Ap.mul {e f M N a b c d : ℝ} (h1 : Ap u e M a b) (h2 : Ap u f N c d) (hf : f * u ≤ 1) (he : 0 ≤ e) :
    Ap u (2 * e + f) (M * N) (a * c) (b * d) := by
  have hM := h1.nonneg hu
  have hN := h2.nonneg hu
  have hc := h2.le hu hf
  constructor
  · rw [show a * c - b * d = (a - b) * c + b * (c - d) by ring]
    have t := abs_add_le ((a - b) * c) (b * (c - d))
    rw [abs_mul, abs_mul] at t
    have t1 : |a - b| * |c| ≤ (e * u * M) * (2 * N) := mul_le_mul h1.1 hc (abs_nonneg _) (by positivity)
    have t2 : |b| * |c - d| ≤ M * (f * u * N) := mul_le_mul h1.2 h2.1 (abs_nonneg _) hM
    nlinarith
  · rw [abs_mul]; exact mul_le_mul h1.2 h2.2 (abs_nonneg _) hM

theorem Ap.fl {A : Arith} (hA : Accurate A u) {e M a b : ℝ} (h : Ap u e M a b) (he : e * u ≤ 1) :
    Ap u (e + 2) M (A.fl a) b := by
  refine ⟨?_, h.2⟩
  have h1 := hA.fl a
  have h2 := mul_le_mul_of_nonneg_left (h.le hu he) hu
  have := abs_add_le (A.fl a - a) (a - b)
  rw [show A.fl a - a + (a - b) = A.fl a - b by ring] at this
  have := h.1
  nlinarith

theorem Ap.add {e M N a b c d : ℝ} (h1 : Ap u e M a b) (h2 : Ap u e N c d) : Ap u e (M + N) (a + c) (b + d) := by
  constructor
  · rw [show a + c - (b + d) = (a - b) + (c - d) by ring]
    have := abs_add_le (a - b) (c - d)
    have := h1.1
    have := h2.1
    nlinarith
  · exact (abs_add_le b d).trans (add_le_add h1.2 h2.2)

theorem Ap.sub {e M N a b c d : ℝ} (h1 : Ap u e M a b) (h2 : Ap u e N c d) : Ap u e (M + N) (a - c) (b - d) := by
  constructor
  · rw [show a - c - (b - d) = (a - b) - (c - d) by ring]
    have := abs_sub (a - b) (c - d)
    have := h1.1
    have := h2.1
    nlinarith
  · exact (abs_sub b d).trans (add_le_add h1.2 h2.2)

end

/-! ### Distances of quaternions -/

/-- A quaternion as a point of the space of four dimensions. -/
noncomputable def pt (q : Quat) : EuclideanSpace ℝ (Fin 4) := !₂[q.w, q.x, q.y, q.z]

theorem qdist_eq (p q : Quat) : qdist p q = dist (pt p) (pt q) := by
  rw [EuclideanSpace.dist_eq, Fin.sum_univ_four]
  simp [pt, qdist, Real.dist_eq, sq_abs]

theorem qnorm_eq (q : Quat) : qnorm q = ‖pt q‖ := by
  rw [EuclideanSpace.norm_eq, Fin.sum_univ_four]
  simp [pt, qnorm, sq_abs]

theorem qdist_triangle (p q r : Quat) : qdist p r ≤ qdist p q + qdist q r := by
  simp only [qdist_eq]; exact dist_triangle _ _ _

theorem qdist_comm (p q : Quat) : qdist p q = qdist q p := by
  simp only [qdist_eq]; exact dist_comm _ _

theorem qnorm_sub_le (p q : Quat) : |qnorm p - qnorm q| ≤ qdist p q := by
  rw [qnorm_eq, qnorm_eq, qdist_eq, dist_eq_norm]; exact abs_norm_sub_norm_le _ _

theorem qdist_nonneg (p q : Quat) : 0 ≤ qdist p q := Real.sqrt_nonneg _

theorem qnorm_nonneg (q : Quat) : 0 ≤ qnorm q := Real.sqrt_nonneg _

theorem qnorm_sq (q : Quat) : qnorm q ^ 2 = Equatn.sq q := Real.sq_sqrt (by positivity)

theorem qnorm_hamilton (a b : Quat) : qnorm (hamilton a b) = qnorm a * qnorm b := by
  have h := Equatn.sq_hamilton a b
  rw [← qnorm_sq, ← qnorm_sq, ← qnorm_sq, ← mul_pow] at h
  exact (pow_left_inj₀ (qnorm_nonneg _) (mul_nonneg (qnorm_nonneg _) (qnorm_nonneg _)) two_ne_zero).1 h

theorem qdist_eq_norm (p q : Quat) : qdist p q = qnorm (Equatn.qsub p q) := rfl

theorem qdist_hamilton_left (t p q : Quat) : qdist (hamilton t p) (hamilton t q) = qnorm t * qdist p q := by
  rw [qdist_eq_norm, qdist_eq_norm, ← qnorm_hamilton]
  congr 1
  simp only [Equatn.qsub, hamilton, Quat.mk.injEq]
  refine ⟨?_, ?_, ?_, ?_⟩ <;> ring

theorem qdist_hamilton_right (s t q : Quat) : qdist (hamilton s q) (hamilton t q) = qdist s t * qnorm q := by
  rw [qdist_eq_norm, qdist_eq_norm, ← qnorm_hamilton]
  congr 1
  simp only [Equatn.qsub, hamilton, Quat.mk.injEq]
  refine ⟨?_, ?_, ?_, ?_⟩ <;> ring

theorem qdist_le_of (p q : Quat) (d : ℝ) (hd : 0 ≤ d) (hw : |p.w - q.w| ≤ d) (hx : |p.x - q.x| ≤ d)
    (hy : |p.y - q.y| ≤ d) (hz : |p.z - q.z| ≤ d) : qdist p q ≤ 2 * d := by
  refine Real.sqrt_le_iff.2 ⟨by linarith, ?_⟩
  have e : ∀ a : ℝ, |a| ≤ d → a ^ 2 ≤ d ^ 2 := fun a ha => sq_le_sq' (by linarith [(abs_le.1 ha).1]) (abs_le.1 ha).2
  have := e _ hw
  have := e _ hx
  have := e _ hy
  have := e _ hz
  linarith

theorem comp_le (q : Quat) : |q.w| ≤ qnorm q ∧ |q.x| ≤ qnorm q ∧ |q.y| ≤ qnorm q ∧ |q.z| ≤ qnorm q := by
  refine ⟨?_, ?_, ?_, ?_⟩ <;> refine Real.abs_le_sqrt ?_ <;>
    nlinarith [sq_nonneg q.w, sq_nonneg q.x, sq_nonneg q.y, sq_nonneg q.z]

/-! ### Exact turns -/

theorem dir_sq (omega : V3) (h : omega.norm ≠ 0) :
    (omega.x / omega.norm) ^ 2 + (omega.y / omega.norm) ^ 2 + (omega.z / omega.norm) ^ 2 = 1 := by
  have := V3.norm_sq omega
  simp only [V3.normSq, V3.dot] at this
  field_simp
  linarith

theorem qnorm_exactTurn (omega : V3) (dt : ℝ) : qnorm (exactTurn omega dt) = 1 := by
  unfold exactTurn
  split_ifs with h
  · simp [qnorm]
  · have := dir_sq omega h
    have e := Real.sin_sq_add_cos_sq (omega.norm * dt / 2)
    simp only [qnorm]
    rw [Real.sqrt_eq_one]
    linear_combination e + Real.sin (omega.norm * dt / 2) ^ 2 * this

theorem exactTurn_small (omega : V3) (dt : ℝ) : qdist ⟨1, 0, 0, 0⟩ (exactTurn omega dt) ≤ omega.norm * |dt| / 2 := by
  have hn := V3.norm_nonneg omega
  unfold exactTurn
  split_ifs with h
  · simp [qdist, h]
  · have hd := dir_sq omega h
    refine Real.sqrt_le_iff.2 ⟨by positivity, ?_⟩
    have := Equatn.chord (omega.norm * dt / 2) 0 ⟨omega.x / omega.norm, omega.y / omega.norm, omega.z / omega.norm⟩
      ⟨omega.x / omega.norm, omega.y / omega.norm, omega.z / omega.norm⟩ hd hd
    simp only [Real.cos_zero, Real.sin_zero, zero_mul, sub_zero] at this
    have e : (omega.norm * |dt| / 2) ^ 2 = (omega.norm * dt / 2) ^ 2 := by
      rw [div_pow, div_pow, mul_pow, mul_pow, sq_abs]
    rw [e]
    have f : (omega.norm * dt / 2 * (omega.x / omega.norm)) ^ 2 + (omega.norm * dt / 2 * (omega.y / omega.norm)) ^ 2 +
        (omega.norm * dt / 2 * (omega.z / omega.norm)) ^ 2 = (omega.norm * dt / 2) ^ 2 := by
      linear_combination (omega.norm * dt / 2) ^ 2 * hd
    rw [f] at this
    refine le_trans (le_of_eq ?_) this
    ring

/-! ### One step -/

section
variable {A : Arith} {u : ℝ} (hu : 0 ≤ u) (hu1 : u < 1) (hA : Accurate A u)
include hu hu1 hA

theorem norm_rel (v : V3) : Rel u 4 (norm A v) v.norm := by
  have r := fun a => Rel.round hu hu1 hA a
  have h1 : Rel u 2 (A.fl (A.fl (v.x * v.x) + A.fl (v.y * v.y))) (v.x * v.x + v.y * v.y) :=
    (r _).trans hu hu1 ((r _).add hu hu1 (mul_self_nonneg _) (mul_self_nonneg _) (r _))
  have h2 : Rel u 3 (A.fl (A.fl (A.fl (v.x * v.x) + A.fl (v.y * v.y)) + A.fl (v.z * v.z))) (v.x * v.x + v.y * v.y + v.z * v.z) :=
    (r _).trans hu hu1 (h1.add hu hu1 (add_nonneg (mul_self_nonneg _) (mul_self_nonneg _)) (mul_self_nonneg _)
      ((r _).mono hu hu1 (by norm_num)))
  exact (r _).trans hu hu1 (h2.sqrt hu hu1 (add_nonneg (add_nonneg (mul_self_nonneg _) (mul_self_nonneg _)) (mul_self_nonneg _)))

theorem normalize_close (hu6 : 6 * u ≤ 1 / 2) (q : Quat) (hq : 0 < qnorm q) :
    qdist (normalize A q) ⟨q.w / qnorm q, q.x / qnorm q, q.y / qnorm q, q.z / qnorm q⟩ ≤ 12 * u := by
  have r := fun a => Rel.round hu hu1 hA a
  have s := fun a : ℝ => mul_self_nonneg a
  have h1 : Rel u 2 (A.fl (A.fl (q.w * q.w) + A.fl (q.x * q.x))) (q.w * q.w + q.x * q.x) :=
    (r _).trans hu hu1 ((r _).add hu hu1 (s _) (s _) (r _))
  have h2 : Rel u 3 (A.fl (A.fl (A.fl (q.w * q.w) + A.fl (q.x * q.x)) + A.fl (q.y * q.y))) (q.w * q.w + q.x * q.x + q.y * q.y) :=
    (r _).trans hu hu1 (h1.add hu hu1 (add_nonneg (s _) (s _)) (s _) ((r _).mono hu hu1 (by norm_num)))
  have h3 : Rel u 4 (A.fl (A.fl (A.fl (A.fl (q.w * q.w) + A.fl (q.x * q.x)) + A.fl (q.y * q.y)) + A.fl (q.z * q.z)))
      (q.w * q.w + q.x * q.x + q.y * q.y + q.z * q.z) :=
    (r _).trans hu hu1 (h2.add hu hu1 (add_nonneg (add_nonneg (s _) (s _)) (s _)) (s _) ((r _).mono hu hu1 (by norm_num)))
  have e : q.w * q.w + q.x * q.x + q.y * q.y + q.z * q.z = qnorm q ^ 2 := by rw [qnorm_sq, Equatn.sq]; ring
  rw [e] at h3
  have hz := h3.pos hu hu1 (pow_pos hq 2)
  have h4 := (r _).trans hu hu1 (h3.sqrt hu hu1 (sq_nonneg _))
  rw [Real.sqrt_sq hq.le] at h4
  unfold normalize
  simp only [hz, if_true]
  generalize A.fl (Real.sqrt _) = n at h4
  have hc : ∀ c : ℝ, |A.fl (c / n) - c / qnorm q| ≤ 12 * u * |c / qnorm q| := by
    intro c
    have h5 : Rel u 6 (A.fl (c / n)) (c / qnorm q) := by
      have := (r (c / n)).trans hu hu1 ((Rel.refl hu hu1 c).mul hu hu1 (h4.inv hu hu1) |> fun t => by
        simpa only [mul_one_div] using t)
      exact this
    refine (h5.abs hu hu1 (by norm_num; linarith)).trans (le_of_eq ?_)
    push_cast
    ring
  have h2c : ∀ c : ℝ, (A.fl (c / n) - c / qnorm q) ^ 2 ≤ (12 * u) ^ 2 * (c / qnorm q) ^ 2 := by
    intro c
    rw [← mul_pow, ← sq_abs, ← sq_abs (12 * u * _), abs_mul, abs_of_nonneg (by positivity : 0 ≤ 12 * u)]
    exact pow_le_pow_left₀ (abs_nonneg _) (hc c) 2
  refine Real.sqrt_le_iff.2 ⟨by positivity, ?_⟩
  have one : (q.w / qnorm q) ^ 2 + (q.x / qnorm q) ^ 2 + (q.y / qnorm q) ^ 2 + (q.z / qnorm q) ^ 2 = 1 := by
    have := e
    field_simp
    linarith
  have := h2c q.w
  have := h2c q.x
  have := h2c q.y
  have := h2c q.z
  nlinarith

/-- What is known of the numbers that go into the products of a step. -/
structure Factors (A : Arith) (u T n : ℝ) (sw cw winv sa ca : ℝ) : Prop where
  n_pos : 0 < n
  one_le : 1 ≤ T
  small : 46 * T * u ≤ 1
  sin : Ap u (8 * T) 1 sw sa
  cos : Ap u (8 * T) 1 cw ca
  inv : Ap u 10 (1 / n) winv (1 / n)

theorem cross_ap {n a b c d : ℝ} (hn : 0 < n) (hu46 : 46 * u ≤ 1) (ha : |a| ≤ n) (hb : |b| ≤ 2) (hc : |c| ≤ n) (hd : |d| ≤ 2) :
    Ap u 4 (n * 2 + n * 2) (crossAt A a b c d) (a * b - c * d) := by
  have h1 : ∀ a b : ℝ, |a| ≤ n → |b| ≤ 2 → Ap u 2 (n * 2) (A.fl (a * b)) (a * b) := by
    intro a b ha hb
    have := ((Ap.exact hu ha).mul hu (Ap.exact hu hb) (by simp) le_rfl).fl hu hA (by simp)
    exact this.mono hu (by norm_num)
  have := ((h1 a b ha hb).sub hu (h1 c d hc hd)).fl hu hA (by linarith)
  exact this.mono hu (by norm_num)

theorem xyz_ap {T n sw cw winv sa ca s o p c c' : ℝ} (F : Factors A u T n sw cw winv sa ca)
    (hs : |s| ≤ 2) (ho : |o| ≤ n) (hp : |p| ≤ 2) (hc : Ap u 4 (n * 2 + n * 2) c c') :
    |xyzAt A s sw cw winv o p c - (s * sa * o * (1 / n) + ca * p + sa * (1 / n) * c')| ≤ 368 * T * u := by
  obtain ⟨hn, hT, hsm, hsin, hcos, hinv⟩ := F
  have hTu : u ≤ T * u := by nlinarith
  have t1 := ((Ap.exact hu hs).mul hu hsin (by linarith) le_rfl).fl hu hA (by nlinarith)
  have t1b := (((Ap.exact hu ho).mul hu t1 (by nlinarith) le_rfl)).fl hu hA (by nlinarith)
  have t1c := ((hinv.mul hu t1b (by nlinarith) (by norm_num)).fl hu hA (by nlinarith))
  have t2 := ((Ap.exact hu hp).mul hu hcos (by linarith) le_rfl).fl hu hA (by nlinarith)
  have t3 := ((hinv.mul hu hsin (by nlinarith) (by norm_num)).fl hu hA (by nlinarith))
  have t3b := ((hc.mul hu t3 (by nlinarith) (by norm_num)).fl hu hA (by nlinarith))
  have u1 := ((t1c.mono hu (f := 34 * T) (by linarith)).add hu (t2.mono hu (f := 34 * T) (by linarith))).fl hu hA (by nlinarith)
  have u2 := ((u1.mono hu (f := 40 * T) (by linarith)).add hu (t3b.mono hu (f := 40 * T) (by linarith))).fl hu hA (by nlinarith)
  have v := u2.1
  unfold xyzAt
  have e1 : A.fl (A.fl (A.fl (s * sw) * o) * winv) = A.fl (winv * A.fl (o * A.fl (s * sw))) := by
    rw [mul_comm _ winv, mul_comm _ o]
  have e2 : A.fl (A.fl (sw * winv) * c) = A.fl (c * A.fl (winv * sw)) := by
    rw [mul_comm _ c, mul_comm sw winv]
  have e3 : A.fl (cw * p) = A.fl (p * cw) := by rw [mul_comm]
  rw [e1, e2, e3]
  have e4 : s * sa * o * (1 / n) + ca * p + sa * (1 / n) * c' = 1 / n * (o * (s * sa)) + p * ca + c' * (1 / n * sa) := by ring
  rw [e4]
  refine v.trans ?_
  have : (1 / n * (n * (2 * 1)) + 2 * 1 + (n * 2 + n * 2) * (1 / n * 1)) = 8 := by field_simp; norm_num
  rw [this]
  nlinarith [mul_nonneg (by linarith : 0 ≤ T) hu]

theorem w_ap {T n sw cw winv sa ca s : ℝ} {p o : V3} (F : Factors A u T n sw cw winv sa ca)
    (hs : |s| ≤ 2) (ho : |o.x| ≤ n ∧ |o.y| ≤ n ∧ |o.z| ≤ n) (hp : |p.x| ≤ 2 ∧ |p.y| ≤ 2 ∧ |p.z| ≤ 2) :
    |A.fl (A.fl (s * cw) - A.fl (A.fl (dot A p o * sw) * winv)) - (s * ca - (p.x * o.x + p.y * o.y + p.z * o.z) * sa * (1 / n))| ≤ 368 * T * u := by
  obtain ⟨hn, hT, hsm, hsin, hcos, hinv⟩ := F
  have hTu : u ≤ T * u := by nlinarith
  have t1 := ((Ap.exact hu hs).mul hu hcos (by linarith) le_rfl).fl hu hA (by nlinarith)
  have pr : ∀ a b : ℝ, |a| ≤ 2 → |b| ≤ n → Ap u 2 (2 * n) (A.fl (a * b)) (a * b) := by
    intro a b ha hb
    have := ((Ap.exact hu ha).mul hu (Ap.exact hu hb) (by simp) le_rfl).fl hu hA (by simp)
    exact this.mono hu (by norm_num)
  have d1 := ((pr _ _ hp.1 ho.1).add hu (pr _ _ hp.2.1 ho.2.1)).fl hu hA (by nlinarith)
  have d2 := (d1.add hu ((pr _ _ hp.2.2 ho.2.2).mono hu (f := 2 + 2) (by norm_num))).fl hu hA (by nlinarith)
  have d3 : Ap u (2 + 2 + 2) (2 * n + 2 * n + 2 * n) (dot A p o) (p.x * o.x + p.y * o.y + p.z * o.z) := d2
  have t2 := ((d3.mul hu hsin (by linarith) (by norm_num)).fl hu hA (by nlinarith))
  have t3 := ((hinv.mul hu t2 (by nlinarith) (by norm_num)).fl hu hA (by nlinarith))
  have u1 := ((t1.mono hu (f := 44 * T) (by linarith)).sub hu (t3.mono hu (f := 44 * T) (by linarith))).fl hu hA (by nlinarith)
  have v := u1.1
  rw [mul_comm (A.fl (dot A p o * sw)) winv]
  have e4 : s * ca - (p.x * o.x + p.y * o.y + p.z * o.z) * sa * (1 / n) = s * ca - 1 / n * ((p.x * o.x + p.y * o.y + p.z * o.z) * sa) := by ring
  rw [e4]
  refine v.trans ?_
  have : (2 * 1 + 1 / n * ((2 * n + 2 * n + 2 * n) * 1)) = 8 := by field_simp; norm_num
  rw [this]
  nlinarith [mul_nonneg (by linarith : 0 ≤ T) hu]

theorem factors {T : ℝ} (omega : V3) (dt : ℝ) (hn : 0 < omega.norm) (hT : 1 ≤ T) (hsm : 46 * T * u ≤ 1) (ht : omega.norm * |dt| ≤ T) :
    Factors A u T omega.norm (A.sin (A.fl (A.fl (norm A omega * dt) / 2))) (A.cos (A.fl (A.fl (norm A omega * dt) / 2)))
      (A.fl (1 / norm A omega)) (Real.sin (omega.norm * dt / 2)) (Real.cos (omega.norm * dt / 2)) := by
  have hTu : u ≤ T * u := by nlinarith
  have r := fun a => Rel.round hu hu1 hA a
  have hw := norm_rel hu hu1 hA omega
  have hi := (r (1 / norm A omega)).trans hu hu1 (hw.inv hu hu1)
  have ha : Rel u 6 (A.fl (A.fl (norm A omega * dt) / 2)) (omega.norm * dt / 2) := by
    have h1 := (r _).trans hu hu1 (hw.mul hu hu1 (Rel.refl hu hu1 dt))
    have h2 := (r _).trans hu hu1 (h1.mul hu hu1 (Rel.refl hu hu1 (1 / 2)))
    simpa only [mul_one_div] using h2
  have hang : |A.fl (A.fl (norm A omega * dt) / 2) - omega.norm * dt / 2| ≤ 6 * T * u := by
    refine (ha.abs hu hu1 (by push_cast; linarith)).trans ?_
    have e : |omega.norm * dt / 2| = omega.norm * |dt| / 2 := by
      rw [abs_div, abs_mul, abs_of_pos hn]; norm_num
    rw [e]
    push_cast
    nlinarith
  have lip : ∀ f g : ℝ → ℝ, (∀ x, |f x - g x| ≤ 2 * u) → (∀ x y, |g x - g y| ≤ |x - y|) →
      |f (A.fl (A.fl (norm A omega * dt) / 2)) - g (omega.norm * dt / 2)| ≤ 8 * T * u * 1 := by
    intro f g h1 h2
    have a1 := h1 (A.fl (A.fl (norm A omega * dt) / 2))
    have a2 := h2 (A.fl (A.fl (norm A omega * dt) / 2)) (omega.norm * dt / 2)
    have := abs_sub_le (f (A.fl (A.fl (norm A omega * dt) / 2))) (g (A.fl (A.fl (norm A omega * dt) / 2))) (g (omega.norm * dt / 2))
    linarith
  refine ⟨hn, hT, hsm, ⟨lip A.sin Real.sin hA.sin ?_, Real.abs_sin_le_one _⟩, ⟨lip A.cos Real.cos hA.cos ?_, Real.abs_cos_le_one _⟩, ?_, ?_⟩
  · intro x y; exact Real.abs_sin_sub_sin_le x y
  · intro x y; exact Real.abs_cos_sub_cos_le x y
  · refine (hi.abs hu hu1 (by push_cast; linarith)).trans (le_of_eq ?_)
    rw [abs_of_pos (by positivity : 0 < 1 / omega.norm)]
    push_cast
    ring
  · rw [abs_of_pos (by positivity : 0 < 1 / omega.norm)]

theorem raw_close {T : ℝ} (q : Quat) (omega : V3) (dt : ℝ) (hq : qnorm q ≤ 2) (hn : 0 < omega.norm) (hT : 1 ≤ T) (hsm : 46 * T * u ≤ 1)
    (ht : omega.norm * |dt| ≤ T) : qdist (raw A q omega dt (norm A omega)) (hamilton (exactTurn omega dt) q) ≤ 736 * T * u := by
  have F := factors hu hu1 hA omega dt hn hT hsm ht
  have hTu : u ≤ T * u := by nlinarith
  obtain ⟨cw, cx, cy, cz⟩ := comp_le q
  have ob : |omega.x| ≤ omega.norm ∧ |omega.y| ≤ omega.norm ∧ |omega.z| ≤ omega.norm := by
    refine ⟨?_, ?_, ?_⟩ <;> refine Real.abs_le_sqrt ?_ <;> simp only [V3.normSq, V3.dot] <;>
      nlinarith [sq_nonneg omega.x, sq_nonneg omega.y, sq_nonneg omega.z]
  have h46 : 46 * u ≤ 1 := by linarith
  have w1 := w_ap hu hu1 hA F (s := q.w) (p := ⟨q.x, q.y, q.z⟩) (o := omega) (cw.trans hq) ob ⟨cx.trans hq, cy.trans hq, cz.trans hq⟩
  have x1 := xyz_ap hu hu1 hA F (cw.trans hq) ob.1 (cx.trans hq)
    (cross_ap hu hu1 hA hn h46 ob.2.1 (cz.trans hq) ob.2.2 (cy.trans hq))
  have y1 := xyz_ap hu hu1 hA F (cw.trans hq) ob.2.1 (cy.trans hq)
    (cross_ap hu hu1 hA hn h46 ob.2.2 (cx.trans hq) ob.1 (cz.trans hq))
  have z1 := xyz_ap hu hu1 hA F (cw.trans hq) ob.2.2 (cz.trans hq)
    (cross_ap hu hu1 hA hn h46 ob.1 (cy.trans hq) ob.2.1 (cx.trans hq))
  have key := qdist_le_of (raw A q omega dt (norm A omega)) (hamilton (exactTurn omega dt) q) (368 * T * u)
    (by have := mul_nonneg (by linarith : 0 ≤ T) hu; linarith)
  have e : exactTurn omega dt = ⟨Real.cos (omega.norm * dt / 2), Real.sin (omega.norm * dt / 2) * (omega.x / omega.norm),
      Real.sin (omega.norm * dt / 2) * (omega.y / omega.norm), Real.sin (omega.norm * dt / 2) * (omega.z / omega.norm)⟩ := by
    unfold exactTurn; rw [if_neg hn.ne']
  rw [e] at key ⊢
  refine (key ?_ ?_ ?_ ?_).trans (le_of_eq (by ring))
  · refine le_trans (le_of_eq ?_) w1
    simp only [raw, hamilton]; congr 2; ring
  · refine le_trans (le_of_eq ?_) x1
    simp only [raw, hamilton]; congr 2; ring
  · refine le_trans (le_of_eq ?_) y1
    simp only [raw, hamilton]; congr 2; ring
  · refine le_trans (le_of_eq ?_) z1
    simp only [raw, hamilton]; congr 2; ring

/-- One step: the new orientation has unit length and is near the exact turn of the old one. -/
theorem step_close {T : ℝ} (q : Quat) (omega : V3) (dt : ℝ) (hq : |qnorm q - 1| ≤ 12 * u) (hT : 1 ≤ T) (hsm : 1500 * T * u ≤ 1)
    (ht : omega.norm * |dt| ≤ T) :
    |qnorm (rotateEquatn A q omega dt) - 1| ≤ 12 * u ∧
      qdist (rotateEquatn A q omega dt) (hamilton (exactTurn omega dt) q) ≤
        1500 * T * u + if omega.norm < 2 / 2 ^ 23 then omega.norm * |dt| else 0 := by
  have hTu : u ≤ T * u := by nlinarith
  have hq' := abs_le.1 hq
  have hon := V3.norm_nonneg omega
  have hnr := norm_rel hu hu1 hA omega
  have hna := hnr.abs hu hu1 (by push_cast; linarith)
  rw [abs_of_nonneg hon] at hna
  push_cast at hna
  have hna' := abs_le.1 hna
  unfold rotateEquatn
  simp only
  split_ifs with h1 h2 h2
  · refine ⟨hq, ?_⟩
    have e : q = hamilton ⟨1, 0, 0, 0⟩ q := by simp [hamilton]
    have : qdist q (hamilton (exactTurn omega dt) q) = qdist ⟨1, 0, 0, 0⟩ (exactTurn omega dt) * qnorm q := by
      rw [← qdist_hamilton_right, ← e]
    rw [this]
    have h3 := mul_le_mul (exactTurn_small omega dt) (by linarith : qnorm q ≤ 2) (qnorm_nonneg q) (by positivity)
    have : 0 ≤ 1500 * T * u := by have := mul_nonneg (by linarith : 0 ≤ T) hu; linarith
    linarith
  · exfalso
    unfold Equatn.fltEps at h1
    have : omega.norm * (1 - 8 * u) ≤ norm A omega := by nlinarith
    have h5 : omega.norm * (1 / 2) ≤ omega.norm * (1 - 8 * u) := mul_le_mul_of_nonneg_left (by linarith) hon
    have : (2 : ℝ) / 2 ^ 23 = 2 * (1 / 2 ^ 23) := by ring
    rw [this] at h2
    linarith
  all_goals
    have hn : 0 < omega.norm := by
      rcases hon.lt_or_eq with h | h
      · exact h
      · exfalso
        rw [← h] at hna'
        have hf : 0 < fltEps := by unfold Equatn.fltEps; positivity
        apply h1
        linarith
    have hr := raw_close hu hu1 hA q omega dt (by linarith) hn hT (by linarith) ht
    have hN := qnorm_sub_le (raw A q omega dt (norm A omega)) (hamilton (exactTurn omega dt) q)
    rw [qnorm_hamilton, qnorm_exactTurn, one_mul] at hN
    have hN' := abs_le.1 (hN.trans hr)
    generalize raw A q omega dt (norm A omega) = r at *
    generalize hamilton (exactTurn omega dt) q = r' at *
    have hpos : 0 < qnorm r := by linarith
    have hc := normalize_close hu hu1 hA (by linarith) r hpos
    have h1n : qnorm ⟨r.w / qnorm r, r.x / qnorm r, r.y / qnorm r, r.z / qnorm r⟩ = 1 := by
      unfold qnorm
      rw [Real.sqrt_eq_one]
      have := qnorm_sq r
      unfold Equatn.sq at this
      change (r.w / qnorm r) ^ 2 + (r.x / qnorm r) ^ 2 + (r.y / qnorm r) ^ 2 + (r.z / qnorm r) ^ 2 = 1
      field_simp
      linarith
    have hd : qdist ⟨r.w / qnorm r, r.x / qnorm r, r.y / qnorm r, r.z / qnorm r⟩ r = |qnorm r - 1| := by
      unfold qdist
      rw [← Real.sqrt_sq_eq_abs]
      congr 1
      have := qnorm_sq r
      unfold Equatn.sq at this
      simp only
      field_simp
      linear_combination (-(1 - qnorm r) ^ 2) * this
    generalize (⟨r.w / qnorm r, r.x / qnorm r, r.y / qnorm r, r.z / qnorm r⟩ : Quat) = m at *
    have hl := qnorm_sub_le (normalize A r) m
    rw [h1n] at hl
    refine ⟨hl.trans hc, ?_⟩
    have t1 := qdist_triangle (normalize A r) m r'
    have t2 := qdist_triangle m r r'
    have t3 : |qnorm r - 1| ≤ 12 * u + 736 * T * u := abs_le.2 ⟨by linarith, by linarith⟩
    have : 0 ≤ omega.norm * |dt| := by positivity
    linarith

end

/-! ### Any number of steps -/

theorem run_snd (A : Arith) (pos : V3) (q : Quat) (moves : List Move) :
    (run A pos q moves).2 = moves.foldl (fun q m => rotateEquatn A q m.omega m.dt) q := by
  unfold run
  induction moves generalizing pos q with
  | nil => rfl
  | cons m l ih => simp only [List.foldl_cons]; exact ih _ _

theorem orientation_close {A : Arith} {u : ℝ} (hu : 0 ≤ u) (hu1 : u < 1) (hA : Accurate A u) {T : ℝ} (hT : 1 ≤ T) (hsm : 1500 * T * u ≤ 1)
    (moves : List Move) (hm : ∀ m ∈ moves, m.omega.norm * |m.dt| ≤ T) : ∀ (q q' : Quat), |qnorm q - 1| ≤ 12 * u →
    |qnorm (moves.foldl (fun q m => rotateEquatn A q m.omega m.dt) q) - 1| ≤ 12 * u ∧
    qdist (moves.foldl (fun q m => rotateEquatn A q m.omega m.dt) q) (exactOrientation q' moves) ≤
      qdist q q' + 1500 * T * u * moves.length + slack moves := by
  induction moves with
  | nil => intro q q' hq; exact ⟨hq, by simp [exactOrientation, slack]⟩
  | cons m l ih =>
    intro q q' hq
    obtain ⟨s1, s2⟩ := step_close hu hu1 hA q m.omega m.dt hq hT hsm (hm m (by simp))
    obtain ⟨i1, i2⟩ := ih (fun x hx => hm x (by simp [hx])) (rotateEquatn A q m.omega m.dt) (hamilton (exactTurn m.omega m.dt) q') s1
    refine ⟨i1, ?_⟩
    have t := qdist_triangle (rotateEquatn A q m.omega m.dt) (hamilton (exactTurn m.omega m.dt) q) (hamilton (exactTurn m.omega m.dt) q')
    rw [qdist_hamilton_left, qnorm_exactTurn, one_mul] at t
    have e : slack (m :: l) = (if m.omega.norm < 2 / 2 ^ 23 then m.omega.norm * |m.dt| else 0) + slack l := by
      simp [slack]
    rw [e]
    simp only [List.length_cons, List.foldl_cons]
    push_cast
    unfold exactOrientation at i2 ⊢
    simp only [List.foldl_cons]
    linarith

/-! ### Positions -/

theorem moved_close {A : Arith} {u : ℝ} (hu : 0 ≤ u) (hu1 : u ≤ 1) (hA : Accurate A u) {L p p' v dt : ℝ} (hp : |p - p'| ≤ L)
    (h1 : |p' + dt * v| ≤ L) (h2 : |dt * v| ≤ L) : |movedAt A p v dt - (p' + dt * v)| ≤ |p - p'| + 4 * u * L := by
  unfold movedAt
  have a1 := hA.fl (v * dt)
  rw [mul_comm v dt] at a1 ⊢
  have a2 := hA.fl (p + A.fl (dt * v))
  have hL : 0 ≤ L := (abs_nonneg _).trans h2
  have uL : 0 ≤ u * L := mul_nonneg hu hL
  have a1' : |A.fl (dt * v) - dt * v| ≤ u * L := a1.trans (mul_le_mul_of_nonneg_left h2 hu)
  have b : |p + A.fl (dt * v) - (p' + dt * v)| ≤ |p - p'| + u * L := by
    rw [show p + A.fl (dt * v) - (p' + dt * v) = (p - p') + (A.fl (dt * v) - dt * v) by ring]
    exact (abs_add_le _ _).trans (by linarith)
  have c : |p + A.fl (dt * v)| ≤ 3 * L := by
    have := abs_add_le (p + A.fl (dt * v) - (p' + dt * v)) (p' + dt * v)
    rw [sub_add_cancel] at this
    have : u * L ≤ L := by nlinarith
    linarith
  have d := mul_le_mul_of_nonneg_left c hu
  have := abs_add_le (A.fl (p + A.fl (dt * v)) - (p + A.fl (dt * v))) (p + A.fl (dt * v) - (p' + dt * v))
  rw [show A.fl (p + A.fl (dt * v)) - (p + A.fl (dt * v)) + (p + A.fl (dt * v) - (p' + dt * v)) = A.fl (p + A.fl (dt * v)) - (p' + dt * v) by ring] at this
  linarith

/-- One coordinate. -/
theorem coord_close {A : Arith} {u : ℝ} (hu : 0 ≤ u) (hA : Accurate A u) {L : ℝ} (hL : 0 ≤ L) : ∀ (l : List (ℝ × ℝ)) (p p' : ℝ) (k : ℕ),
    4 * (k + l.length : ℕ) * u ≤ 1 → |p - p'| ≤ 4 * k * u * L →
    (∀ j, |(l.take j).foldl (fun p m => p + m.2 * m.1) p'| ≤ L) → (∀ m ∈ l, |m.2 * m.1| ≤ L) →
    |l.foldl (fun p m => movedAt A p m.1 m.2) p - l.foldl (fun p m => p + m.2 * m.1) p'| ≤ 4 * (k + l.length : ℕ) * u * L := by
  intro l
  induction l with
  | nil => intro p p' k _ h _ _; simpa using h
  | cons m l ih =>
    intro p p' k hk h hb hv
    simp only [List.length_cons] at hk ⊢
    push_cast at hk
    have hl : (0 : ℝ) ≤ l.length := by positivity
    have hk0 : (0 : ℝ) ≤ k := by positivity
    have u1 : u ≤ 1 := by nlinarith [mul_nonneg hl hu, mul_nonneg hk0 hu]
    have ku : 4 * k * u ≤ 1 := by nlinarith [mul_nonneg hl hu]
    have s := moved_close hu u1 hA (L := L) (p := p) (p' := p') (v := m.1) (dt := m.2) (h.trans (by nlinarith)) (by simpa using hb 1) (hv m (by simp))
    have := ih (movedAt A p m.1 m.2) (p' + m.2 * m.1) (k + 1) (by push_cast; linarith) (by push_cast; linarith)
      (fun j => by simpa using hb (j + 1)) (fun x hx => hv x (by simp [hx]))
    simp only [List.foldl_cons]
    have e : k + 1 + l.length = k + (l.length + 1) := by omega
    rw [e] at this
    exact this

theorem run_x (A : Arith) (pos : V3) (q : Quat) (moves : List Move) :
    (run A pos q moves).1.x = (moves.map fun m => (m.vel.x, m.dt)).foldl (fun p m => movedAt A p m.1 m.2) pos.x ∧
    (run A pos q moves).1.y = (moves.map fun m => (m.vel.y, m.dt)).foldl (fun p m => movedAt A p m.1 m.2) pos.y ∧
    (run A pos q moves).1.z = (moves.map fun m => (m.vel.z, m.dt)).foldl (fun p m => movedAt A p m.1 m.2) pos.z := by
  unfold run
  induction moves generalizing pos q with
  | nil => exact ⟨rfl, rfl, rfl⟩
  | cons m l ih => simp only [List.foldl_cons, List.map_cons]; exact ih _ _

theorem exact_x (pos : V3) (moves : List Move) :
    (exactPosition pos moves).x = (moves.map fun m => (m.vel.x, m.dt)).foldl (fun p m => p + m.2 * m.1) pos.x ∧
    (exactPosition pos moves).y = (moves.map fun m => (m.vel.y, m.dt)).foldl (fun p m => p + m.2 * m.1) pos.y ∧
    (exactPosition pos moves).z = (moves.map fun m => (m.vel.z, m.dt)).foldl (fun p m => p + m.2 * m.1) pos.z := by
  unfold exactPosition
  induction moves generalizing pos with
  | nil => exact ⟨rfl, rfl, rfl⟩
  | cons m l ih =>
    simp only [List.foldl_cons, List.map_cons]
    have := ih (pos + m.dt • m.vel)
    simpa using this

theorem coord_le (v : V3) : |v.x| ≤ v.norm ∧ |v.y| ≤ v.norm ∧ |v.z| ≤ v.norm := by
  refine ⟨?_, ?_, ?_⟩ <;> refine Real.abs_le_sqrt ?_ <;> simp only [V3.normSq, V3.dot] <;>
    nlinarith [sq_nonneg v.x, sq_nonneg v.y, sq_nonneg v.z]

theorem position_close {A : Arith} {u : ℝ} (hu : 0 ≤ u) (hA : Accurate A u) {L : ℝ} (hL : 0 ≤ L) (pos : V3) (q : Quat) (moves : List Move)
    (hn : 4 * (moves.length : ℝ) * u ≤ 1) (hb : ∀ k, (exactPosition pos (moves.take k)).norm ≤ L) (hv : ∀ m ∈ moves, (m.dt • m.vel).norm ≤ L) :
    ((run A pos q moves).1 - exactPosition pos moves).norm ≤ 8 * moves.length * u * L := by
  obtain ⟨rx, ry, rz⟩ := run_x A pos q moves
  obtain ⟨ex, ey, ez⟩ := exact_x pos moves
  have key : ∀ (f : V3 → ℝ) (p : ℝ), (∀ k, |((moves.take k).map fun m => (f m.vel, m.dt)).foldl (fun p m => p + m.2 * m.1) p| ≤ L) →
      (∀ m ∈ moves, |m.dt * f m.vel| ≤ L) →
      |(moves.map fun m => (f m.vel, m.dt)).foldl (fun p m => movedAt A p m.1 m.2) p - (moves.map fun m => (f m.vel, m.dt)).foldl (fun p m => p + m.2 * m.1) p| ≤
        4 * moves.length * u * L := by
    intro f p h1 h2
    have := coord_close hu hA hL (moves.map fun m => (f m.vel, m.dt)) p p 0 (by simpa using hn) (by simp) (fun j => by
      rw [← List.map_take]; exact h1 j) (by
      intro m hm
      obtain ⟨a, ha, rfl⟩ := List.mem_map.1 hm
      exact h2 a ha)
    simpa using this
  have kx := key V3.x pos.x (fun k => by rw [← (exact_x pos (moves.take k)).1]; exact (coord_le _).1.trans (hb k))
    (fun m hm => (coord_le (m.dt • m.vel)).1.trans (hv m hm))
  have ky := key V3.y pos.y (fun k => by rw [← (exact_x pos (moves.take k)).2.1]; exact (coord_le _).2.1.trans (hb k))
    (fun m hm => (coord_le (m.dt • m.vel)).2.1.trans (hv m hm))
  have kz := key V3.z pos.z (fun k => by rw [← (exact_x pos (moves.take k)).2.2]; exact (coord_le _).2.2.trans (hb k))
    (fun m hm => (coord_le (m.dt • m.vel)).2.2.trans (hv m hm))
  rw [← rx, ← ex] at kx
  rw [← ry, ← ey] at ky
  rw [← rz, ← ez] at kz
  have hB : 0 ≤ 4 * moves.length * u * L := (abs_nonneg _).trans kx
  rw [show 8 * (moves.length : ℝ) * u * L = 2 * (4 * moves.length * u * L) by ring]
  generalize 4 * (moves.length : ℝ) * u * L = B at *
  refine Real.sqrt_le_iff.2 ⟨by linarith, ?_⟩
  simp only [V3.normSq, V3.dot, V3.sub_x, V3.sub_y, V3.sub_z]
  have e : ∀ a : ℝ, |a| ≤ B → a * a ≤ B ^ 2 := fun a ha => by
    have := sq_le_sq' (by linarith [(abs_le.1 ha).1]) (abs_le.1 ha).2
    linarith [sq a]
  have := e _ kx
  have := e _ ky
  have := e _ kz
  nlinarith [sq_nonneg B]

/-! ### Slow turns -/

/-- Arithmetic without rounding. -/
noncomputable def exactArith : Arith := ⟨id, Real.sin, Real.cos⟩

theorem exactArith_accurate {u : ℝ} (hu : 0 ≤ u) : Accurate exactArith u :=
  ⟨fun x => by simp [exactArith]; positivity, fun x => by simp [exactArith]; positivity, fun x => by simp [exactArith]; positivity⟩

theorem norm_exact (v : V3) : norm exactArith v = v.norm := rfl

theorem slow_stays (omega vel : V3) (dt : ℝ) (h : omega.norm < fltEps) (n : ℕ) (pos : V3) (q : Quat) :
    (run exactArith pos q (List.replicate n ⟨vel, omega, dt⟩)).2 = q := by
  rw [run_snd]
  induction n with
  | zero => rfl
  | succ n ih =>
    rw [List.replicate_succ, List.foldl_cons]
    have : rotateEquatn exactArith q omega dt = q := by unfold rotateEquatn; simp only [norm_exact, h, if_true]
    simp only [this]
    exact ih

theorem exact_about_z (w dt : ℝ) (hw : 0 < w) (vel : V3) (n : ℕ) (a : ℝ) :
    exactOrientation ⟨Real.cos a, 0, 0, Real.sin a⟩ (List.replicate n ⟨vel, ⟨0, 0, w⟩, dt⟩) =
      ⟨Real.cos (a + n * (w * dt / 2)), 0, 0, Real.sin (a + n * (w * dt / 2))⟩ := by
  have hn : V3.norm ⟨0, 0, w⟩ = w := by
    simp only [V3.norm, V3.normSq, V3.dot]
    rw [show (0 : ℝ) * 0 + 0 * 0 + w * w = w ^ 2 by ring, Real.sqrt_sq hw.le]
  induction n generalizing a with
  | zero => simp [exactOrientation]
  | succ n ih =>
    have e : hamilton (exactTurn ⟨0, 0, w⟩ dt) ⟨Real.cos a, 0, 0, Real.sin a⟩ = ⟨Real.cos (a + w * dt / 2), 0, 0, Real.sin (a + w * dt / 2)⟩ := by
      unfold exactTurn
      rw [hn, if_neg hw.ne']
      simp only [hamilton, Real.cos_add, Real.sin_add, Quat.mk.injEq, zero_div, mul_zero, zero_mul, div_self hw.ne', mul_one]
      refine ⟨?_, ?_, ?_, ?_⟩ <;> ring
    unfold exactOrientation at ih ⊢
    rw [List.replicate_succ, List.foldl_cons]
    simp only [e]
    rw [ih]
    congr 2 <;> push_cast <;> ring

end Verif.FloatStep
