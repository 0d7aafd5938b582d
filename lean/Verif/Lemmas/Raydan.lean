import Mathlib.Algebra.Order.BigOperators.Group.Finset
import Mathlib.Algebra.BigOperators.Ring.Finset
import Mathlib.Algebra.Order.Archimedean.Real.Basic
import Mathlib.Tactic.Linarith
import Mathlib.Tactic.Positivity
import Mathlib.Tactic.FieldSimp
import Mathlib.Tactic.Ring
/-!
The Barzilai-Borwein iteration in the coordinates of the eigenvectors (C92): the components of the gradient tend to zero, whatever the eigenvalues, at a rate
that depends on the number of unknowns and the bounds of the eigenvalues only.
-/
namespace Verif.Raydan
open Finset

variable {n : ℕ}

/-- A run of the iteration in the coordinates of the eigenvectors: `c k` is the gradient (or the distance from the solution), `al k` the step size.  The next step size is
one of the two quotients for the weights `w k`, which are the squares of `c k` up to the factor `H`. -/
structure Run (mu L H : ℝ) (lam : Fin n → ℝ) (c w : ℕ → Fin n → ℝ) (al : ℕ → ℝ) : Prop where
  low : ∀ i, mu ≤ lam i
  high : ∀ i, lam i ≤ L
  next : ∀ k i, |c (k + 1) i| ≤ |(1 - al k * lam i) * c k i|
  alLow : ∀ k, 1 / L ≤ al k
  alHigh : ∀ k, al k ≤ 1 / mu
  wLow : ∀ k i, c k i ^ 2 ≤ H * w k i
  wHigh : ∀ k i, w k i ≤ H * c k i ^ 2
  step : ∀ k, al (k + 1) * ∑ i, lam i * w k i = ∑ i, w k i ∨ al (k + 1) * ∑ i, lam i ^ 2 * w k i = ∑ i, lam i * w k i

/-- The number of smaller eigenvalues. -/
noncomputable def level (lam : Fin n → ℝ) (i : Fin n) : ℕ := #{j | lam j < lam i}

theorem level_lt (lam : Fin n → ℝ) (i j : Fin n) (h : lam j < lam i) : level lam j < level lam i := by
  unfold level
  apply card_lt_card
  rw [ssubset_iff_of_subset]
  · exact ⟨j, by simpa using h, by simp⟩
  · intro k hk
    rw [mem_filter] at hk ⊢
    exact ⟨hk.1, hk.2.trans h⟩

theorem level_bound (lam : Fin n → ℝ) (i : Fin n) : level lam i < n + 1 := by
  unfold level
  have := card_le_univ ({j | lam j < lam i} : Finset (Fin n))
  simp at this
  omega

/-- If the components of the smaller eigenvalues are small compared with that of eigenvalue `lam i`, the step size is at most `3 / (2 lam i)`. -/
theorem short {mu : ℝ} (hmu : 0 < mu) {lam : Fin n → ℝ} (w : Fin n → ℝ) (hw : ∀ j, 0 ≤ w j) (low : ∀ i, mu ≤ lam i) (i : Fin n) (d al : ℝ) (hd : 0 < d)
    (hs : ∑ j with lam j < lam i, w j ≤ d) (hi : 2 * d ≤ w i)
    (step : al * ∑ i, lam i * w i = ∑ i, w i ∨ al * ∑ i, lam i ^ 2 * w i = ∑ i, lam i * w i) : al * lam i ≤ 3 / 2 := by
  have hpos : ∀ j, 0 < lam j := fun j => lt_of_lt_of_le hmu (low j)
  have hli := hpos i
  have e1 := sum_filter_add_sum_filter_not univ (fun j => lam j < lam i) w
  have e2 := sum_filter_add_sum_filter_not univ (fun j => lam j < lam i) (fun j => lam j * w j)
  have e3 := sum_filter_add_sum_filter_not univ (fun j => lam j < lam i) (fun j => lam j ^ 2 * w j)
  have mi : i ∈ (univ.filter fun j => ¬ lam j < lam i) := by simp
  have big : w i ≤ ∑ j with ¬ lam j < lam i, w j := single_le_sum (f := w) (fun j _ => hw j) mi
  have b1 : lam i * ∑ j with ¬ lam j < lam i, w j ≤ ∑ j with ¬ lam j < lam i, lam j * w j := by
    rw [mul_sum]
    refine sum_le_sum fun j hj => mul_le_mul_of_nonneg_right ?_ (hw j)
    rw [mem_filter] at hj; exact not_lt.1 hj.2
  have b2 : lam i * ∑ j with ¬ lam j < lam i, lam j * w j ≤ ∑ j with ¬ lam j < lam i, lam j ^ 2 * w j := by
    rw [mul_sum]
    refine sum_le_sum fun j hj => ?_
    rw [mem_filter] at hj
    have := mul_le_mul_of_nonneg_right (not_lt.1 hj.2) (mul_nonneg (hpos j).le (hw j))
    nlinarith
  have b3 : ∑ j with lam j < lam i, lam j * w j ≤ lam i * ∑ j with lam j < lam i, w j := by
    rw [mul_sum]
    refine sum_le_sum fun j hj => mul_le_mul_of_nonneg_right ?_ (hw j)
    rw [mem_filter] at hj; exact hj.2.le
  have z1 : 0 ≤ ∑ j with lam j < lam i, lam j * w j := sum_nonneg fun j _ => mul_nonneg (hpos j).le (hw j)
  have z2 : 0 ≤ ∑ j with lam j < lam i, lam j ^ 2 * w j := sum_nonneg fun j _ => mul_nonneg (sq_nonneg _) (hw j)
  generalize (∑ j with lam j < lam i, w j) = A0 at *
  generalize (∑ j with lam j < lam i, lam j * w j) = A1 at *
  generalize (∑ j with lam j < lam i, lam j ^ 2 * w j) = A2 at *
  generalize (∑ j with ¬ lam j < lam i, w j) = B0 at *
  generalize (∑ j with ¬ lam j < lam i, lam j * w j) = B1 at *
  generalize (∑ j with ¬ lam j < lam i, lam j ^ 2 * w j) = B2 at *
  have hB0 : 0 < B0 := by linarith
  have hB1 : 0 < B1 := lt_of_lt_of_le (by positivity) b1
  have hB2 : 0 < B2 := lt_of_lt_of_le (by positivity) b2
  by_contra hn
  push Not at hn
  rcases step with h | h
  · rw [← e1, ← e2] at h
    have hal : 0 < al := by
      by_contra h0
      have : al * lam i ≤ 0 := mul_nonpos_of_nonpos_of_nonneg (not_lt.1 h0) hli.le
      linarith
    have k1 : al * (lam i * B0) ≤ al * (A1 + B1) := mul_le_mul_of_nonneg_left (by linarith) hal.le
    have k2 : 3 / 2 * B0 < al * lam i * B0 := mul_lt_mul_of_pos_right hn hB0
    nlinarith
  · rw [← e2, ← e3] at h
    have hal : 0 < al := by
      by_contra h0
      have : al * lam i ≤ 0 := mul_nonpos_of_nonpos_of_nonneg (not_lt.1 h0) hli.le
      linarith
    have k1 : al * (lam i * B1) ≤ al * (A2 + B2) := mul_le_mul_of_nonneg_left (by linarith) hal.le
    have k2 : 3 / 2 * B1 < al * lam i * B1 := mul_lt_mul_of_pos_right hn hB1
    have k3 : lam i * A0 ≤ lam i * d := mul_le_mul_of_nonneg_left hs hli.le
    have k4 : lam i * (2 * d) ≤ lam i * B0 := mul_le_mul_of_nonneg_left (by linarith) hli.le
    nlinarith

section
variable {mu L H : ℝ} {lam : Fin n → ℝ} {c w : ℕ → Fin n → ℝ} {al : ℕ → ℝ}

theorem next_sq (h : Run mu L H lam c w al) (k : ℕ) (i : Fin n) : c (k + 1) i ^ 2 ≤ (1 - al k * lam i) ^ 2 * c k i ^ 2 := by
  rw [← mul_pow]
  exact sq_le_sq.2 (h.next k i)

theorem factor_low (hmu : 0 < mu) (hml : mu ≤ L) (h : Run mu L H lam c w al) (k : ℕ) (i : Fin n) : mu / L ≤ al k * lam i := by
  have hL : 0 < L := lt_of_lt_of_le hmu hml
  calc mu / L = 1 / L * mu := by ring
    _ ≤ al k * lam i := mul_le_mul (h.alLow k) (h.low i) hmu.le (le_trans (by positivity) (h.alLow k))

theorem factor_high (hmu : 0 < mu) (h : Run mu L H lam c w al) (k : ℕ) (i : Fin n) : al k * lam i ≤ L / mu := by
  calc al k * lam i ≤ 1 / mu * L := mul_le_mul (h.alHigh k) (h.high i) (hmu.le.trans (h.low i)) (by positivity)
    _ = L / mu := by ring

/-- In one step a component grows at most by the condition number. -/
theorem grow (hmu : 0 < mu) (hml : mu ≤ L) (h : Run mu L H lam c w al) (k : ℕ) (i : Fin n) : c (k + 1) i ^ 2 ≤ (L / mu) ^ 2 * c k i ^ 2 := by
  have hL : 0 < L := lt_of_lt_of_le hmu hml
  have h1 := factor_low hmu hml h k i
  have h2 := factor_high hmu h k i
  have h3 : 0 < mu / L := by positivity
  have h4 : 1 ≤ L / mu := by rw [le_div_iff₀ hmu]; linarith
  refine (next_sq h k i).trans (mul_le_mul_of_nonneg_right ?_ (sq_nonneg _))
  apply sq_le_sq'
  · linarith
  · linarith

theorem grow_many (hmu : 0 < mu) (hml : mu ≤ L) (h : Run mu L H lam c w al) (k m : ℕ) (i : Fin n) : c (k + m) i ^ 2 ≤ ((L / mu) ^ 2) ^ m * c k i ^ 2 := by
  induction m with
  | zero => simp
  | succ m ih =>
    calc c (k + (m + 1)) i ^ 2 ≤ (L / mu) ^ 2 * c (k + m) i ^ 2 := grow hmu hml h (k + m) i
      _ ≤ (L / mu) ^ 2 * (((L / mu) ^ 2) ^ m * c k i ^ 2) := by gcongr
      _ = _ := by ring

/-- The rate at which a component that dominates those of the smaller eigenvalues decreases. -/
noncomputable def rate (mu L : ℝ) : ℝ := max (1 / 4) ((1 - mu / L) ^ 2)

theorem rate_pos : 0 < rate mu L := lt_of_lt_of_le (by norm_num) (le_max_left _ _)

theorem rate_lt (hmu : 0 < mu) (hml : mu ≤ L) : rate mu L < 1 := by
  have hL : 0 < L := lt_of_lt_of_le hmu hml
  have h3 : 0 < mu / L := by positivity
  have h4 : mu / L ≤ 1 := by rw [div_le_one hL]; exact hml
  refine max_lt (by norm_num) ?_
  nlinarith

/-- Two steps of one component. -/
theorem two_steps (hmu : 0 < mu) (hml : mu ≤ L) (hH : 1 ≤ H) (h : Run mu L H lam c w al) (k : ℕ) (i : Fin n) (d : ℝ) (hd : 0 < d)
    (hs : ∑ j with lam j < lam i, c k j ^ 2 ≤ d) :
    c (k + 2) i ^ 2 ≤ max (rate mu L * c (k + 1) i ^ 2) (((L / mu) ^ 2) ^ 2 * (2 * (H ^ 2 * d))) := by
  have hL : 0 < L := lt_of_lt_of_le hmu hml
  have hw : ∀ j, 0 ≤ w k j := by
    intro j
    have h1 := (sq_nonneg (c k j)).trans (h.wLow k j)
    by_contra hn
    push Not at hn
    nlinarith
  have hsw : ∑ j with lam j < lam i, w k j ≤ H * d := by
    refine le_trans (sum_le_sum fun j _ => h.wHigh k j) ?_
    rw [← mul_sum]
    exact mul_le_mul_of_nonneg_left hs (by linarith)
  rcases lt_or_ge (c k i ^ 2) (2 * (H ^ 2 * d)) with hlt | hge
  · refine le_trans ?_ (le_max_right _ _)
    refine (grow_many hmu hml h k 2 i).trans ?_
    gcongr
  · refine le_trans ?_ (le_max_left _ _)
    have h0 := short hmu (w k) hw h.low i (H * d) (al (k + 1)) (by positivity) hsw (by
      have h1 := hge.trans (h.wLow k i)
      refine le_of_mul_le_mul_left ?_ (show 0 < H by linarith)
      linarith) (h.step k)
    have h1 := factor_low hmu hml h (k + 1) i
    have h3 : 0 < mu / L := by positivity
    have h4 : mu / L ≤ 1 := by rw [div_le_one hL]; exact hml
    refine (next_sq h (k + 1) i).trans (mul_le_mul_of_nonneg_right ?_ (sq_nonneg _))
    rcases le_total (al (k + 1) * lam i) 1 with hle | hle
    · refine le_trans ?_ (le_max_right _ _)
      apply sq_le_sq' <;> linarith
    · refine le_trans ?_ (le_max_left _ _)
      nlinarith

end

/-- The components whose eigenvalues have fewer than `r` smaller ones tend to zero. -/
theorem levels (n : ℕ) {mu L H : ℝ} (hmu : 0 < mu) (hml : mu ≤ L) (hH : 1 ≤ H) (r : ℕ) : ∀ e : ℝ, 0 < e → ∃ N : ℕ, ∀ (lam : Fin n → ℝ) (c w : ℕ → Fin n → ℝ) (al : ℕ → ℝ), Run mu L H lam c w al →
    ∀ i, level lam i < r → ∀ k, N ≤ k → c k i ^ 2 ≤ e * ∑ j, c 0 j ^ 2 := by
  have hL : 0 < L := lt_of_lt_of_le hmu hml
  have hk : 1 ≤ L / mu := by rw [le_div_iff₀ hmu]; linarith
  have hk2 : 1 ≤ ((L / mu) ^ 2) ^ 2 := one_le_pow₀ (one_le_pow₀ hk)
  induction r with
  | zero => intro e _; exact ⟨0, fun _ _ _ _ _ i h => absurd h (Nat.not_lt_zero _)⟩
  | succ r ih =>
    intro e he
    have hn : (0 : ℝ) < n + 1 := by positivity
    have hK : 0 < ((L / mu) ^ 2) ^ 2 := by positivity
    obtain ⟨e', he'⟩ : ∃ e', e' = e / (2 * H ^ 2 * ((L / mu) ^ 2) ^ 2 * (n + 1)) := ⟨_, rfl⟩
    have e'0 : 0 < e' := by rw [he']; positivity
    have e'1 : ((L / mu) ^ 2) ^ 2 * (2 * (H ^ 2 * ((n + 1) * e'))) = e := by rw [he']; field_simp
    obtain ⟨N, hN⟩ := ih e' e'0
    have hth := rate_lt hmu hml
    have hth0 : 0 < rate mu L := rate_pos
    obtain ⟨m0, hm0⟩ := exists_pow_lt_of_lt_one (show 0 < e / ((L / mu) ^ 2) ^ (N + 1) by positivity) hth
    rw [lt_div_iff₀ (by positivity)] at hm0
    refine ⟨N + 1 + m0, fun lam c w al h i hi k hk' => ?_⟩
    obtain ⟨S, hS⟩ : ∃ S, S = ∑ j, c 0 j ^ 2 := ⟨_, rfl⟩
    have hS0 : 0 ≤ S := by rw [hS]; exact sum_nonneg fun j _ => sq_nonneg _
    have hle : ∀ j, c 0 j ^ 2 ≤ S := fun j => by rw [hS]; exact single_le_sum (f := fun j => c 0 j ^ 2) (fun j _ => sq_nonneg _) (mem_univ j)
    rw [← hS]
    rcases hS0.eq_or_lt with h0 | hpos
    · have := grow_many hmu hml h 0 k i
      rw [Nat.zero_add] at this
      have h2 : c 0 i ^ 2 = 0 := le_antisymm (by rw [h0]; exact hle i) (sq_nonneg _)
      rw [h2, mul_zero] at this
      rw [← h0, mul_zero]; exact this
    · have hs : ∀ k, N ≤ k → ∑ j with lam j < lam i, c k j ^ 2 ≤ (n + 1) * e' * S := by
        intro k hk
        have h1 : ∑ j with lam j < lam i, c k j ^ 2 ≤ ∑ j with lam j < lam i, e' * S := by
          refine sum_le_sum fun j hj => ?_
          rw [mem_filter] at hj
          rw [hS]
          exact hN lam c w al h j (by have := level_lt lam i j hj.2; omega) k hk
        rw [sum_const, nsmul_eq_mul] at h1
        refine h1.trans ?_
        have h2 : ((#{j | lam j < lam i} : ℕ) : ℝ) ≤ n + 1 := by
          have := level_bound lam i
          unfold level at this
          exact_mod_cast this.le
        rw [mul_assoc]
        exact mul_le_mul_of_nonneg_right h2 (by positivity)
      have hmain : ∀ m, c (N + 1 + m) i ^ 2 ≤ max (rate mu L ^ m * (((L / mu) ^ 2) ^ (N + 1) * S)) (e * S) := by
        intro m
        induction m with
        | zero =>
          refine le_trans ?_ (le_max_left _ _)
          rw [pow_zero, one_mul]
          have := grow_many hmu hml h 0 (N + 1) i
          rw [Nat.zero_add] at this
          refine this.trans ?_
          gcongr
          exact hle i
        | succ m ihm =>
          have h1 := two_steps hmu hml hH h (N + m) i ((n + 1) * e' * S) (by positivity) (hs (N + m) (by omega))
          rw [show N + m + 2 = N + 1 + (m + 1) by omega, show N + m + 1 = N + 1 + m by omega] at h1
          refine h1.trans ?_
          have h2 : ((L / mu) ^ 2) ^ 2 * (2 * (H ^ 2 * ((n + 1) * e' * S))) = e * S := by rw [← e'1]; ring
          rw [h2]
          refine max_le ?_ (le_max_right _ _)
          rcases le_max_iff.1 ihm with h3 | h3
          · refine le_trans ?_ (le_max_left _ _)
            calc rate mu L * c (N + 1 + m) i ^ 2 ≤ rate mu L * (rate mu L ^ m * (((L / mu) ^ 2) ^ (N + 1) * S)) := by gcongr
              _ = _ := by ring
          · refine le_trans ?_ (le_max_right _ _)
            calc rate mu L * c (N + 1 + m) i ^ 2 ≤ 1 * (e * S) := by gcongr
              _ = _ := by ring
      obtain ⟨m, rfl⟩ : ∃ m, k = N + 1 + m := ⟨k - (N + 1), by omega⟩
      refine (hmain m).trans (max_le ?_ le_rfl)
      have h5 : rate mu L ^ m ≤ rate mu L ^ m0 := pow_le_pow_of_le_one hth0.le hth.le (by omega)
      calc rate mu L ^ m * (((L / mu) ^ 2) ^ (N + 1) * S) ≤ rate mu L ^ m0 * (((L / mu) ^ 2) ^ (N + 1) * S) := by gcongr
        _ = rate mu L ^ m0 * ((L / mu) ^ 2) ^ (N + 1) * S := by ring
        _ ≤ e * S := mul_le_mul_of_nonneg_right hm0.le hS0

/-- The components tend to zero. -/
theorem vanishes (n : ℕ) {mu L H : ℝ} (hmu : 0 < mu) (hml : mu ≤ L) (hH : 1 ≤ H) (e : ℝ) (he : 0 < e) : ∃ N : ℕ, ∀ (lam : Fin n → ℝ) (c w : ℕ → Fin n → ℝ) (al : ℕ → ℝ), Run mu L H lam c w al →
    ∀ k, N ≤ k → ∑ i, c k i ^ 2 ≤ e * ∑ j, c 0 j ^ 2 := by
  obtain ⟨N, hN⟩ := levels n hmu hml hH (n + 1) (e / (n + 1)) (by positivity)
  refine ⟨N, fun lam c w al h k hk => ?_⟩
  have hS0 : 0 ≤ ∑ j, c 0 j ^ 2 := sum_nonneg fun j _ => sq_nonneg _
  calc ∑ i, c k i ^ 2 ≤ ∑ i : Fin n, e / (n + 1) * ∑ j, c 0 j ^ 2 := sum_le_sum fun i _ => hN lam c w al h i (level_bound lam i) k hk
    _ = n * (e / (n + 1)) * ∑ j, c 0 j ^ 2 := by rw [sum_const, card_univ, Fintype.card_fin, nsmul_eq_mul, mul_assoc]
    _ ≤ e * ∑ j, c 0 j ^ 2 := by
      refine mul_le_mul_of_nonneg_right ?_ hS0
      rw [mul_div_assoc', div_le_iff₀ (by positivity)]
      nlinarith

/-- The components never grow beyond a multiple of the first ones. -/
theorem bounded (n : ℕ) {mu L H : ℝ} (hmu : 0 < mu) (hml : mu ≤ L) (hH : 1 ≤ H) : ∃ C : ℝ, 1 ≤ C ∧ ∀ (lam : Fin n → ℝ) (c w : ℕ → Fin n → ℝ) (al : ℕ → ℝ), Run mu L H lam c w al →
    ∀ k, ∑ i, c k i ^ 2 ≤ C * ∑ j, c 0 j ^ 2 := by
  have hk : 1 ≤ L / mu := by rw [le_div_iff₀ hmu]; linarith
  obtain ⟨N, hN⟩ := vanishes n hmu hml hH 1 one_pos
  have hC : 1 ≤ ((L / mu) ^ 2) ^ N := one_le_pow₀ (one_le_pow₀ hk)
  refine ⟨((L / mu) ^ 2) ^ N, hC, fun lam c w al h k => ?_⟩
  have hS0 : 0 ≤ ∑ j, c 0 j ^ 2 := sum_nonneg fun j _ => sq_nonneg _
  rcases le_total N k with h1 | h1
  · exact (hN lam c w al h k h1).trans (mul_le_mul_of_nonneg_right hC hS0)
  · rw [mul_sum]
    refine sum_le_sum fun i _ => ?_
    have h2 := grow_many hmu hml h 0 k i
    rw [Nat.zero_add] at h2
    exact h2.trans (mul_le_mul_of_nonneg_right (pow_le_pow_right₀ (one_le_pow₀ hk) h1) (sq_nonneg _))

end Verif.Raydan
