import Verif.Lemmas.Unbound
/-! Lemmas on the convergence of the projected gradient method for a diagonal matrix, whatever the bounds (C92). -/
namespace Verif.Separate
open Verif.BCQP Verif.Spec Verif.Spec.Converge Verif.Converge Verif.Unbound

variable {n : ℕ}

/-! ### One unknown -/

/-- A step goes at least some part of the way to the solution. -/
theorem moves (lb ub x xs gs lam al : ℝ) (ha : 0 < al) (hl : 0 < lam) (h1 : lb ≤ xs) (h2 : xs ≤ ub) (h3 : lb ≤ x) (h4 : x ≤ ub) (hf : ∀ z, lb ≤ z → z ≤ ub → 0 ≤ gs * (z - xs)) :
    min 1 (al * lam) * |x - xs| ≤ |min (max (-al * (lam * (x - xs) + gs) + x) lb) ub - x| := by
  have hal : 0 < al * lam := by positivity
  rcases lt_trichotomy x xs with h | h | h
  · have hg : gs ≤ 0 := by
      by_contra hn
      push Not at hn
      have := hf x h3 h4
      nlinarith
    have e : |x - xs| = xs - x := by rw [abs_of_neg (by linarith)]; ring
    have hstep : al * lam * (xs - x) ≤ -al * (lam * (x - xs) + gs) := by nlinarith
    have hp : 0 ≤ al * lam * (xs - x) := mul_nonneg hal.le (by linarith)
    rw [max_eq_left (by linarith), e]
    rcases le_total (-al * (lam * (x - xs) + gs) + x) ub with hc | hc
    · rw [min_eq_left hc, add_sub_cancel_right, abs_of_nonneg (by linarith)]
      refine le_trans (mul_le_mul_of_nonneg_right (min_le_right _ _) (by linarith)) hstep
    · rw [min_eq_right hc, abs_of_nonneg (by linarith)]
      refine le_trans (mul_le_mul_of_nonneg_right (min_le_left _ _) (by linarith)) (by linarith)
  · rw [h]; simp
  · have hg : 0 ≤ gs := by
      by_contra hn
      push Not at hn
      have := hf x h3 h4
      nlinarith
    have e : |x - xs| = x - xs := abs_of_pos (by linarith)
    have hstep : al * lam * (x - xs) ≤ al * (lam * (x - xs) + gs) := by nlinarith
    have hp : 0 ≤ al * lam * (x - xs) := mul_nonneg hal.le (by linarith)
    rw [e, neg_mul]
    rcases le_total (-(al * (lam * (x - xs) + gs)) + x) lb with hc | hc
    · rw [max_eq_right hc, min_eq_left (a := lb) (by linarith), abs_of_nonpos (by linarith)]
      refine le_trans (mul_le_mul_of_nonneg_right (min_le_left _ _) (by linarith)) (by linarith)
    · rw [max_eq_left hc, min_eq_left (b := ub) (by linarith), add_sub_cancel_right, abs_neg, abs_of_nonneg (by linarith)]
      refine le_trans (mul_le_mul_of_nonneg_right (min_le_right _ _) (by linarith)) hstep

/-! ### The iteration -/

section
variable (M : Matrix (Fin n) (Fin n) ℝ) (b lb ub : Vec n) (L : ℝ)

/-- The iterates and step sizes, with the bounds. -/
noncomputable def ptraj (x0 : Vec n) (a0 : ℝ) : ℕ → Vec n × ℝ
  | 0 => (x0, a0)
  | k + 1 =>
    let s := ptraj x0 a0 k
    let x := boundProjection lb ub (-s.2 • (M.mulVec s.1 + b) + s.1)
    (x, bb M L (k + 1) (x - s.1))

end

section
variable {fl : ℝ → ℝ} {M : Matrix (Fin n) (Fin n) ℝ} {b lb ub : Vec n} {mu L tol : ℝ}

/-- The loop of the code follows this iteration and ends when a step is small, if not earlier. -/
theorem loop_follows (G : Good fl M lb ub mu L tol) (hml : mu ≤ L) (R : ℝ) (hLR : L ≤ R) (ht : 10 * dblEps * (R + L) ^ 2 ≤ min mu (mu ^ 2) * tol ^ 2)
    (x0 : Vec n) (a0 : ℝ) (ha0 : 0 < a0) (haR : 1 / a0 ≤ R) :
    ∀ (m k left mv : ℕ) (xk : Vec n) (hist : List Hist), m < left →
      (R + L) * norm2 ((ptraj M b lb ub L x0 a0 (k + m + 1)).1 - (ptraj M b lb ub L x0 a0 (k + m)).1) < tol →
      ∃ out, bbLoop (bcqp fl (fun v => M.mulVec v) b lb ub) stepAlternating (fun a => a < dblEps * 10) tol left k mv (ptraj M b lb ub L x0 a0 k).2 xk (ptraj M b lb ub L x0 a0 k).1
          (M.mulVec (ptraj M b lb ub L x0 a0 k).1 + b) hist = .ok out ∧
        out.ret = 0 ∧ InBox lb ub out.x ∧ out.applied = out.x ∧ ∃ r, ResidualIs (bcqp fl (fun v => M.mulVec v) b lb ub) out.x r ∧ r < tol := by
  have hL := G.L_pos
  have hmu := G.mu_pos
  have hR : 0 < R := hL.trans_le hLR
  have hlu : ∀ i, lb i ≤ ub i := fun i => (G.room i).1.le.trans (G.room i).2.1
  have hal : ∀ k, 0 < (ptraj M b lb ub L x0 a0 k).2 ∧ 1 / (ptraj M b lb ub L x0 a0 k).2 ≤ R := by
    intro k
    cases k with
    | zero => exact ⟨ha0, haR⟩
    | succ k =>
      have h1 : 1 / L ≤ (ptraj M b lb ub L x0 a0 (k + 1)).2 := (bb_bounds G.symm hmu hml G.form _ _).1
      have h2 : 0 < (ptraj M b lb ub L x0 a0 (k + 1)).2 := lt_of_lt_of_le (by positivity) h1
      refine ⟨h2, le_trans ?_ hLR⟩
      rw [div_le_iff₀ h2]; rwa [div_le_iff₀ hL, mul_comm] at h1
  intro m
  induction m with
  | zero =>
    intro k left mv xk hist hleft hend
    obtain ⟨left, rfl⟩ : ∃ l, left = l + 1 := ⟨left - 1, by omega⟩
    obtain ⟨q, hq, hle⟩ := resid_step G b (ptraj M b lb ub L x0 a0 k).1 (ptraj M b lb ub L x0 a0 k).2 R (hal k).1 (hal k).2
    have hlt : norm2 q < tol := lt_of_le_of_lt hle hend
    refine ⟨⟨(ptraj M b lb ub L x0 a0 (k + 1)).1, hist ++ [⟨k + 1, (ptraj M b lb ub L x0 a0 k).2, norm2 q, mv + 1⟩], 0, (ptraj M b lb ub L x0 a0 (k + 1)).1⟩, ?_, ?_, ?_, ?_, norm2 q, ⟨q, hq, rfl⟩, hlt⟩
    · rw [bbLoop]
      change (checkProjectionResidual fl lb ub (ptraj M b lb ub L x0 a0 (k + 1)).1 (M.mulVec (ptraj M b lb ub L x0 a0 (k + 1)).1 + b) >>= _) = _
      rw [show checkProjectionResidual fl lb ub (ptraj M b lb ub L x0 a0 (k + 1)).1 (M.mulVec (ptraj M b lb ub L x0 a0 (k + 1)).1 + b) = .ok q from hq]
      change (if |norm2 _| < tol then _ else _) = _
      rw [abs_of_nonneg (norm2_nonneg _), if_pos hlt]
      rfl
    · rfl
    · exact boundProjection_inBox _ _ _ hlu
    · rfl
  | succ m ih =>
    intro k left mv xk hist hleft hend
    obtain ⟨left, rfl⟩ : ∃ l, left = l + 1 := ⟨left - 1, by omega⟩
    obtain ⟨q, hq, hle⟩ := resid_step G b (ptraj M b lb ub L x0 a0 k).1 (ptraj M b lb ub L x0 a0 k).2 R (hal k).1 (hal k).2
    rcases lt_or_ge (norm2 q) tol with hlt | hge
    · refine ⟨⟨(ptraj M b lb ub L x0 a0 (k + 1)).1, hist ++ [⟨k + 1, (ptraj M b lb ub L x0 a0 k).2, norm2 q, mv + 1⟩], 0, (ptraj M b lb ub L x0 a0 (k + 1)).1⟩, ?_, ?_, ?_, ?_, norm2 q, ⟨q, hq, rfl⟩, hlt⟩
      · rw [bbLoop]
        change (checkProjectionResidual fl lb ub (ptraj M b lb ub L x0 a0 (k + 1)).1 (M.mulVec (ptraj M b lb ub L x0 a0 (k + 1)).1 + b) >>= _) = _
        rw [show checkProjectionResidual fl lb ub (ptraj M b lb ub L x0 a0 (k + 1)).1 (M.mulVec (ptraj M b lb ub L x0 a0 (k + 1)).1 + b) = .ok q from hq]
        change (if |norm2 _| < tol then _ else _) = _
        rw [abs_of_nonneg (norm2_nonneg _), if_pos hlt]
        rfl
      · rfl
      · exact boundProjection_inBox _ _ _ hlu
      · rfl
    · obtain ⟨out, h1, h2⟩ := ih (k + 1) left (mv + 1) (ptraj M b lb ub L x0 a0 k).1
        (hist ++ [⟨k + 1, (ptraj M b lb ub L x0 a0 k).2, norm2 q, mv + 1⟩]) (by omega)
        (by rw [show k + 1 + m + 1 = k + (m + 1) + 1 by omega, show k + 1 + m = k + (m + 1) by omega]; exact hend)
      refine ⟨out, ?_, h2⟩
      obtain ⟨d, hdd⟩ : ∃ d, d = (ptraj M b lb ub L x0 a0 (k + 1)).1 - (ptraj M b lb ub L x0 a0 k).1 := ⟨_, rfl⟩
      have hd : tol ≤ (R + L) * norm2 d := by rw [hdd]; exact hge.trans hle
      have hnd : tol ^ 2 ≤ (R + L) ^ 2 * dot d d := by
        rw [← norm2_sq, ← mul_pow]
        exact pow_le_pow_left₀ G.tol_pos.le hd 2
      have h8 : 0 ≤ min mu (mu ^ 2) := le_min hmu.le (by positivity)
      have hge' : 10 * dblEps ≤ min mu (mu ^ 2) * dot d d := by
        have h9 : 10 * dblEps * (R + L) ^ 2 ≤ min mu (mu ^ 2) * dot d d * (R + L) ^ 2 := by
          calc _ ≤ min mu (mu ^ 2) * tol ^ 2 := ht
            _ ≤ min mu (mu ^ 2) * ((R + L) ^ 2 * dot d d) := by gcongr
            _ = _ := by ring
        exact le_of_mul_le_mul_right h9 (by positivity)
      have hd0 := dot_self_nonneg d
      have g1 : 10 * dblEps ≤ dot d (M.mulVec d) := by
        refine hge'.trans (le_trans ?_ (G.form d).1)
        gcongr; exact min_le_left _ _
      have g2 : 10 * dblEps ≤ dot (M.mulVec d) (M.mulVec d) := by
        refine hge'.trans (le_trans ?_ (form_lower M mu L hmu G.form d))
        calc min mu (mu ^ 2) * dot d d ≤ mu ^ 2 * dot d d := by gcongr; exact min_le_right _ _
          _ = mu * (mu * dot d d) := by ring
          _ ≤ _ := by gcongr; exact (G.form d).1
      have hs := step_eq (L := L) (k + 1) d g1 g2
      rw [bbLoop]
      change (checkProjectionResidual fl lb ub (ptraj M b lb ub L x0 a0 (k + 1)).1 (M.mulVec (ptraj M b lb ub L x0 a0 (k + 1)).1 + b) >>= _) = _
      rw [show checkProjectionResidual fl lb ub (ptraj M b lb ub L x0 a0 (k + 1)).1 (M.mulVec (ptraj M b lb ub L x0 a0 (k + 1)).1 + b) = .ok q from hq]
      change (if |norm2 _| < tol then _ else (stepAlternating (k + 1) ((ptraj M b lb ub L x0 a0 (k + 1)).1 - (ptraj M b lb ub L x0 a0 k).1)
        (M.mulVec (ptraj M b lb ub L x0 a0 (k + 1)).1 + b - (M.mulVec (ptraj M b lb ub L x0 a0 k).1 + b)) >>= _)) = _
      rw [abs_of_nonneg (norm2_nonneg _), if_neg (not_lt.2 hge),
        show M.mulVec (ptraj M b lb ub L x0 a0 (k + 1)).1 + b - (M.mulVec (ptraj M b lb ub L x0 a0 k).1 + b) = M.mulVec d by rw [hdd, Matrix.mulVec_sub]; abel, ← hdd, hs]
      change (if bb M L (k + 1) d < dblEps * 10 then _ else _) = _
      have hb := (bb_bounds G.symm hmu hml G.form (k + 1) d).1
      have hnn : ¬ bb M L (k + 1) d < dblEps * 10 := by
        rw [not_lt]
        refine le_trans ?_ hb
        rw [le_div_iff₀ hL]
        linarith [G.fine]
      rw [if_neg hnn]
      have ed : (ptraj M b lb ub L x0 a0 (k + 1)).2 = bb M L (k + 1) d := by rw [hdd]; rfl
      rw [ed] at h1
      rw [← h1]
      rfl

end

/-! ### Diagonal matrices -/

theorem diagonal_form {mu L : ℝ} (lam : Fin n → ℝ) (h : ∀ i, mu ≤ lam i ∧ lam i ≤ L) : Quadratic (Matrix.diagonal lam) mu L := by
  intro x
  unfold dot
  simp only [Matrix.mulVec_diagonal]
  rw [Finset.mul_sum, Finset.mul_sum]
  constructor
  · refine Finset.sum_le_sum fun i _ => ?_
    have := mul_le_mul_of_nonneg_right (h i).1 (mul_self_nonneg (x i))
    nlinarith
  · refine Finset.sum_le_sum fun i _ => ?_
    have := mul_le_mul_of_nonneg_right (h i).2 (mul_self_nonneg (x i))
    nlinarith

theorem diagonal_symm (lam : Fin n → ℝ) : (Matrix.diagonal lam).transpose = Matrix.diagonal lam := Matrix.diagonal_transpose lam

theorem clip_le (a b lb ub : ℝ) : |min (max a lb) ub - min (max b lb) ub| ≤ |a - b| := by
  rcases le_total a b with h | h
  · have h1 : min (max a lb) ub ≤ min (max b lb) ub := min_le_min_right _ (max_le_max_right _ h)
    rw [abs_of_nonpos (by linarith), abs_of_nonpos (by linarith)]
    have : min (max b lb) ub ≤ min (max a lb) ub + (b - a) := by
      rw [← min_add_add_right, ← max_add_add_right]
      refine min_le_min ?_ (by linarith)
      exact max_le_max (by linarith) (by linarith)
    linarith
  · have h1 : min (max b lb) ub ≤ min (max a lb) ub := min_le_min_right _ (max_le_max_right _ h)
    rw [abs_of_nonneg (by linarith), abs_of_nonneg (by linarith)]
    have : min (max a lb) ub ≤ min (max b lb) ub + (a - b) := by
      rw [← min_add_add_right, ← max_add_add_right]
      refine min_le_min ?_ (by linarith)
      exact max_le_max (by linarith) (by linarith)
    linarith

section
variable {lam : Fin n → ℝ} {b lb ub : Vec n} {mu L : ℝ}

/-- What one step does to the distance from the solution. -/
theorem step_error (xs : Vec n) (hin : InBox lb ub xs) (hfo : FirstOrder lb ub xs ((Matrix.diagonal lam).mulVec xs + b)) (x : Vec n) (al : ℝ) (ha : 0 ≤ al) (i : Fin n) :
    |boundProjection lb ub (-al • ((Matrix.diagonal lam).mulVec x + b) + x) i - xs i| ≤ |(1 - al * lam i) * (x i - xs i)| := by
  have h1 := congrFun (fixed lb ub xs _ hin hfo al ha) i
  rw [← h1]
  unfold boundProjection
  refine (clip_le _ _ _ _).trans (le_of_eq ?_)
  have e : ∀ y : Vec n, (-al • ((Matrix.diagonal lam).mulVec y + b) + y) i = -al * (lam i * y i + b i) + y i := by
    intro y
    simp only [Pi.add_apply, Pi.smul_apply, smul_eq_mul, Matrix.mulVec_diagonal]
  have h2 : boundProjection lb ub (-al • ((Matrix.diagonal lam).mulVec xs + b) + xs) i = xs i := h1
  unfold boundProjection at h2
  rw [h2, e, e]
  congr 1
  ring

/-- The distances from the solution are a `Run`. -/
theorem isRun (hmu : 0 < mu) (hml : mu ≤ L) (hlam : ∀ i, mu ≤ lam i ∧ lam i ≤ L) (xs : Vec n) (hin : InBox lb ub xs)
    (hfo : FirstOrder lb ub xs ((Matrix.diagonal lam).mulVec xs + b)) (hlu : ∀ i, lb i ≤ ub i) (x0 : Vec n) (a0 : ℝ) :
    Raydan.Run mu L ((2 * (L / mu)) ^ 2) lam (fun k i => (ptraj (Matrix.diagonal lam) b lb ub L x0 a0 (k + 1)).1 i - xs i)
      (fun k i => ((ptraj (Matrix.diagonal lam) b lb ub L x0 a0 (k + 2)).1 i - (ptraj (Matrix.diagonal lam) b lb ub L x0 a0 (k + 1)).1 i) ^ 2)
      (fun k => (ptraj (Matrix.diagonal lam) b lb ub L x0 a0 (k + 1)).2) := by
  have hL : 0 < L := lt_of_lt_of_le hmu hml
  have hq := diagonal_form lam hlam
  have hal : ∀ k, 1 / L ≤ (ptraj (Matrix.diagonal lam) b lb ub L x0 a0 (k + 1)).2 ∧ (ptraj (Matrix.diagonal lam) b lb ub L x0 a0 (k + 1)).2 ≤ 1 / mu :=
    fun k => bb_bounds (diagonal_symm lam) hmu hml hq _ _
  have hap : ∀ k, 0 < (ptraj (Matrix.diagonal lam) b lb ub L x0 a0 (k + 1)).2 := fun k => lt_of_lt_of_le (by positivity) (hal k).1
  have hK : 1 ≤ L / mu := by rw [le_div_iff₀ hmu]; linarith
  have hnext : ∀ k i, |(ptraj (Matrix.diagonal lam) b lb ub L x0 a0 (k + 2)).1 i - xs i| ≤
      |(1 - (ptraj (Matrix.diagonal lam) b lb ub L x0 a0 (k + 1)).2 * lam i) * ((ptraj (Matrix.diagonal lam) b lb ub L x0 a0 (k + 1)).1 i - xs i)| :=
    fun k i => step_error xs hin hfo _ _ (hap k).le i
  have hfac : ∀ k i, mu / L ≤ (ptraj (Matrix.diagonal lam) b lb ub L x0 a0 (k + 1)).2 * lam i ∧ (ptraj (Matrix.diagonal lam) b lb ub L x0 a0 (k + 1)).2 * lam i ≤ L / mu := by
    intro k i
    constructor
    · calc mu / L = 1 / L * mu := by ring
        _ ≤ _ := mul_le_mul (hal k).1 (hlam i).1 hmu.le (hap k).le
    · calc _ ≤ 1 / mu * L := mul_le_mul (hal k).2 (hlam i).2 (hmu.le.trans (hlam i).1) (by positivity)
        _ = L / mu := by ring
  refine ⟨fun i => (hlam i).1, fun i => (hlam i).2, hnext, fun k => (hal k).1, fun k => (hal k).2, fun k i => ?_, fun k i => ?_, fun k => ?_⟩
  · -- a step goes part of the way
    have hbox := boundProjection_inBox lb ub (-(ptraj (Matrix.diagonal lam) b lb ub L x0 a0 k).2 • ((Matrix.diagonal lam).mulVec (ptraj (Matrix.diagonal lam) b lb ub L x0 a0 k).1 + b) +
      (ptraj (Matrix.diagonal lam) b lb ub L x0 a0 k).1) hlu i
    change lb i ≤ (ptraj (Matrix.diagonal lam) b lb ub L x0 a0 (k + 1)).1 i ∧ (ptraj (Matrix.diagonal lam) b lb ub L x0 a0 (k + 1)).1 i ≤ ub i at hbox
    have e2 : (ptraj (Matrix.diagonal lam) b lb ub L x0 a0 (k + 2)).1 i =
        min (max (-(ptraj (Matrix.diagonal lam) b lb ub L x0 a0 (k + 1)).2 * (lam i * (ptraj (Matrix.diagonal lam) b lb ub L x0 a0 (k + 1)).1 i + b i) +
          (ptraj (Matrix.diagonal lam) b lb ub L x0 a0 (k + 1)).1 i) (lb i)) (ub i) := by
      change boundProjection lb ub (-(ptraj (Matrix.diagonal lam) b lb ub L x0 a0 (k + 1)).2 • ((Matrix.diagonal lam).mulVec (ptraj (Matrix.diagonal lam) b lb ub L x0 a0 (k + 1)).1 + b) +
        (ptraj (Matrix.diagonal lam) b lb ub L x0 a0 (k + 1)).1) i = _
      unfold boundProjection
      simp only [Pi.add_apply, Pi.smul_apply, smul_eq_mul, Matrix.mulVec_diagonal]
    have hm := moves (lb i) (ub i) ((ptraj (Matrix.diagonal lam) b lb ub L x0 a0 (k + 1)).1 i) (xs i) (lam i * xs i + b i) (lam i) _ (hap k)
      (lt_of_lt_of_le hmu (hlam i).1) (hin i).1 (hin i).2 hbox.1 hbox.2 (fun z hz1 hz2 => by
        have := firstOrder_at lb ub xs _ hin hfo i z ⟨hz1, hz2⟩
        simpa [Matrix.mulVec_diagonal] using this)
    rw [show lam i * ((ptraj (Matrix.diagonal lam) b lb ub L x0 a0 (k + 1)).1 i - xs i) + (lam i * xs i + b i) = lam i * (ptraj (Matrix.diagonal lam) b lb ub L x0 a0 (k + 1)).1 i + b i by ring,
      ← e2] at hm
    have hmin : mu / L ≤ min 1 ((ptraj (Matrix.diagonal lam) b lb ub L x0 a0 (k + 1)).2 * lam i) := le_min (by rw [div_le_one hL]; exact hml) (hfac k i).1
    have h1 := (mul_le_mul_of_nonneg_right hmin (abs_nonneg _)).trans hm
    have h2 : |(ptraj (Matrix.diagonal lam) b lb ub L x0 a0 (k + 1)).1 i - xs i| ≤
        2 * (L / mu) * |(ptraj (Matrix.diagonal lam) b lb ub L x0 a0 (k + 2)).1 i - (ptraj (Matrix.diagonal lam) b lb ub L x0 a0 (k + 1)).1 i| := by
      have h3 := mul_le_mul_of_nonneg_left h1 (show 0 ≤ L / mu by positivity)
      rw [← mul_assoc, show L / mu * (mu / L) = 1 by field_simp, one_mul] at h3
      refine h3.trans ?_
      refine mul_le_mul_of_nonneg_right (by linarith) (abs_nonneg _)
    rw [← mul_pow, ← sq_abs]
    rw [← sq_abs (2 * (L / mu) * _), abs_mul, abs_of_nonneg (show 0 ≤ 2 * (L / mu) by positivity)]
    exact pow_le_pow_left₀ (abs_nonneg _) h2 2
  · have h1 := hnext k i
    rw [abs_mul] at h1
    have h2 : |1 - (ptraj (Matrix.diagonal lam) b lb ub L x0 a0 (k + 1)).2 * lam i| ≤ 2 * (L / mu) - 1 := by
      have h3 := hfac k i
      have h4 : 0 < mu / L := by positivity
      rw [abs_le]
      constructor <;> linarith [h3.1, h3.2]
    have h5 := abs_sub_le ((ptraj (Matrix.diagonal lam) b lb ub L x0 a0 (k + 2)).1 i) (xs i) ((ptraj (Matrix.diagonal lam) b lb ub L x0 a0 (k + 1)).1 i)
    rw [abs_sub_comm (xs i)] at h5
    have h6 := mul_le_mul_of_nonneg_right h2 (abs_nonneg ((ptraj (Matrix.diagonal lam) b lb ub L x0 a0 (k + 1)).1 i - xs i))
    have h7 : |(ptraj (Matrix.diagonal lam) b lb ub L x0 a0 (k + 2)).1 i - (ptraj (Matrix.diagonal lam) b lb ub L x0 a0 (k + 1)).1 i| ≤
        2 * (L / mu) * |(ptraj (Matrix.diagonal lam) b lb ub L x0 a0 (k + 1)).1 i - xs i| := by linarith
    rw [← mul_pow, ← sq_abs]
    rw [← sq_abs (2 * (L / mu) * _), abs_mul, abs_of_nonneg (show 0 ≤ 2 * (L / mu) by positivity)]
    exact pow_le_pow_left₀ (abs_nonneg _) h7 2
  · have h := bb_eq (diagonal_symm lam) hmu hml hq (k + 1 + 1) ((ptraj (Matrix.diagonal lam) b lb ub L x0 a0 (k + 2)).1 - (ptraj (Matrix.diagonal lam) b lb ub L x0 a0 (k + 1)).1) (-1) (by norm_num)
    rw [neg_neg, one_smul] at h
    change bb (Matrix.diagonal lam) L (k + 1 + 1) ((ptraj (Matrix.diagonal lam) b lb ub L x0 a0 (k + 2)).1 - (ptraj (Matrix.diagonal lam) b lb ub L x0 a0 (k + 1)).1) * _ = _ ∨
      bb (Matrix.diagonal lam) L (k + 1 + 1) ((ptraj (Matrix.diagonal lam) b lb ub L x0 a0 (k + 2)).1 - (ptraj (Matrix.diagonal lam) b lb ub L x0 a0 (k + 1)).1) * _ = _
    obtain ⟨d, hd⟩ : ∃ d, d = (ptraj (Matrix.diagonal lam) b lb ub L x0 a0 (k + 2)).1 - (ptraj (Matrix.diagonal lam) b lb ub L x0 a0 (k + 1)).1 := ⟨_, rfl⟩
    have hdi : ∀ i, (ptraj (Matrix.diagonal lam) b lb ub L x0 a0 (k + 2)).1 i - (ptraj (Matrix.diagonal lam) b lb ub L x0 a0 (k + 1)).1 i = d i := fun i => by rw [hd]; rfl
    rw [← hd] at h ⊢
    simp only [hdi]
    have s0 : dot d d = ∑ i, d i ^ 2 := Finset.sum_congr rfl fun i _ => by ring
    have s1 : dot d ((Matrix.diagonal lam).mulVec d) = ∑ i, lam i * d i ^ 2 := Finset.sum_congr rfl fun i _ => by rw [Matrix.mulVec_diagonal]; ring
    have s2 : dot ((Matrix.diagonal lam).mulVec d) ((Matrix.diagonal lam).mulVec d) = ∑ i, lam i ^ 2 * d i ^ 2 :=
      Finset.sum_congr rfl fun i _ => by rw [Matrix.mulVec_diagonal]; ring
    rw [← s0, ← s1, ← s2]
    exact h

end

end Verif.Separate
