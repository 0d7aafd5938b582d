import Verif.Lemmas.Wedge
import Verif.Lemmas.Converge
import Verif.Lemmas.Separate
import Verif.Spec.Converge
/-!
C92: convergence of the default solver of the constraints.
-/
namespace Verif
open BCQP Spec Spec.Converge RunStep Mobility Spec.Mobility Collector ConOp BoundaryCol Spec.BoundaryCol NoOverlap

theorem C92_bounds (fl : ℝ → ℝ) (h : Rounds fl) : Cycle.Bounds fl (BCQP.dblMax / 10) := by
  have h1 := abs_le.1 (h (0 + dblEps * 100))
  have h2 := abs_le.1 (h (BCQP.dblMax / 10 - dblEps * 100))
  have hM : (10 : ℝ) ^ 7 ≤ BCQP.dblMax / 10 := by
    unfold BCQP.dblMax
    have : (2 : ℝ) ^ 1023 ≥ 2 ^ 30 := pow_le_pow_right₀ (by norm_num) (by norm_num)
    generalize (2 : ℝ) ^ 1023 = T at this ⊢
    norm_num at this ⊢
    linarith
  have e0 : dblEps * 100 = 100 / 2 ^ 52 := by unfold dblEps; ring
  have p1 : (0 : ℝ) ≤ 0 + dblEps * 100 := by rw [e0]; norm_num
  have p2 : (0 : ℝ) ≤ BCQP.dblMax / 10 - dblEps * 100 := by rw [e0]; norm_num at hM ⊢; linarith
  rw [abs_of_nonneg p1, e0] at h1
  rw [abs_of_nonneg p2, e0] at h2
  refine ⟨?_, ?_, ?_, by linarith [show (10 : ℝ) ^ 6 < 10 ^ 7 by norm_num]⟩
  · rw [e0]; norm_num at h1 ⊢; linarith [h1.2]
  · rw [e0]; norm_num at h1 ⊢; linarith [h1.1]
  · rw [e0]
    generalize BCQP.dblMax / 10 = B at h2 hM ⊢
    norm_num at h2 hM ⊢
    linarith [h2.1]

/-- C92 is false: there is a problem with two unknowns (a symmetric positive definite matrix, bounds 0 and the default upper bound, so one solution) on which
the default solver, started from zero, never gets a residual below 0.1, whatever the number of iterations; and at iteration limits `9 + 4 n` the vector
whose forces are used is zero, the vector it started from. -/
theorem C92_cycle_false : ∃ (M : Matrix (Fin 2) (Fin 2) ℝ) (b : Vec 2), M.transpose = M ∧ PosDef M ∧
    (∃ x : Vec 2, InBox (fun _ => 0) defaultUpper x ∧ FirstOrder (fun _ => 0) defaultUpper x (M.mulVec x + b)) ∧
    ∀ (fl : ℝ → ℝ), Rounds fl → ∀ tol : ℝ, tol ≤ 1 / 10 → ∀ iteMax : ℕ, ∃ out : BCQP.Out 2,
      solveBBPGD (bcqp fl M.mulVec b (fun _ => 0) defaultUpper) 0 tol iteMax [] = .ok out ∧
      out.history.length = iteMax + 1 ∧ (∀ e ∈ out.history, 1 / 10 ≤ e.res) ∧ ∀ n, iteMax = 9 + 4 * n → out.applied = 0 := by
  have hA : (!![1, 2499 / 2500; 2499 / 2500, 1] : Matrix (Fin 2) (Fin 2) ℝ).mulVec = Cycle.wedge.A := by
    funext v
    apply Cycle.vec_ext
    · simp [Cycle.QP.A, Cycle.wedge, Matrix.mulVec, dotProduct, Fin.sum_univ_two]
    · simp [Cycle.QP.A, Cycle.wedge, Matrix.mulVec, dotProduct, Fin.sum_univ_two]
  refine ⟨!![1, 2499 / 2500; 2499 / 2500, 1], ![-8, -9], ?_, ?_, ⟨![0, 9], ?_, ?_⟩, ?_⟩
  · ext i j; fin_cases i <;> fin_cases j <;> rfl
  · intro x hx
    rw [hA, Cycle.dot2]
    have : x 0 ≠ 0 ∨ x 1 ≠ 0 := by
      by_contra hn
      push Not at hn
      exact hx (Cycle.vec_ext hn.1 hn.2)
    have h2 : 0 < x 0 ^ 2 + x 1 ^ 2 := by
      rcases this with h | h
      · have := sq_nonneg (x 1); positivity
      · have := sq_nonneg (x 0); positivity
    simp only [Cycle.QP.A, Cycle.wedge, Matrix.cons_val_zero, Matrix.cons_val_one]
    push_cast
    nlinarith [sq_nonneg (x 0 + x 1), sq_nonneg (x 0 - x 1)]
  · have hU := (C92_bounds id (by intro r; simp; positivity)).up'
    intro i
    unfold defaultUpper
    fin_cases i
    · simp only [Fin.zero_eta, Matrix.cons_val_zero]
      exact ⟨le_rfl, by linarith [show (0 : ℝ) < 10 ^ 6 by norm_num]⟩
    · simp only [Fin.mk_one, Matrix.cons_val_one, Matrix.cons_val_zero]
      exact ⟨by norm_num, by linarith [show (9 : ℝ) < 10 ^ 6 by norm_num]⟩
  · intro z hz
    have h0 := (hz 0).1
    rw [Fin.sum_univ_two, hA]
    simp [Cycle.QP.A, Cycle.wedge]
    norm_num
    linarith
  · intro fl hfl tol ht iteMax
    obtain ⟨out, h⟩ := Cycle.wedge_run (C92_bounds fl hfl) tol ht iteMax
    refine ⟨out, ?_⟩
    rw [hA]
    have e : (![-8, -9] : Vec 2) = Cycle.vec Cycle.wedge.b0 Cycle.wedge.b1 := by
      apply Cycle.vec_ext <;> simp [Cycle.vec, Cycle.wedge]
    rw [e]
    exact h

/-! ### Where it does converge -/

/-- C92, what holds of every strictly convex problem: the solver never gives up early.  It ends with a residual below the tolerance, or it has made all the
iterations that it is allowed; and no residual before the last was below the tolerance.  `mu` and `L` bound the curvatures, `R` bounds `L` and the gradient at the
guess.  The tolerance has to be large enough for the solver's constant `10 eps` not to interfere. -/
theorem C92_persists_partial {n : ℕ} (fl : ℝ → ℝ) (M : Matrix (Fin n) (Fin n) ℝ) (hM : M.transpose = M) (b lb ub x0 : Vec n) (mu L R tol : ℝ) (hmu : 0 < mu) (hq : Quadratic M mu L)
    (hroom : ∀ i, Room fl (lb i) (ub i)) (htol : 0 < tol) (hLR : L ≤ R) (hR : normInf (M.mulVec x0 + b) ≤ R) (hL : 0 < L) (hfine : 10 * dblEps * L ≤ 1)
    (ht : 10 * dblEps * (R + L) ^ 2 ≤ min mu (mu ^ 2) * tol ^ 2) (iteMax : ℕ) :
    ∃ out, solveBBPGD (bcqp fl (fun v => M.mulVec v) b lb ub) x0 tol iteMax [] = .ok out ∧ out.ret = 0 ∧ out.history.length ≤ iteMax + 1 ∧
      (∀ e ∈ out.history.dropLast, tol ≤ e.res) ∧ (out.history.length = iteMax + 1 ∨ ∃ e ∈ out.history.getLast?, e.res < tol) := by
  have G : Converge.Good fl M lb ub mu L tol := ⟨hM, hmu, hL, hq, hroom, htol, hfine⟩
  have he := dblEps_pos
  have htL : 10 * dblEps * (L + L) ^ 2 ≤ min mu (mu ^ 2) * tol ^ 2 := by
    refine le_trans ?_ ht
    gcongr
  obtain ⟨r, -, ⟨h1, h2⟩ | ⟨h1, al, h2, h3, h4⟩⟩ := Converge.start G b x0 R hR
  · exact ⟨_, h2 iteMax [], rfl, by simp, by simp, Or.inr ⟨_, rfl, h1⟩⟩
  · rw [h4]
    cases iteMax with
    | zero => exact ⟨_, rfl, rfl, by simp, by simp, Or.inl rfl⟩
    | succ left =>
      obtain ⟨r', -, -, ⟨k1, k2⟩ | ⟨k1, al', k2, k3, k4⟩⟩ := Converge.pass G b R (hL.le.trans hLR) ht left 0 1 al h2 h3 x0 x0 ([] ++ [⟨0, 0, r, 1⟩])
      · exact ⟨_, k2, rfl, by simp, by simpa using h1, Or.inr ⟨_, rfl, k1⟩⟩
      · obtain ⟨out, new, m1, m2, m3, m4, m5, m6⟩ := Converge.loop_ends G b htL left (0 + 1) (1 + 1) al' x0
          ((bcqp fl (fun v => M.mulVec v) b lb ub).proj (-al • (M.mulVec x0 + b) + x0)) ([] ++ [⟨0, 0, r, 1⟩] ++ [⟨0 + 1, al, r', 1 + 1⟩]) k2
        refine ⟨out, k4.trans m1, m2, by simp [m3]; omega, ?_, ?_⟩
        · rw [m3]
          intro e he
          rcases new with _ | ⟨e', new⟩
          · simp at he
            subst he; exact h1
          · rw [List.dropLast_append_of_ne_nil (by simp)] at he
            simp only [List.nil_append, List.cons_append, List.mem_cons] at he
            rcases he with rfl | rfl | he
            · exact h1
            · exact k1
            · exact m5 e he
        · rcases m6 with m6 | ⟨e, m6, m7⟩
          · left; simp [m3, m6]
          · right
            refine ⟨e, ?_, m7⟩
            rw [m3, List.getLast?_append]
            rw [Option.mem_def] at m6 ⊢
            rw [m6]; rfl

/-- C92, what holds when the curvatures differ by less than a factor of two: with enough iterations the solver ends with a residual below the tolerance and a
point of the box; how many are enough depends on the problem, the guess and the tolerance only.  (Missing for the full C92: problems with curvatures further apart,
for which C92 is false.) -/
theorem C92_conditioned_partial {n : ℕ} (fl : ℝ → ℝ) (M : Matrix (Fin n) (Fin n) ℝ) (hM : M.transpose = M) (b lb ub x0 : Vec n) (mu L R tol : ℝ) (hmu : 0 < mu) (hq : Quadratic M mu L)
    (hml : mu ≤ L) (hcond : L < 2 * mu)
    (hroom : ∀ i, Room fl (lb i) (ub i)) (hx0 : InBox lb ub x0) (htol : 0 < tol) (hLR : L ≤ R) (hR : normInf (M.mulVec x0 + b) ≤ R) (hfine : 10 * dblEps * L ≤ 1)
    (ht : 10 * dblEps * (R + L) ^ 2 ≤ min mu (mu ^ 2) * tol ^ 2) :
    ∃ N, ∀ iteMax, N ≤ iteMax → ∃ out, solveBBPGD (bcqp fl (fun v => M.mulVec v) b lb ub) x0 tol iteMax [] = .ok out ∧ out.ret = 0 ∧ InBox lb ub out.x ∧
      ∃ r, ResidualIs (bcqp fl (fun v => M.mulVec v) b lb ub) out.x r ∧ r < tol := by
  have hL : 0 < L := lt_of_lt_of_le hmu hml
  have G : Converge.Good fl M lb ub mu L tol := ⟨hM, hmu, hL, hq, hroom, htol, hfine⟩
  have he := dblEps_pos
  have hlu : ∀ i, lb i ≤ ub i := fun i => (hroom i).1.le.trans (hroom i).2.1
  have htL : 10 * dblEps * (L + L) ^ 2 ≤ min mu (mu ^ 2) * tol ^ 2 := by
    refine le_trans ?_ ht
    gcongr
  obtain ⟨xs, hin, hfo⟩ := Converge.minimiser M hM b lb ub hlu
  obtain ⟨th0, th1⟩ := Converge.rate_bounds G hcond hml
  obtain ⟨r, hr, ⟨h1, h2⟩ | ⟨h1, al, h2, h3, h4⟩⟩ := Converge.start G b x0 R hR
  · exact ⟨0, fun iteMax _ => ⟨_, h2 iteMax [], rfl, hx0, r, hr, h1⟩⟩
  · obtain ⟨E, hE⟩ : ∃ E, E = norm2 ((bcqp fl (fun v => M.mulVec v) b lb ub).proj (-al • (M.mulVec x0 + b) + x0) - xs) ^ 2 := ⟨_, rfl⟩
    have hE0 : 0 ≤ E := by rw [hE]; positivity
    obtain ⟨N, hN⟩ : ∃ N : ℕ, (4 * L) ^ 2 * ((2 - 2 * mu / L) ^ N * E) < tol ^ 2 := by
      obtain ⟨N, hN⟩ := exists_pow_lt_of_lt_one (show 0 < tol ^ 2 / ((4 * L) ^ 2 * E + 1) by positivity) th1
      refine ⟨N, ?_⟩
      rw [lt_div_iff₀ (by positivity)] at hN
      have : 0 ≤ (2 - 2 * mu / L) ^ N := pow_nonneg th0 N
      nlinarith
    refine ⟨N + 2, fun iteMax hite => ?_⟩
    obtain ⟨left, rfl⟩ : ∃ l, iteMax = l + 1 := ⟨iteMax - 1, by omega⟩
    obtain ⟨r', hr', -, ⟨k1, k2⟩ | ⟨k1, al', k2, k3, k4⟩⟩ := Converge.pass G b R (hL.le.trans hLR) ht left 0 1 al h2 h3 x0 x0 ([] ++ [⟨0, 0, r, 1⟩])
    · exact ⟨_, (h4 _ _).trans k2, rfl, boundProjection_inBox _ _ _ hlu, r', hr', k1⟩
    · obtain ⟨out, m1, m2⟩ := Converge.loop_converges G b hcond hml htL xs hin hfo N left (0 + 1) (1 + 1) al' x0 _ ([] ++ [⟨0, 0, r, 1⟩] ++ [⟨0 + 1, al, r', 1 + 1⟩]) E k2 k3
        hE.ge hN (by omega)
      exact ⟨out, (h4 _ _).trans (k4.trans m1), m2⟩

/-- The hypotheses of both theorems can be met: two unknowns, curvatures between 3 and 5, bounds 0 and 10, tolerance 1/1000. -/
example : ∃ (M : Matrix (Fin 2) (Fin 2) ℝ) (b lb ub x0 : Vec 2) (mu L R tol : ℝ), M.transpose = M ∧ 0 < mu ∧ Quadratic M mu L ∧ mu ≤ L ∧ L < 2 * mu ∧
    (∀ i, Room id (lb i) (ub i)) ∧ InBox lb ub x0 ∧ 0 < tol ∧ L ≤ R ∧ normInf (M.mulVec x0 + b) ≤ R ∧ 10 * dblEps * L ≤ 1 ∧
    10 * dblEps * (R + L) ^ 2 ≤ min mu (mu ^ 2) * tol ^ 2 ∧ tol ≤ normInf (M.mulVec x0 + b) := by
  have e0 : (M : Matrix (Fin 2) (Fin 2) ℝ) → (x : Vec 2) → (M.mulVec x = ![M 0 0 * x 0 + M 0 1 * x 1, M 1 0 * x 0 + M 1 1 * x 1]) := by
    intro M x
    ext i
    fin_cases i <;> simp [Matrix.mulVec, dotProduct, Fin.sum_univ_two]
  refine ⟨!![4, 1; 1, 4], ![-4, 6], fun _ => 0, fun _ => 10, fun _ => 0, 3, 5, 6, 1 / 1000, ?_, by norm_num, ?_, by norm_num, by norm_num, ?_, ?_, by norm_num, by norm_num, ?_, ?_, ?_, ?_⟩
  · ext i j; fin_cases i <;> fin_cases j <;> rfl
  · intro x
    rw [e0]
    simp only [dot, Fin.sum_univ_two]
    simp
    constructor <;> nlinarith [sq_nonneg (x 0 - x 1), sq_nonneg (x 0 + x 1)]
  · intro i
    simp only [Room, id, dblEps]
    norm_num
  · intro i
    norm_num
  · rw [e0]
    unfold normInf
    rw [pi_norm_le_iff_of_nonneg (by norm_num)]
    intro i
    fin_cases i <;> simp <;> norm_num
  · unfold dblEps; norm_num
  · unfold dblEps
    rw [min_eq_left (by norm_num)]; norm_num
  · refine le_trans ?_ (norm_le_pi_norm _ 1)
    rw [e0]
    simp
    norm_num

/-- C92, what holds when the bounds do not bind: for every number of unknowns, every pair of bounds `mu`, `L` of the curvatures (however far apart), every size `D` of the
gradient at the guess and every tolerance there are a distance `rho` and a number `N` such that the solver, on every problem whose solution is further than `rho` from
its bounds, ends within `N` iterations with a gradient below the tolerance, at a distance from the solution of less than the tolerance over `mu`.
(Missing for the full C92: problems whose bounds bind, for which C92 is false; `C92_cycle_false` has curvatures between 1/2500 and 2.) -/
theorem C92_unbound_partial (n : ℕ) (mu L D tol : ℝ) (hmu : 0 < mu) (hml : mu ≤ L) (hD : 0 ≤ D) (htol : 0 < tol) (hfine : 10 * dblEps * L ≤ 1)
    (ht : 10 * dblEps * max L D ^ 2 ≤ min mu (mu ^ 2) * tol ^ 2) :
    ∃ (rho : ℝ) (N : ℕ), 0 ≤ rho ∧ ∀ (fl : ℝ → ℝ) (M : Matrix (Fin n) (Fin n) ℝ) (b lb ub x0 xs : Vec n), M.transpose = M → Quadratic M mu L → M.mulVec xs + b = 0 →
      norm2 (M.mulVec x0 + b) ≤ D → (∀ i, Clear fl (lb i) (ub i) (xs i) rho) → ∀ iteMax, N ≤ iteMax →
      ∃ out, solveBBPGD (bcqp fl (fun v => M.mulVec v) b lb ub) x0 tol iteMax [] = .ok out ∧ out.ret = 0 ∧ InBox lb ub out.x ∧ out.applied = out.x ∧
        norm2 (M.mulVec out.x + b) < tol ∧ norm2 (out.x - xs) < tol / mu ∧
        ResidualIs (bcqp fl (fun v => M.mulVec v) b lb ub) out.x (norm2 (M.mulVec out.x + b)) := by
  have hL : 0 < L := lt_of_lt_of_le hmu hml
  obtain ⟨⟨C, hC, hbd⟩, hvan⟩ := Unbound.traj_grad n hmu hml
  have hS : 0 ≤ D + L * n := by positivity
  obtain ⟨N, hN⟩ := hvan (tol / (2 * (D + L * n + 1))) (by positivity)
  have hrho : 0 ≤ C * (D + L * n) / mu := by positivity
  refine ⟨C * (D + L * n) / mu, N + 1, hrho, fun fl M b lb ub x0 xs hM hq hs hx0 hc iteMax hite => ?_⟩
  have hdist : ∀ x : Vec n, norm2 (M.mulVec x + b) ≤ C * (D + L * n) → norm2 (x - xs) ≤ C * (D + L * n) / mu := by
    intro x hx
    rw [le_div_iff₀ hmu, mul_comm]
    exact (Unbound.near_solution hmu hq xs x hs).trans hx
  have hfin : ∀ x : Vec n, norm2 (M.mulVec x + b) < tol → norm2 (x - xs) < tol / mu := by
    intro x hx
    rw [lt_div_iff₀ hmu, mul_comm]
    exact lt_of_le_of_lt (Unbound.near_solution hmu hq xs x hs) hx
  have hD0 : norm2 (M.mulVec x0 + b) ≤ C * (D + L * n) := by
    have : 0 ≤ L * (n : ℝ) := by positivity
    nlinarith
  obtain ⟨i1, i2, i3⟩ := Unbound.interior (C * (D + L * n) / mu) xs x0 (M.mulVec x0 + b) hc (hdist x0 hD0)
  rcases lt_or_ge (norm2 (M.mulVec x0 + b)) tol with hlt | hge
  · refine ⟨⟨x0, [] ++ [⟨0, 0, norm2 (M.mulVec x0 + b), 1⟩], 0, x0⟩, ?_, rfl, i3, rfl, hlt, hfin x0 hlt, ⟨_, i1, rfl⟩⟩
    unfold solveBBPGD
    change (checkProjectionResidual fl lb ub x0 (M.mulVec x0 + b) >>= _) = _
    rw [i1]
    change (if |norm2 _| < tol then _ else _) = _
    rw [abs_of_nonneg (norm2_nonneg _), if_pos hlt]
  · obtain ⟨g, hg⟩ : ∃ g, g = M.mulVec x0 + b := ⟨_, rfl⟩
    have hgi : 0 < normInf g := by
      unfold normInf
      rw [norm_pos_iff]
      intro h0
      have : norm2 g = 0 := (norm2_eq_zero g).2 fun i => by rw [h0]; rfl
      rw [← hg] at hge
      linarith
    have hgD : normInf g ≤ max L D := by
      refine le_trans ?_ (le_max_right L D)
      unfold normInf
      rw [pi_norm_le_iff_of_nonneg hD]
      intro i
      rw [hg] at *
      exact (Unbound.abs_le_norm2 _ i).trans hx0
    have ha0 : 1 / max L D ≤ 1 / normInf g := one_div_le_one_div_of_le hgi hgD
    -- the second gradient
    have hg1 : norm2 (M.mulVec (Unbound.traj M b L x0 (1 / normInf g) 1).1 + b) ≤ D + L * n := by
      change norm2 (M.mulVec (-(1 / normInf g) • (M.mulVec x0 + b) + x0) + b) ≤ _
      rw [Unbound.grad_next, ← hg, sub_eq_add_neg, ← smul_neg, ← Matrix.mulVec_neg]
      refine (Converge.norm2_add_le _ _).trans ?_
      rw [Converge.norm2_smul _ (by positivity)]
      have h1 := Converge.mulVec_norm M mu L hM hmu hL hq (-g)
      have h2 : norm2 (-g) = norm2 g := by unfold norm2 dot; congr 1; exact Finset.sum_congr rfl fun i _ => by simp
      rw [h2] at h1
      have h3 := Unbound.norm2_le_normInf g
      have h4 : 1 / normInf g * norm2 (M.mulVec (-g)) ≤ L * n := by
        rw [one_div_mul_eq_div, div_le_iff₀ hgi]
        calc norm2 (M.mulVec (-g)) ≤ L * norm2 g := h1
          _ ≤ L * (n * normInf g) := by gcongr
          _ = _ := by ring
      rw [hg] at h4 ⊢
      linarith
    have hin : ∀ k, norm2 ((Unbound.traj M b L x0 (1 / normInf g) k).1 - xs) ≤ C * (D + L * n) / mu := by
      intro k
      cases k with
      | zero => exact hdist x0 hD0
      | succ k => exact hdist _ ((hbd M b x0 _ hM hq k).trans (by gcongr))
    have hend : norm2 (M.mulVec (Unbound.traj M b L x0 (1 / normInf g) (0 + N + 1)).1 + b) < tol := by
      rw [Nat.zero_add]
      refine lt_of_le_of_lt ((hN M b x0 _ hM hq N le_rfl).trans (mul_le_mul_of_nonneg_left hg1 (by positivity))) ?_
      rw [div_mul_eq_mul_div, div_lt_iff₀ (by positivity)]
      nlinarith
    obtain ⟨out, h1, h2, h3, h4, h5, h6⟩ := Unbound.loop_follows (b := b) hM hmu hml hq htol hfine (max L D) (le_max_left _ _) ht _ xs hc x0 (1 / normInf g) ha0 hin
      N 0 iteMax 1 x0 ([] ++ [⟨0, 0, norm2 (M.mulVec x0 + b), 1⟩]) (by omega) hend hge
    refine ⟨out, ?_, h2, h3, h5, h4, hfin _ h4, h6⟩
    rw [← h1]
    unfold solveBBPGD
    change (checkProjectionResidual fl lb ub x0 (M.mulVec x0 + b) >>= _) = _
    rw [i1]
    change (if |norm2 _| < tol then _ else (rdiv 1 (normInf (M.mulVec x0 + b)) >>= _)) = _
    rw [abs_of_nonneg (norm2_nonneg _), if_neg (not_lt.2 hge), ← hg]
    unfold rdiv
    rw [if_neg hgi.ne']
    rfl

/-- The hypotheses can be met with curvatures a factor of 10000 apart: two unknowns, tolerance 1/100, solution (3, 3), first guess 0; whatever the distance `rho`,
there are bounds that far away. -/
example : ∃ (M : Matrix (Fin 2) (Fin 2) ℝ) (b xs : Vec 2) (mu L D tol : ℝ), M.transpose = M ∧ 0 < mu ∧ mu ≤ L ∧ L = 10000 * mu ∧ 0 < tol ∧ 10 * dblEps * L ≤ 1 ∧
    10 * dblEps * max L D ^ 2 ≤ min mu (mu ^ 2) * tol ^ 2 ∧ Quadratic M mu L ∧ M.mulVec xs + b = 0 ∧ norm2 (M.mulVec 0 + b) ≤ D ∧ tol ≤ norm2 (M.mulVec 0 + b) ∧
    ∀ rho : ℝ, ∃ lb ub : Vec 2, ∀ i, Clear id (lb i) (ub i) (xs i) rho := by
  have e0 : (M : Matrix (Fin 2) (Fin 2) ℝ) → (x : Vec 2) → (M.mulVec x = ![M 0 0 * x 0 + M 0 1 * x 1, M 1 0 * x 0 + M 1 1 * x 1]) := by
    intro M x
    ext i
    fin_cases i <;> simp [Matrix.mulVec, dotProduct, Fin.sum_univ_two]
  have hb : norm2 ((!![1 / 100, 0; 0, 100] : Matrix (Fin 2) (Fin 2) ℝ).mulVec 0 + ![-3 / 100, -300]) ^ 2 = (3 / 100) ^ 2 + 300 ^ 2 := by
    rw [norm2_sq, Matrix.mulVec_zero, zero_add]
    simp only [dot, Fin.sum_univ_two, Matrix.cons_val_zero, Matrix.cons_val_one]
    norm_num
  refine ⟨!![1 / 100, 0; 0, 100], ![-3 / 100, -300], ![3, 3], 1 / 100, 100, 400, 1 / 100, ?_, by norm_num, by norm_num, by norm_num, by norm_num, ?_, ?_, ?_, ?_, ?_, ?_, ?_⟩
  · ext i j; fin_cases i <;> fin_cases j <;> rfl
  · unfold dblEps; norm_num
  · unfold dblEps
    rw [min_eq_right (by norm_num), max_eq_right (by norm_num)]; norm_num
  · intro x
    rw [e0]
    simp only [dot, Fin.sum_univ_two]
    simp
    constructor <;> nlinarith [sq_nonneg (x 0), sq_nonneg (x 1)]
  · rw [e0]
    ext i
    fin_cases i <;> simp <;> norm_num
  · exact le_of_abs_le (abs_le_of_sq_le_sq (by rw [hb]; norm_num) (by norm_num))
  · exact le_of_abs_le (abs_le_of_sq_le_sq (by rw [hb]; norm_num) (norm2_nonneg _))
  · intro rho
    refine ⟨fun _ => 3 - rho - 1, fun _ => 3 + rho + 1, fun i => ?_⟩
    have : (![3, 3] : Vec 2) i = 3 := by fin_cases i <;> rfl
    rw [this]
    simp only [Clear, id, dblEps]
    refine ⟨by linarith, ?_, ?_, by linarith⟩ <;> norm_num <;> linarith

/-- C92, what holds when the constraints are separate (no two act on the same body, so that the matrix is diagonal): whatever the bounds and the curvatures, the solver ends
within a number of iterations that depends only on the number of unknowns, the bounds `mu`, `L` of the curvatures, `R` of the gradient and `D` of the distance from the
solution at the guess, and the tolerance, and ends with a residual below the tolerance at a point of the box. -/
theorem C92_separate_partial (n : ℕ) (mu L R D tol : ℝ) (hmu : 0 < mu) (hml : mu ≤ L) (hLR : L ≤ R) (hD : 0 ≤ D) (htol : 0 < tol) (hfine : 10 * dblEps * L ≤ 1)
    (ht : 10 * dblEps * (R + L) ^ 2 ≤ min mu (mu ^ 2) * tol ^ 2) :
    ∃ N : ℕ, ∀ (fl : ℝ → ℝ) (lam : Fin n → ℝ) (b lb ub x0 xs : Vec n), (∀ i, mu ≤ lam i ∧ lam i ≤ L) → (∀ i, Room fl (lb i) (ub i)) → InBox lb ub x0 →
      InBox lb ub xs → FirstOrder lb ub xs ((Matrix.diagonal lam).mulVec xs + b) → norm2 (x0 - xs) ≤ D → normInf ((Matrix.diagonal lam).mulVec x0 + b) ≤ R →
      ∀ iteMax, N ≤ iteMax → ∃ out, solveBBPGD (bcqp fl (fun v => (Matrix.diagonal lam).mulVec v) b lb ub) x0 tol iteMax [] = .ok out ∧ out.ret = 0 ∧ InBox lb ub out.x ∧
        out.applied = out.x ∧ ∃ r, ResidualIs (bcqp fl (fun v => (Matrix.diagonal lam).mulVec v) b lb ub) out.x r ∧ r < tol := by
  have hL : 0 < L := lt_of_lt_of_le hmu hml
  have hR : 0 < R := hL.trans_le hLR
  have hK : 1 ≤ L / mu := by rw [le_div_iff₀ hmu]; linarith
  obtain ⟨F, hF⟩ : ∃ F, F = (1 + L * (n / tol)) * D := ⟨_, rfl⟩
  have hF0 : 0 ≤ F := by rw [hF]; positivity
  obtain ⟨N, hN⟩ := Raydan.vanishes n hmu hml (H := (2 * (L / mu)) ^ 2) (one_le_pow₀ (by linarith)) ((tol / (2 * (R + L) * (F + 1))) ^ 2) (by positivity)
  refine ⟨N + 2, fun fl lam b lb ub x0 xs hlam hroom hx0 hin hfo hd0 hg0 iteMax hite => ?_⟩
  have G : Converge.Good fl (Matrix.diagonal lam) lb ub mu L tol := ⟨Separate.diagonal_symm lam, hmu, hL, Separate.diagonal_form lam hlam, hroom, htol, hfine⟩
  have hlu : ∀ i, lb i ≤ ub i := fun i => (hroom i).1.le.trans (hroom i).2.1
  obtain ⟨q, hq, hle⟩ := Converge.resid_start G b x0
  rcases lt_or_ge (norm2 q) tol with h | h
  · refine ⟨⟨x0, [] ++ [⟨0, 0, norm2 q, 1⟩], 0, x0⟩, ?_, rfl, hx0, rfl, norm2 q, ⟨q, hq, rfl⟩, h⟩
    unfold solveBBPGD
    change ((bcqp fl (fun v => (Matrix.diagonal lam).mulVec v) b lb ub).resid x0 ((Matrix.diagonal lam).mulVec x0 + b) >>= _) = _
    rw [hq]
    change (if |norm2 q| < tol then _ else _) = _
    rw [abs_of_nonneg (norm2_nonneg q), if_pos h]
  · have hn : 0 < normInf q := by
      unfold normInf
      rw [norm_pos_iff]
      intro h0
      have : norm2 q = 0 := (norm2_eq_zero q).2 fun i => by rw [h0]; rfl
      linarith
    have hap : 0 < 1 / normInf q := by positivity
    have haR : 1 / (1 / normInf q) ≤ R := by rw [one_div_one_div]; exact hle.trans hg0
    have hau : 1 / normInf q ≤ n / tol := by
      rw [div_le_div_iff₀ hn htol, one_mul]
      exact h.trans (Unbound.norm2_le_normInf q)
    -- the first distance
    have hrun := Separate.isRun hmu hml hlam xs hin hfo hlu x0 (1 / normInf q)
    have h1 : norm2 ((Separate.ptraj (Matrix.diagonal lam) b lb ub L x0 (1 / normInf q) 1).1 - xs) ≤ F := by
      have hp : norm2 ((Separate.ptraj (Matrix.diagonal lam) b lb ub L x0 (1 / normInf q) 1).1 - xs) ≤ norm2 ((1 + L * (n / tol)) • (x0 - xs)) := by
        apply Converge.norm2_mono
        intro i
        refine (Separate.step_error xs hin hfo x0 (1 / normInf q) hap.le i).trans ?_
        simp only [Pi.smul_apply, Pi.sub_apply, smul_eq_mul]
        rw [abs_mul, abs_mul]
        refine mul_le_mul_of_nonneg_right ?_ (abs_nonneg _)
        have h2 : 0 ≤ 1 / normInf q * lam i := mul_nonneg hap.le (hmu.le.trans (hlam i).1)
        have h3 : 1 / normInf q * lam i ≤ n / tol * L := mul_le_mul hau (hlam i).2 (hmu.le.trans (hlam i).1) (by positivity)
        have h4 : 0 ≤ 1 + L * (n / tol) := by positivity
        rw [abs_of_nonneg h4, abs_le]
        constructor <;> linarith
      rw [Converge.norm2_smul _ (by positivity)] at hp
      refine hp.trans ?_
      rw [hF]
      exact mul_le_mul_of_nonneg_left hd0 (by positivity)
    have hfar : ∀ k, N ≤ k → norm2 ((Separate.ptraj (Matrix.diagonal lam) b lb ub L x0 (1 / normInf q) (k + 1)).1 - xs) ≤ tol / (2 * (R + L) * (F + 1)) * F := by
      intro k hk
      have h2 := hN lam _ _ _ hrun k hk
      have e : ∀ k, ∑ i, ((Separate.ptraj (Matrix.diagonal lam) b lb ub L x0 (1 / normInf q) (k + 1)).1 i - xs i) ^ 2 =
          norm2 ((Separate.ptraj (Matrix.diagonal lam) b lb ub L x0 (1 / normInf q) (k + 1)).1 - xs) ^ 2 := by
        intro k
        rw [norm2_sq]
        exact Finset.sum_congr rfl fun i _ => by simp only [Pi.sub_apply]; ring
      rw [e, e, ← mul_pow] at h2
      refine (le_of_abs_le (abs_le_of_sq_le_sq h2 (mul_nonneg (by positivity) (norm2_nonneg _)))).trans ?_
      exact mul_le_mul_of_nonneg_left h1 (by positivity)
    have hend : (R + L) * norm2 ((Separate.ptraj (Matrix.diagonal lam) b lb ub L x0 (1 / normInf q) (0 + (N + 1) + 1)).1 -
        (Separate.ptraj (Matrix.diagonal lam) b lb ub L x0 (1 / normInf q) (0 + (N + 1))).1) < tol := by
      rw [Nat.zero_add]
      have k1 := hfar (N + 1) (by omega)
      have k2 := hfar N le_rfl
      have k3 := Converge.norm2_add_le ((Separate.ptraj (Matrix.diagonal lam) b lb ub L x0 (1 / normInf q) (N + 1 + 1)).1 - xs)
        (xs - (Separate.ptraj (Matrix.diagonal lam) b lb ub L x0 (1 / normInf q) (N + 1)).1)
      rw [sub_add_sub_cancel, show norm2 (xs - (Separate.ptraj (Matrix.diagonal lam) b lb ub L x0 (1 / normInf q) (N + 1)).1) =
        norm2 ((Separate.ptraj (Matrix.diagonal lam) b lb ub L x0 (1 / normInf q) (N + 1)).1 - xs) by
          unfold norm2 dot; congr 1; refine Finset.sum_congr rfl fun i _ => ?_; simp only [Pi.sub_apply]; ring] at k3
      have k4 := k3.trans (add_le_add k1 k2)
      refine lt_of_le_of_lt (mul_le_mul_of_nonneg_left k4 (by positivity)) ?_
      rw [show (R + L) * (tol / (2 * (R + L) * (F + 1)) * F + tol / (2 * (R + L) * (F + 1)) * F) = tol * (F / (F + 1)) by field_simp; ring]
      have : F / (F + 1) < 1 := by rw [div_lt_one (by positivity)]; linarith
      nlinarith
    obtain ⟨out, k1, k2⟩ := Separate.loop_follows (b := b) G hml R hLR ht x0 (1 / normInf q) hap haR (N + 1) 0 iteMax 1 x0 ([] ++ [⟨0, 0, norm2 q, 1⟩]) (by omega) hend
    refine ⟨out, ?_, k2⟩
    rw [← k1]
    unfold solveBBPGD
    change ((bcqp fl (fun v => (Matrix.diagonal lam).mulVec v) b lb ub).resid x0 ((Matrix.diagonal lam).mulVec x0 + b) >>= _) = _
    rw [hq]
    change (if |norm2 q| < tol then _ else (rdiv 1 (normInf q) >>= _)) = _
    rw [abs_of_nonneg (norm2_nonneg q), if_neg (not_lt.2 h)]
    unfold rdiv
    rw [if_neg hn.ne']
    rfl

/-- The hypotheses can be met with curvatures a factor of 10000 apart and a solution on a bound: two unknowns, bounds 0 and 10, guess (5, 5), solution (0, 3), tolerance 1/100. -/
example : ∃ (lam : Fin 2 → ℝ) (b xs : Vec 2) (mu L R D tol : ℝ), 0 < mu ∧ mu ≤ L ∧ L = 10000 * mu ∧ L ≤ R ∧ 0 < tol ∧ 10 * dblEps * L ≤ 1 ∧
    10 * dblEps * (R + L) ^ 2 ≤ min mu (mu ^ 2) * tol ^ 2 ∧ (∀ i, mu ≤ lam i ∧ lam i ≤ L) ∧ (∀ i : Fin 2, Room id ((fun _ => 0 : Vec 2) i) ((fun _ => 10 : Vec 2) i)) ∧
    InBox (fun _ => 0) (fun _ => 10) xs ∧ FirstOrder (fun _ => 0) (fun _ => 10) xs ((Matrix.diagonal lam).mulVec xs + b) ∧
    norm2 ((fun _ => 5) - xs) ≤ D ∧ normInf ((Matrix.diagonal lam).mulVec (fun _ => 5) + b) ≤ R ∧ xs = ![0, 3] := by
  refine ⟨![1 / 100, 100], ![1, -300], ![0, 3], 1 / 100, 100, 400, 10, 1 / 100, by norm_num, by norm_num, by norm_num, by norm_num, by norm_num, ?_, ?_, ?_, ?_, ?_, ?_, ?_, ?_, rfl⟩
  · unfold dblEps; norm_num
  · unfold dblEps
    rw [min_eq_right (by norm_num)]; norm_num
  · intro i
    fin_cases i <;> norm_num
  · intro i
    simp only [Room, id, dblEps]
    norm_num
  · intro i
    fin_cases i <;> norm_num
  · intro z hz
    have h0 := (hz 0).1
    rw [Fin.sum_univ_two]
    simp [Matrix.mulVec_diagonal]
    norm_num
    linarith
  · refine le_of_abs_le (abs_le_of_sq_le_sq ?_ (by norm_num))
    rw [norm2_sq]
    simp [dot, Fin.sum_univ_two]
    norm_num
  · unfold normInf
    rw [pi_norm_le_iff_of_nonneg (by norm_num)]
    intro i
    rw [Real.norm_eq_abs]
    fin_cases i <;> simp [Matrix.mulVec_diagonal] <;> norm_num [abs_le]

/-! ### A sphere between two walls -/

/-- The viscosity with which the sphere has mobility 1. -/
noncomputable def C92_cfg : Cfg := { C88_cfg with viscosity := 1 / (6 * Mobility.Pi * 0.09), dt := 1 / 10 }

/-- The normal of the second wall. -/
noncomputable def C92_normal : V3 := ⟨Real.sqrt (1 - (2499 / 2500) ^ 2), 0, 2499 / 2500⟩

/-- The walls below the sphere `ball 7 0 0.5`, which touches both. -/
noncomputable def C92_floor : Bound := .wall ⟨⟨0.5, 0.5, 0.41⟩, ⟨0, 0, 1⟩⟩
/-- See `C92_floor`. -/
noncomputable def C92_slope : Bound := .wall ⟨⟨0.5, 0.5, 0.5⟩ - (0.09 : ℝ) • C92_normal, C92_normal⟩

/-- The velocity given to the sphere. -/
noncomputable def C92_push : V3 := ⟨(-9 + 8 * (2499 / 2500)) / Real.sqrt (1 - (2499 / 2500) ^ 2), 0, -8⟩

/-- The rank with the sphere and the constraints with the walls. -/
noncomputable def C92_rank (D : Draws) : RankIn :=
  let pool : Pool := [[Wedge.wallBlock (ball 7 0 0.5) 0 ⟨0, 0, 1⟩ ⟨0.5, 0.5, 0.41⟩,
    Wedge.wallBlock (ball 7 0 0.5) 0 C92_normal (⟨0.5, 0.5, 0.5⟩ - (0.09 : ℝ) • C92_normal)]]
  ⟨[(D, ball 7 0 0.5)], none, some (flat6 [(C92_push, 0)]), pool, 0, 5, matrixWrites pool, vectorWrites pool⟩

theorem C92_unit : Real.sqrt (1 - (2499 / 2500) ^ 2) * Real.sqrt (1 - (2499 / 2500) ^ 2) = 1 - (2499 / 2500) ^ 2 :=
  Real.mul_self_sqrt (by norm_num)

theorem C92_unit_pos : 0 < Real.sqrt (1 - (2499 / 2500) ^ 2) := Real.sqrt_pos.2 (by norm_num)

theorem C92_normal_unit : V3.dot C92_normal C92_normal = 1 := by
  have := C92_unit
  simp only [C92_normal, V3.dot]
  linarith

/-- What `collectBoundaryCollision` finds for the sphere and a wall that it touches. -/
theorem C92_block (n : V3) (hn : V3.dot n n = 1) :
    bodyBlocks (.wall ⟨⟨0.5, 0.5, 0.5⟩ - (0.09 : ℝ) • n, n⟩) 0.5 (ball 7 0 0.5) =
      some [Wedge.wallBlock (ball 7 0 0.5) 0 n (⟨0.5, 0.5, 0.5⟩ - (0.09 : ℝ) • n)] := by
  obtain ⟨x, hx⟩ : ∃ x, x = ball 7 0 0.5 := ⟨_, rfl⟩
  have hp : x.pos = ⟨0.5, 0.5, 0.5⟩ := by rw [hx]; rfl
  have hR : x.radiusCollision = 0.09 := by rw [hx]; rfl
  have hL : x.lengthCollision = 0 := by rw [hx]; rfl
  have hs : x.isSphere true = true := by rw [hx]; norm_num [ball, Sylinder.make, Sylinder.isSphere]
  rw [← hx]
  have e1 : (⟨0.5, 0.5, 0.5⟩ : V3) - (⟨0.5, 0.5, 0.5⟩ - (0.09 : ℝ) • n) = (0.09 : ℝ) • n := by
    ext <;> simp
  have e2 : V3.dot ((0.09 : ℝ) • n) n = 0.09 := by
    have : V3.dot ((0.09 : ℝ) • n) n = 0.09 * V3.dot n n := by simp [V3.dot]; ring
    rw [this, hn]; norm_num
  have hproj : (Boundary.Wall.project ⟨⟨0.5, 0.5, 0.5⟩ - (0.09 : ℝ) • n, n⟩ ⟨0.5, 0.5, 0.5⟩) =
      (⟨0.5, 0.5, 0.5⟩ - (0.09 : ℝ) • n, (0.09 : ℝ) • n) := by
    unfold Boundary.Wall.project
    simp only [e1, e2]
    rw [if_neg (by norm_num)]
  have e3 : V3.dot ((0.09 : ℝ) • n) ((0.09 : ℝ) • n) = 0.09 ^ 2 := by
    have : V3.dot ((0.09 : ℝ) • n) ((0.09 : ℝ) • n) = 0.09 ^ 2 * V3.dot n n := by simp [V3.dot]; ring
    rw [this, hn]; norm_num
  have e4 : V3.norm ((0.09 : ℝ) • n) = 0.09 := by
    unfold V3.norm V3.normSq
    rw [e3]
    exact Real.sqrt_sq (by norm_num)
  have e5 : (1 / 0.09 : ℝ) • (0.09 : ℝ) • n = n := by
    ext <;> simp <;> ring
  have e6 : (⟨0.5, 0.5, 0.5⟩ : V3) - ⟨0.5, 0.5, 0.5⟩ = 0 := by ext <;> simp
  unfold bodyBlocks
  rw [if_pos hs]
  unfold checkEnd
  simp only [Bound.project, hp, hproj, hL, hR, e1, e3, e4, e5, e6]
  rw [if_neg (by norm_num), if_pos (by norm_num), if_neg (by norm_num)]
  simp only [Wedge.wallBlock, hp]
  norm_num

theorem C92_floor_eq : C92_floor = .wall ⟨⟨0.5, 0.5, 0.5⟩ - (0.09 : ℝ) • (⟨0, 0, 1⟩ : V3), ⟨0, 0, 1⟩⟩ := by
  have : (⟨0.5, 0.5, 0.41⟩ : V3) = ⟨0.5, 0.5, 0.5⟩ - (0.09 : ℝ) • (⟨0, 0, 1⟩ : V3) := by
    ext <;> norm_num
  rw [C92_floor, this]

theorem C92_collect (D : Draws) :
    collectBoundaryCollision 0.5 [[]] [(C92_floor, [(0, ball 7 0 0.5)]), (C92_slope, [(0, ball 7 0 0.5)])] =
    some (C92_rank D).pool := by
  have h1 := C92_block ⟨0, 0, 1⟩ (by norm_num [V3.dot])
  have h2 := C92_block C92_normal C92_normal_unit
  rw [← C92_floor_eq] at h1
  have e : (⟨0.5, 0.5, 0.41⟩ : V3) = ⟨0.5, 0.5, 0.5⟩ - (0.09 : ℝ) • (⟨0, 0, 1⟩ : V3) := by
    ext <;> norm_num
  rw [show C92_slope = .wall ⟨⟨0.5, 0.5, 0.5⟩ - (0.09 : ℝ) • C92_normal, C92_normal⟩ from rfl]
  simp [collectBoundaryCollision, overBodies, h1, h2, C92_rank, e]

theorem C92_mu : 0 < C92_cfg.viscosity := by
  have hPi : 0 < Mobility.Pi := by unfold Mobility.Pi; norm_num
  unfold C92_cfg; positivity

theorem C92_dt : 0 < C92_cfg.dt := by norm_num [C92_cfg]

theorem C92_valid : Valid (ball 7 0 0.5) :=
  ⟨by norm_num [ball, Sylinder.make], by norm_num [ball, Sylinder.make], by norm_num [ball, Sylinder.make, Spec.UnitQuat]⟩

theorem C92_ready (D : Draws) : C88_Ready (C92_rank D) := by
  refine ⟨?_, ?_, ?_, ?_⟩
  · intro y hy
    simp only [C92_rank, List.mem_singleton] at hy
    subst hy
    exact C92_valid
  · intro y hy
    simp only [C92_rank, List.mem_singleton] at hy
    subst hy
    exact ⟨rfl, rfl, rfl, rfl⟩
  · intro f hf
    simp [C92_rank] at hf
  · intro f hf
    simp only [C92_rank, Option.some.injEq] at hf
    subst hf
    simp [C92_rank, flat6_length]

theorem C92_fits (D : Draws) : C88_Fits 1 (C92_rank D) := by
  refine ⟨?_, ?_, ?_⟩
  · intro q hq b hb
    simp only [C92_rank, List.mem_singleton] at hq
    subst hq
    simp only [List.mem_cons, List.not_mem_nil, or_false] at hb
    rcases hb with rfl | rfl <;> simp [Wedge.wallBlock, oneSided, ball]
  · simp [C92_rank, Wedge.wallBlock, oneSided]
  · simp [C92_rank]

theorem C92_sd1 (p : V3) : sd C92_floor p = p.z - 0.41 := by
  simp [C92_floor, sd, V3.dot]

theorem C92_sd2 (p : V3) : sd C92_slope p = V3.dot p C92_normal - V3.dot ⟨0.5, 0.5, 0.5⟩ C92_normal + 0.09 := by
  have : sd C92_slope p = V3.dot p C92_normal - V3.dot ⟨0.5, 0.5, 0.5⟩ C92_normal + 0.09 * V3.dot C92_normal C92_normal := by
    simp [C92_slope, sd, V3.dot]; ring
  rw [this, C92_normal_unit, mul_one]

theorem C92_ok (D : Draws) : ∀ r ∈ [C92_rank D], RankOk C92_cfg r :=
  fun r hr => C88_ok C92_cfg r (by rw [List.mem_singleton.1 hr]; exact C92_ready D)

/-- The velocity without constraints. -/
theorem C92_velocity (D : Draws) (p : Csr × List ℝ × List Sylinder) (hP1 : Pre C92_cfg (C92_rank D) p) : p.2.1 = flat6 [(C92_push, 0)] := by
  have hbl : (C92_rank D).bodies.length = 1 := rfl
  obtain ⟨so, hso⟩ := afterSolve_ex C92_cfg C92_mu C92_dt (C92_rank D) (C92_ok D _ List.mem_cons_self) p.1 p.2.1 p.2.2 hP1.1
    ⟨flat6 (List.replicate 1 (0, 0)), flat6 (List.replicate 1 (0, 0)), flat6 (List.replicate 1 (0, 0)),
      flat6 (List.replicate 1 (0, 0))⟩ (by simp [flat6_length, hbl]) (by simp [flat6_length, hbl]) (by simp [flat6_length, hbl]) (by simp [flat6_length, hbl])
  have h1 := runStep_before C92_cfg (C92_rank D).force (C92_rank D).velPart ⟨flat6 (List.replicate 1 (0, 0)), flat6 (List.replicate 1 (0, 0)),
    flat6 (List.replicate 1 (0, 0)), flat6 (List.replicate 1 (0, 0))⟩ (C92_rank D).bodies p.1 p.2.1 p.2.2 hP1.1
  rw [hso] at h1
  have h2 := Wedge.drift C92_cfg C92_mu C92_dt rfl rfl D (ball 7 0 0.5) C92_valid (C92_push, 0) so h1
  rw [← h2]
  unfold afterSolve at hso
  simp only [Option.map_eq_some_iff] at hso
  obtain ⟨-, -, rfl⟩ := hso
  rfl

theorem C92_drag : (ball 7 0 0.5).calcDragCoeff Mobility.Pi C92_cfg.viscosity =
    some (1, 1, 8 * Mobility.Pi * 0.09 * 0.09 * 0.09 * C92_cfg.viscosity) := by
  have hPi : 0 < Mobility.Pi := by unfold Mobility.Pi; norm_num
  obtain ⟨x, hx⟩ : ∃ x, x = ball 7 0 0.5 := ⟨_, rfl⟩
  have hs : x.isSphere = true := by rw [hx]; norm_num [ball, Sylinder.make, Sylinder.isSphere]
  have h1 : x.radius = 0.09 := by rw [hx]; rfl
  have h2 : x.length = 0 := by rw [hx]; rfl
  rw [← hx]
  unfold Sylinder.calcDragCoeff
  rw [if_pos hs, h1, h2]
  have h3 : 6 * Mobility.Pi * (0.5 * 0 + 0.09) * C92_cfg.viscosity = 1 := by
    simp only [C92_cfg]
    field_simp
    norm_num
  simp only [h3]
  norm_num

/-- The two blocks of the pool. -/
noncomputable def C92_blocks : List Block := [Wedge.wallBlock (ball 7 0 0.5) 0 ⟨0, 0, 1⟩ ⟨0.5, 0.5, 0.41⟩,
  Wedge.wallBlock (ball 7 0 0.5) 0 C92_normal (⟨0.5, 0.5, 0.5⟩ - (0.09 : ℝ) • C92_normal)]

theorem C92_blocks_eq (D : Draws) : C92_blocks = [C92_rank D].flatMap fun r => r.pool.flatten := rfl

theorem C92_solve (D : Draws) (p : Csr × List ℝ × List Sylinder) (hP1 : Pre C92_cfg (C92_rank D) p) (fl : ℝ → ℝ) (hfl : Rounds fl) (fuel : ℕ) (c : Control)
    (hch : c.choice ≠ 1) (hc : c.res ≤ 1 / 10) :
    ∃ s, (problemOf C92_blocks [p.1] [6] (flat6 [(C92_push, 0)]) C92_cfg.dt).solveConstraints fl fuel c = .ok s ∧
      s.history.length = c.maxIte + 1 ∧ (∀ e ∈ s.history, 1 / 10 ≤ e.res) ∧ ∀ n, c.maxIte = 9 + 4 * n → s.velU + s.velB = 0 := by
  have hmob := Wedge.mob_ball C92_cfg.viscosity C92_mu (ball 7 0 0.5) C92_valid rfl _ C92_drag p.1 hP1.2.1
  have hup := C92_unit_pos
  have key := Wedge.solve_wedge p.1 _ hmob ⟨0, 0, 1⟩ C92_normal C92_push (by simp [V3.dot, Cycle.wedge]) (by simp [V3.dot, Cycle.wedge, C92_normal])
    (by rw [C92_normal_unit]; simp [Cycle.wedge]) (by simp [V3.dot, C92_push, Cycle.wedge])
    (by
      simp only [V3.dot, C92_push, Cycle.wedge, C92_normal]
      rw [mul_div_cancel₀ _ hup.ne']
      norm_num) fl (C92_bounds fl hfl) fuel c hch hc
  exact Wedge.prep_eq (ball 7 0 0.5) rfl p.1 ⟨0, 0, 1⟩ C92_normal ⟨0.5, 0.5, 0.41⟩ (⟨0.5, 0.5, 0.5⟩ - (0.09 : ℝ) • C92_normal) C92_push C92_cfg.dt ▸ key

theorem C92_columns (D : Draws) : ∀ b ∈ C92_blocks, ∀ e ∈ blockEntries b, 0 ≤ e.1 ∧ e.1 < ((flat6 [(C92_push, 0)]).length : ℤ) := by
  have hcol := C88_cols [C92_rank D] (fun r hr => by rw [List.mem_singleton.1 hr]; exact C92_fits D)
  rw [← C92_blocks_eq] at hcol
  intro b hb e he
  have h := hcol b hb e he
  refine ⟨h.1, lt_of_lt_of_eq h.2 ?_⟩
  rw [flat6_length, show ([C92_rank D].flatMap RankIn.bodies).length = 1 from rfl]
  norm_num

/-- A step of the sphere for which the solver returns no velocity. -/
theorem C92_moved (D : Draws) (p : Csr × List ℝ × List Sylinder) (hP1 : Pre C92_cfg (C92_rank D) p) (s : Solved 6 2)
    (hz : ∀ j, s.velU j + s.velB j = 0) (o : SolverOut) (so : StepOut) (a3 : (solverOuts [6] s)[0]? = some o)
    (a5 : afterSolve C92_cfg p.2.1 o p.2.2 = some so) : ∃ u, so.moved = [u] ∧ u.pos = ⟨0.5, 0.5, 0.5⟩ + (1 / 10 : ℝ) • C92_push := by
  have hbl : (C92_rank D).bodies.length = 1 := rfl
  obtain ⟨o', ho', ⟨c1, b1⟩, ⟨c2, b2⟩, ⟨c3, b3⟩, ⟨c4, b4⟩⟩ := solverOuts_at [6] s rfl 0 6 rfl
  rw [a3] at ho'
  cases ho'
  obtain ⟨so', d1, d2, d3⟩ := afterSolve_spec C92_cfg C92_mu C92_dt (by norm_num [C92_cfg, C88_cfg, C43_cfg]) (C92_rank D) (C92_ok D _ List.mem_cons_self)
    p.1 p.2.1 p.2.2 hP1.1 o b1 b2 b3 b4
  rw [a5] at d1
  cases d1
  obtain ⟨t, u, e1, e2, -, -, e3, -, e4, -, -, e5⟩ := d3 0 D (ball 7 0 0.5) rfl
  have hmov : so.moved = [u] := by
    have hml : so.moved.length = 1 := by
      unfold afterSolve at a5
      simp only [Option.map_eq_some_iff] at a5
      obtain ⟨bs, -, rfl⟩ := a5
      simp only at d2 ⊢
      rw [hbl] at d2
      split
      · exact d2
      · simpa using d2
    match hm : so.moved, hml with
    | [w], _ =>
      rw [hm] at e2
      simpa using e2
  have hv6 : ∀ (f : Vec 6) (l : List ℝ), (parts [6] (List.ofFn f))[0]? = some l → l = List.ofFn f := by
    intro f l hl
    simp only [parts, List.getElem?_cons_zero, Option.some.injEq] at hl
    rw [← hl, List.take_of_length_le (by simp)]
  have hvt : t.vel = C92_push := by
    have g1 := hv6 _ _ c2
    have g2 := hv6 _ _ c4
    rw [C92_velocity D p hP1, g1, g2] at e4
    have e6 := congrArg Prod.fst e4
    simp only [Prod.fst_add] at e6
    rw [e6]
    have k0 := hz 0; have k1 := hz 1; have k2 := hz 2
    have add3 : ∀ a b c : ℝ, b + c = 0 → a + b + c = a := fun a b c h => by linarith
    refine V3.ext ?_ ?_ ?_
    · exact add3 C92_push.x (s.velU 0) (s.velB 0) k0
    · exact add3 C92_push.y (s.velU 1) (s.velB 1) k1
    · exact add3 C92_push.z (s.velU 2) (s.velB 2) k2
  refine ⟨u, hmov, ?_⟩
  rw [e5, if_neg (by simp [C92_cfg, C88_cfg, C43_cfg])]
  show t.pos + (1 / 10 : ℝ) • t.vel = _
  rw [e3, hvt]
  rfl

/-- C92 is false of whole time steps: a sphere touches two walls with almost the same normal and is pushed against both.  Whatever the limit on the number of
iterations, the solver's residual stays above 0.1 (the default tolerance is `1e-5`); and at limits `9 + 4 n` the sphere makes the step that it would make
without walls and is on the wrong side of both, by more than its radius. -/
theorem C92_wedge_false (D : Draws) : ∃ (cfg : Cfg) (x : Sylinder) (b1 b2 : Bound) (rk : RankIn),
    0 < cfg.viscosity ∧ 0 < cfg.dt ∧ cfg.KBT = 0 ∧ ValidBound b1 ∧ ValidBound b2 ∧ Sphere x ∧ sd b1 x.pos = Rad x ∧ sd b2 x.pos = Rad x ∧
    rk.bodies = [(D, x)] ∧ C90_Collected 0.5 [b1, b2] (fun _ => [x]) [rk] ∧ C88_Ready rk ∧ C88_Fits 1 rk ∧
    ∀ fl : ℝ → ℝ, Rounds fl → ∀ (fuel : ℕ) (c : Control), c.choice ≠ 1 → c.res ≤ 1 / 10 →
      ∃ out, runStepAll cfg c fl fuel [rk] = some out ∧ out.history.length = c.maxIte + 1 ∧ (∀ e ∈ out.history, 1 / 10 ≤ e.res) ∧
        ∀ n, c.maxIte = 9 + 4 * n → ∃ so x', out.steps = [so] ∧ so.moved = [x'] ∧ sd b1 x'.pos < -Rad x ∧ sd b2 x'.pos < -Rad x := by
  obtain ⟨x, hx⟩ : ∃ x, x = ball 7 0 0.5 := ⟨_, rfl⟩
  have hsp : Sphere x := by rw [hx]; norm_num [Sphere, ball, Sylinder.make]
  have hR : x.radiusCollision = 0.09 := by rw [hx]; norm_num [ball, Sylinder.make]
  have hL : x.lengthCollision = 0 := by rw [hx]; norm_num [ball, Sylinder.make]
  have hrad : Rad x = 0.09 := by unfold Rad; rw [if_pos hsp, hR, hL]; norm_num
  have hpos : x.pos = ⟨0.5, 0.5, 0.5⟩ := by rw [hx]; rfl
  refine ⟨C92_cfg, x, C92_floor, C92_slope, C92_rank D, C92_mu, C92_dt, rfl, ?_, ?_, hsp, ?_, ?_, ?_, ?_, C92_ready D, C92_fits D, ?_⟩
  · norm_num [C92_floor, ValidBound, V3.norm, V3.normSq, V3.dot]
  · show V3.norm C92_normal = 1
    unfold V3.norm V3.normSq
    rw [C92_normal_unit, Real.sqrt_one]
  · rw [C92_sd1, hpos, hrad]; norm_num
  · rw [C92_sd2, hpos, hrad]; ring
  · rw [hx]; rfl
  · intro r rk hrk
    match r, hrk with
    | 0, hrk =>
      cases hrk
      refine ⟨[(C92_floor, [(0, ball 7 0 0.5)]), (C92_slope, [(0, ball 7 0 0.5)])], [[]], _, rfl, ?_, C92_collect D, fun _ h => h⟩
      intro e he
      rw [hx]
      simp only [List.mem_cons, List.not_mem_nil, or_false] at he
      rcases he with rfl | rfl <;> exact List.Perm.refl _
    | r + 1, hrk => simp at hrk
  · intro fl hfl fuel c hch hc
    obtain ⟨pre, hpre, hP⟩ := pre_spec C92_cfg C92_mu C92_dt [C92_rank D] (C92_ok D)
    obtain ⟨p, rfl, hP1⟩ : ∃ p, pre = [p] ∧ Pre C92_cfg (C92_rank D) p := by
      cases hP with
      | cons h1 h2 => cases h2; exact ⟨_, rfl, h1⟩
    have hvel := C92_velocity D p hP1
    obtain ⟨s, hs, hlen, hres, hvz⟩ := C92_solve D p hP1 fl hfl fuel c hch hc
    obtain ⟨out, hout, hh, hsl, hst, -⟩ := runStepAll_ex C92_cfg C92_mu C92_dt c fl fuel [C92_rank D] (C92_ok D)
      (fun r hr => by rw [List.mem_singleton.1 hr]; exact List.Perm.refl _) (fun r hr => by rw [List.mem_singleton.1 hr]; exact List.Perm.refl _)
      (fun r hr => by
        rw [List.mem_singleton.1 hr]
        exact C88_built 1 (by norm_num) _ (List.Perm.refl _) (C92_fits D)) [p] hpre hP
      C92_blocks (C92_blocks_eq D) (flat6 [(C92_push, 0)]) (by simp [hvel]) [6] (by simp [hvel, flat6]) (C92_columns D) s hs
    refine ⟨out, hout, by rw [hh]; exact hlen, by rw [hh]; exact hres, ?_⟩
    intro n hn
    have hz := hvz n hn
    obtain ⟨p', o, so, a1, a2, a3, a4, a5⟩ := hst 0 _ rfl
    cases a1
    obtain ⟨u, hmov, hpu⟩ := C92_moved D p hP1 s (fun j => congrFun hz j) o so a3 a5
    have hso : out.steps = [so] := by
      match hm : out.steps, hsl with
      | [w], _ =>
        rw [hm] at a4
        simpa using a4
    refine ⟨so, u, hso, hmov, ?_, ?_⟩
    · rw [C92_sd1, hpu, hrad]
      simp only [V3.add_z, V3.smul_z, C92_push]
      norm_num
    · rw [C92_sd2, hpu, hrad]
      have : V3.dot (⟨0.5, 0.5, 0.5⟩ + (1 / 10 : ℝ) • C92_push) C92_normal - V3.dot ⟨0.5, 0.5, 0.5⟩ C92_normal = (1 / 10) * (-9) := by
        have h9 : V3.dot C92_push C92_normal = -9 := by
          simp only [V3.dot, C92_push, C92_normal]
          rw [div_mul_cancel₀ _ C92_unit_pos.ne']
          norm_num
        rw [← h9]
        simp only [V3.dot, V3.add_x, V3.add_y, V3.add_z, V3.smul_x, V3.smul_y, V3.smul_z]
        ring
      rw [this]
      norm_num

end Verif
