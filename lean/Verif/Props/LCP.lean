import Verif.Lemmas.LCP
import Mathlib.Tactic.NormNum
import Mathlib.Tactic.FinCases
import Mathlib.Algebra.BigOperators.Fin
/-! Property C22: the linear complementarity solvers. -/
namespace Verif
open BCQP LCP Spec

variable {n : ℕ}

/-- C22: both residuals of the code are the violation of the problem, and it is zero exactly at the solutions. -/
theorem C22_residual (A : Vec n → Vec n) (b x : Vec n) :
    checkResiduePhi x (A x + b) = violation A b x ∧ checkResiduePhiB x (A x) b = violation A b x ∧
    (checkResiduePhi x (A x + b) = 0 ↔ Complementary x (A x + b)) := by
  refine ⟨checkResiduePhi_eq A b x, ?_, ?_⟩
  · rw [← checkResiduePhi_eq]; rfl
  · unfold checkResiduePhi
    rw [norm2_eq_zero]
    unfold minXY Complementary
    constructor
    · intro h
      have h1 : ∀ i, 0 ≤ x i := fun i => (h i) ▸ min_le_left _ _
      have h2 : ∀ i, 0 ≤ (A x + b) i := fun i => (h i) ▸ min_le_right _ _
      refine ⟨h1, h2, Finset.sum_eq_zero (fun i _ => ?_)⟩
      rcases le_total (x i) ((A x + b) i) with hle | hle
      · have := h i; rw [min_eq_left hle] at this; rw [this, zero_mul]
      · have := h i; rw [min_eq_right hle] at this; rw [this, mul_zero]
    · rintro ⟨h1, h2, h3⟩ i
      rw [Finset.sum_eq_zero_iff_of_nonneg (fun i _ => mul_nonneg (h1 i) (h2 i))] at h3
      rcases mul_eq_zero.mp (h3 i (Finset.mem_univ i)) with h | h
      · rw [h, min_eq_left (h2 i)]
      · rw [h, min_eq_right (h1 i)]

example : Complementary (![1, 0] : Vec 2) ((fun x => x) ![1, 0] + ![-1, 3]) := by
  refine ⟨?_, ?_, ?_⟩
  · rw [Fin.forall_fin_two]; simp
  · rw [Fin.forall_fin_two]; simp
  · simp [Fin.sum_univ_two]

/-- C22 for `LCP_BBPGD`, as far as it holds.  Missing: after `iteMax` iterations without convergence the reported residual
is that of another vector (`C22_bbpgd_false`). -/
theorem C22_bbpgd_partial (A : Vec n → Vec n) (b x0 : Vec n) (tol : ℝ) (iteMax : ℕ) (hist : List Hist) (out : Out n)
    (h : lcpBBPGD A b x0 tol iteMax hist = .ok out) :
    (out.x = x0 ∨ ∀ i, 0 ≤ out.x i) ∧ out.ret = 0 ∧
    ∃ pre last, out.history = hist ++ (pre ++ [last]) ∧ pre.length ≤ iteMax ∧ (∀ e ∈ pre, tol ≤ e.res) ∧
      (last.res < tol → last.res = violation A b out.x) ∧ (tol ≤ last.res → pre.length = iteMax) := by
  unfold lcpBBPGD at h
  simp only [bind_ok] at h
  obtain ⟨q, hq, h⟩ := h
  have hnn : |norm2 q| = norm2 q := abs_of_nonneg (norm2_nonneg q)
  rw [hnn] at h
  have hR : ResidualIs (lcp A b) x0 (norm2 q) := ⟨q, hq, rfl⟩
  split at h
  · rename_i hlt
    injection h with h
    subst h
    exact ⟨Or.inl rfl, rfl, [], _, rfl, by simp, by simp, fun _ => (residualIs_lcp A b x0 _).mp hR,
      fun h => absurd hlt (not_lt.mpr h)⟩
  · rename_i hlt
    simp only [bind_ok] at h
    obtain ⟨a, -, h⟩ := h
    obtain ⟨h1, new, hn, hl, hc⟩ := bbLoop_spec (lcp A b) _ _ tol (fun x => x = x0 ∨ ∀ i, 0 ≤ x i)
      (fun v => Or.inr (clipZero_nonneg v)) iteMax _ _ _ _ _ _ _ _ rfl (Or.inl rfl) (Or.inl rfl)
      ⟨hist, _, rfl, hR⟩ h
    refine ⟨h1, ?_⟩
    rcases hc with ⟨hr, pre, last, e, hlast, hres, -, hp⟩ | ⟨hr, pre, last, e, hlast, hres, -, hp⟩ |
      ⟨hr, e, hp, hx, hx2⟩
    · refine ⟨hr, ⟨0, 0, norm2 q, 1⟩ :: pre, last, by rw [hn, e]; simp, ?_, ?_,
        fun _ => (residualIs_lcp A b _ _).mp hres, fun h => absurd hlast (not_lt.mpr h)⟩
      · rw [e] at hl; simpa using hl
      · intro e' he'
        rcases List.mem_cons.mp he' with rfl | he'
        · exact not_lt.mp hlt
        · exact hp e' he'
    · exact absurd hr (by
        have := bbLoop_noStag (lcp A b) _ tol _ _ _ _ _ _ _ _ _ h
        omega)
    · rcases List.eq_nil_or_concat' new with rfl | ⟨pre, last, rfl⟩
      · simp at e
        subst e
        refine ⟨hr, [], ⟨0, 0, norm2 q, 1⟩, by rw [hn]; simp, by simp, by simp, fun _ => ?_, fun _ => rfl⟩
        rw [hx rfl]
        exact (residualIs_lcp A b x0 _).mp hR
      · refine ⟨hr, ⟨0, 0, norm2 q, 1⟩ :: pre, last, by rw [hn]; simp, by simpa using hl, ?_, ?_,
          fun _ => by simpa using e⟩
        · intro e' he'
          rcases List.mem_cons.mp he' with rfl | he'
          · exact not_lt.mp hlt
          · exact hp e' (by simp [he'])
        · intro h'
          exact absurd h' (not_lt.mpr (hp last (by simp)))

/-- C22: `LCP_BBPGD` always returns. -/
theorem C22_bbpgd_returns (A : Vec n → Vec n) (b x0 : Vec n) (tol : ℝ) (iteMax : ℕ) (hist : List Hist) :
    ∃ out, lcpBBPGD A b x0 tol iteMax hist = .ok out := by
  unfold lcpBBPGD
  simp only
  show ∃ out, (if |norm2 (minXY x0 (A x0 + b))| < tol then _ else _) = _
  split
  · exact ⟨_, rfl⟩
  · unfold rdiv
    rw [if_neg (safe_ne_zero _)]
    exact bbLoop_terminates (lcp A b) _ _ tol (fun x y => ⟨_, rfl⟩) stepFirst_ok _ _ _ _ _ _ _ _

/-- C22 for `LCP_APGD`: as for `solveAPGD` (C21), once an iteration completed with a residual below the largest double. -/
theorem C22_apgd_partial (A : Vec n → Vec n) (b x0 : Vec n) (tol : ℝ) (fuel iteMax : ℕ) (hist : List Hist)
    (out : Out n) (h : lcpAPGD A b fuel x0 tol iteMax hist = .ok out) :
    ∃ first new, out.history = hist ++ (first :: new) ∧ new.length ≤ iteMax ∧
      ((∃ e ∈ new, e.res < dblMax) → (∀ i, 0 ≤ out.x i) ∧ SmallestRes (violation A b out.x) new ∧
          ∀ last, new.getLast? = some last → last.res < tol → last.res = violation A b out.x) := by
  unfold lcpAPGD apgd at h
  simp only [bind_ok] at h
  obtain ⟨Lk, -, tk, -, h⟩ := h
  rw [← List.append_nil (hist ++ _)] at h
  obtain ⟨new, rm, hn, hl, hbest, hc⟩ := apLoop_spec (lcp A b) _ tol fuel (fun x => ∀ i, 0 ≤ x i)
    (fun v => clipZero_nonneg v) iteMax _ _ _ _ _ _ _ _ _ _ _ [] out
    (Or.inl ⟨fun _ => rfl, rfl, by simp⟩) (by simp) h
  rw [List.nil_append] at hn hbest
  refine ⟨_, new, by rw [hn, List.append_assoc]; rfl, hl, ?_⟩
  rintro ⟨e, he, hlt⟩
  rcases hbest with ⟨-, -, hall⟩ | ⟨h1, h2, h3⟩
  · exact absurd hlt (not_lt.mpr (hall e he))
  · rw [residualIs_lcp] at h2
    subst h2
    refine ⟨h1, h3, ?_⟩
    intro last hlast ht
    obtain ⟨⟨e0, he0, hr0⟩, hmin⟩ := h3
    rcases hc with ⟨-, pre, l, e, hll, -, -, hp⟩ | ⟨-, hp⟩ | ⟨-, -, hp⟩
    · rw [e] at hlast he0 hmin
      have : l = last := by simpa using hlast
      subst this
      rcases List.mem_append.mp he0 with he0 | he0
      · have h4 := hp e0 (by simpa using he0)
        have h5 := hmin l (by simp)
        linarith
      · rw [← hr0, List.mem_singleton.mp he0]
    · have := hp last (by simpa using List.mem_of_getLast? hlast)
      linarith
    · have := hp last (by simpa using List.mem_of_getLast? hlast)
      linarith

/-- C22: `LCP_APGD` returns for a symmetric matrix and an initial guess from which the first step size is defined. -/
theorem C22_apgd_returns (M : Matrix (Fin n) (Fin n) ℝ) (hM : M.transpose = M) (b x0 : Vec n) (tol : ℝ) (iteMax : ℕ)
    (hist : List Hist) (hx0 : M.mulVec (x0 - fun _ => 1) ≠ 0) :
    ∃ fuel out, lcpAPGD M.mulVec b fuel x0 tol iteMax hist = .ok out :=
  apgd_returns (lcp M.mulVec b) M hM (fun _ => rfl) (fun x y => ⟨_, rfl⟩) _ x0 tol iteMax hist hx0

example : ∃ (M : Matrix (Fin 2) (Fin 2) ℝ) (x0 : Vec 2), M.transpose = M ∧ M.mulVec (x0 - fun _ => 1) ≠ 0 := by
  refine ⟨1, 0, Matrix.transpose_one, fun h => ?_⟩
  have := congrFun h 0
  simp at this

/-- C22 for `LCP_mmNewton`, as far as it holds, whatever the inner Krylov solver does and whatever the uninitialised
vectors contain.  The result is the initial guess or non-negative.  With code 1 it is the initial guess.  With code 0 and
an iteration limit not reached, one of three tests ended it: the last residual in the history, which is that of the
iterate before the returned one, is below the tolerance; or the returned vector has half its squared violation below
`1e-14`; or that merit changed by a relative amount below the tolerance.  And if the line search that produced the
returned vector did not give up (its step is at least `1e-14`), the violation of the returned vector is at most the last
reported residual.  Missing: the reported residual is not that of the returned vector, and the last of the three tests
says nothing about its size (`C22_newton_false`, `C22_newton_stall_false`). -/
theorem C22_newton_partial (A : Vec n → Vec n) (b : Vec n) (gmres : Vec n → Vec n → Vec n → Vec n)
    (junkX junkY x0 : Vec n) (fuel : ℕ) (tol : ℝ) (iteMax : ℕ) (hist : List Hist) (out : NewtonOut n)
    (h : lcpNewton A b gmres junkX junkY x0 fuel tol iteMax hist = .ok out) :
    (out.x = x0 ∨ ∀ i, 0 ≤ out.x i) ∧
    ∃ new, out.history = hist ++ new ∧ new.length ≤ iteMax ∧
      (out.ret = 1 ∧ out.x = x0 ∨
       out.ret = 0 ∧ new.length = iteMax ∨
       out.ret = 0 ∧ ∃ pre last, new = pre ++ [last] ∧
        ((0 < last.step ∧ last.res < tol) ∨ (1 / 2) * violation A b out.x ^ 2 < 1 / 10 ^ 14 ∨
          ∃ old, |(1 / 2) * violation A b out.x ^ 2 - old| / |old| < tol) ∧
        (0 < last.step → (∃ xp, last.res = violation A b xp) ∧
          ((1 / 10 ^ 28 : ℝ) ≤ last.step * last.step → violation A b out.x ≤ last.res))) := by
  unfold lcpNewton at h
  simp only at h
  obtain ⟨h1, new, hn, hl, hc⟩ := newtonLoop_spec A b gmres x0 tol fuel iteMax _ _ _ _ _ _ _ _ _ _ rfl (Or.inl rfl)
    (Or.inl rfl) h
  refine ⟨h1, new, hn, hl, ?_⟩
  rcases hc with hc | ⟨hr, he, -⟩ | hc
  · exact Or.inl hc
  · exact Or.inr (Or.inl ⟨hr, he⟩)
  · exact Or.inr (Or.inr hc)

/-- C22: the Newton solver always returns (48 passes are enough for each line search). -/
theorem C22_newton_returns (A : Vec n → Vec n) (b : Vec n) (gmres : Vec n → Vec n → Vec n → Vec n)
    (junkX junkY x0 : Vec n) (tol : ℝ) (iteMax : ℕ) (hist : List Hist) :
    ∃ out, lcpNewton A b gmres junkX junkY x0 48 tol iteMax hist = .ok out :=
  newtonLoop_ends A b gmres x0 tol _ _ _ _ _ _ _ _ _ _ (by norm_num)

/-- C22 is false of `LCP_mmNewton`: started at the solution, the residual it reports is that of uninitialised memory. -/
theorem C22_newton_false : ∃ (junk : Vec 1) (out : NewtonOut 1) (last : Hist),
    lcpNewton (fun x => x) 0 (fun _ _ d => d) junk junk 0 48 (1 / 100) 10 [] = .ok out ∧ out.ret = 0 ∧
    out.history.getLast? = some last ∧ last.res ≠ violation (fun x => x) 0 out.x := by
  have hz : (hMinMap (0 : Vec 1) ((0 : Vec 1) + 0)).1 = 0 := by funext i; simp [hMinMap]
  have hn : norm2 (0 : Vec 1) = 0 := (norm2_eq_zero _).mpr (fun i => rfl)
  have h7 : checkResiduePhi (fun _ : Fin 1 => (7 : ℝ)) (fun _ => 7) = 7 := by
    unfold checkResiduePhi norm2 dot minXY
    rw [Fin.sum_univ_one]
    simp
  refine ⟨fun _ => 7, ⟨0, [⟨1, 0, 7, 0⟩], 0⟩, ⟨1, 0, 7, 0⟩, ?_, rfl, rfl, ?_⟩
  · unfold lcpNewton newtonLoop
    simp only [hz, hn, h7]
    rw [if_neg (by rintro ⟨h, -⟩; exact absurd h (lt_irrefl _))]
    have : rdiv |(1 / 2) * (0 : ℝ) ^ 2 - 10 ^ 20| |(10 : ℝ) ^ 20| = .ok (|(1 / 2) * (0 : ℝ) ^ 2 - 10 ^ 20| / |(10 : ℝ) ^ 20|) := by
      unfold rdiv; rw [if_neg (by norm_num)]
    rw [this]
    show (if _ ∨ _ then _ else _) = _
    rw [if_pos (Or.inr (by norm_num))]
    rfl
  · unfold violation
    simp

/-- C22 is false of `LCP_mmNewton` in its size claim too: with `A x = x`, `b = -10^10`, a start at `0` and the tolerance
`0.6` the relative change of the merit is below the tolerance at once, and the start is returned with code 0, at the
violation `10^10`. -/
theorem C22_newton_stall_false : ∃ (b x0 : Vec 1) (out : NewtonOut 1),
    lcpNewton (fun x => x) b (fun _ _ d => d) 0 0 x0 48 (6 / 10) 10 [] = .ok out ∧ out.ret = 0 ∧
    out.history.length = 1 ∧ 6 / 10 < violation (fun x => x) b out.x := by
  have hz : (hMinMap (0 : Vec 1) ((0 : Vec 1) + fun _ => -10 ^ 10)).1 = fun _ => -10 ^ 10 := by
    funext i
    simp [hMinMap]
  have hn : norm2 (fun _ : Fin 1 => -(10 : ℝ) ^ 10) = 10 ^ 10 := by
    unfold norm2 dot
    rw [Fin.sum_univ_one, Real.sqrt_mul_self_eq_abs]
    norm_num
  refine ⟨fun _ => -10 ^ 10, 0, ⟨0, [⟨1, 0, checkResiduePhi (0 : Vec 1) 0, 0⟩], 0⟩, ?_, rfl, rfl, ?_⟩
  · unfold lcpNewton newtonLoop
    simp only [hz, hn]
    rw [if_neg (by rintro ⟨h, -⟩; exact absurd h (lt_irrefl _))]
    have : rdiv |(1 / 2) * ((10 : ℝ) ^ 10) ^ 2 - 10 ^ 20| |(10 : ℝ) ^ 20| = .ok (1 / 2) := by
      unfold rdiv; rw [if_neg (by norm_num)]; norm_num
    rw [this]
    show (if _ ∨ _ then _ else _) = _
    rw [if_pos (Or.inl (by norm_num))]
    rfl
  · unfold violation
    rw [Fin.sum_univ_one]
    have : min ((0 : Vec 1) 0) ((0 : Vec 1) 0 + -10 ^ 10) ^ 2 = (10 : ℝ) ^ 10 * 10 ^ 10 := by
      simp
      norm_num
    rw [this, Real.sqrt_mul_self (by norm_num)]
    norm_num

/-- C22 is false of `LCP_BBPGD` when the limit is reached: with `A = diag(2,1)`, `b = (-9,-4)` and the start `(5,5)`, one
iteration and the tolerance `1/4`, the start is returned (violation `√2`) and `√2/3` reported. -/
theorem C22_bbpgd_false : ∃ (A : Vec 2 → Vec 2) (b x0 : Vec 2) (out : Out 2) (last : Hist),
    lcpBBPGD A b x0 (1 / 4) 1 [] = .ok out ∧ out.ret = 0 ∧ out.history.getLast? = some last ∧
    last.res ≠ violation A b out.x := by
  have hg : (fun x : Vec 2 => (![2 * x 0, x 1] : Vec 2)) ![5, 5] + ![-9, -4] = ![1, 1] := by
    funext i; fin_cases i <;> simp <;> norm_num
  have hq : minXY (![5, 5] : Vec 2) ![1, 1] = ![1, 1] := by
    funext i; fin_cases i <;> simp [minXY]
  have hn : norm2 (![1, 1] : Vec 2) = Real.sqrt 2 := by unfold norm2 dot; rw [Fin.sum_univ_two]; norm_num
  have ha : dot (![1, 1] : Vec 2) ((fun x : Vec 2 => (![2 * x 0, x 1] : Vec 2)) ![1, 1]) = 3 := by
    unfold dot; rw [Fin.sum_univ_two]; norm_num
  have hx : clipZero (-(2 / 3 : ℝ) • (![1, 1] : Vec 2) + ![5, 5]) = ![13 / 3, 13 / 3] := by
    funext i; fin_cases i <;> simp [clipZero] <;> norm_num
  have hg2 : (fun x : Vec 2 => (![2 * x 0, x 1] : Vec 2)) ![13 / 3, 13 / 3] + ![-9, -4] = ![-1 / 3, 1 / 3] := by
    funext i; fin_cases i <;> simp <;> norm_num
  have hq2 : minXY (![13 / 3, 13 / 3] : Vec 2) ![-1 / 3, 1 / 3] = ![-1 / 3, 1 / 3] := by
    funext i; fin_cases i <;> simp [minXY] <;> norm_num
  have hn2 : norm2 (![-1 / 3, 1 / 3] : Vec 2) = Real.sqrt (2 / 9) := by
    unfold norm2 dot; rw [Fin.sum_univ_two]; norm_num
  have s1 : ¬ |Real.sqrt 2| < 1 / 4 := by
    rw [abs_of_nonneg (Real.sqrt_nonneg _), not_lt]
    exact Real.le_sqrt_of_sq_le (by norm_num)
  have s2 : ¬ |Real.sqrt (2 / 9)| < 1 / 4 := by
    rw [abs_of_nonneg (Real.sqrt_nonneg _), not_lt]
    exact Real.le_sqrt_of_sq_le (by norm_num)
  obtain ⟨a, hs⟩ := stepFirst_ok (0 + 1) ((![13 / 3, 13 / 3] : Vec 2) - ![5, 5]) (![-1 / 3, 1 / 3] - ![1, 1])
  refine ⟨fun x => ![2 * x 0, x 1], ![-9, -4], ![5, 5],
    ⟨![5, 5], [⟨0, 0, Real.sqrt 2, 1⟩, ⟨1, 2 / 3, Real.sqrt (2 / 9), 3⟩], 0, ![13 / 3, 13 / 3]⟩,
    ⟨1, 2 / 3, Real.sqrt (2 / 9), 3⟩, ?_, rfl, rfl, ?_⟩
  · unfold lcpBBPGD
    simp only [hg, lcp, hq]
    show (if |norm2 (![1, 1] : Vec 2)| < 1 / 4 then _ else _) = _
    rw [hn, if_neg s1]
    simp only at ha
    rw [ha]
    have : rdiv (Real.sqrt 2 ^ 2) (if |(3 : ℝ)| < 10 * dblEps then 3 + 10 * dblEps else 3) = .ok (2 / 3) := by
      rw [if_neg (by unfold dblEps; norm_num)]
      unfold rdiv
      rw [if_neg (by norm_num), Real.sq_sqrt (by norm_num)]
    rw [this]
    show bbLoop (lcp (fun x : Vec 2 => (![2 * x 0, x 1] : Vec 2)) ![-9, -4]) stepFirst (fun _ => False) (1 / 4) (0 + 1) 0 2
      (2 / 3) ![5, 5] ![5, 5] ![1, 1] [⟨0, 0, Real.sqrt 2, 1⟩] = _
    unfold bbLoop
    simp only [lcp, hx, hg2, hq2]
    show (if |norm2 (![-1 / 3, 1 / 3] : Vec 2)| < 1 / 4 then _ else _) = _
    rw [hn2, if_neg s2, hs]
    rfl
  · rw [← checkResiduePhi_eq]
    unfold checkResiduePhi
    simp only [hg, hq, hn]
    intro h
    have : Real.sqrt (2 / 9) ^ 2 = Real.sqrt 2 ^ 2 := by rw [h]
    rw [Real.sq_sqrt (by norm_num), Real.sq_sqrt (by norm_num)] at this
    norm_num at this

end Verif
