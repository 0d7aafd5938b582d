import Verif.Lemmas.Dilute
import Verif.Props.Converge
/-! The solver on a problem with a diagonal operator (C109). -/
namespace Verif.Dilute
open BCQP Spec Spec.Converge

variable {n : ℕ}

theorem normInf_le (x : Vec n) (r : ℝ) (hr : 0 ≤ r) (h : ∀ i, |x i| ≤ r) : normInf x ≤ r := by
  unfold normInf
  rw [pi_norm_le_iff_of_nonneg hr]
  exact h

/-- The distance of a guess from the solution is at most its gradient over the curvature. -/
theorem guess_near (lam b lb ub x0 xs : Vec n) (mu R : ℝ) (hmu : 0 < mu) (hlam : ∀ i, mu ≤ lam i) (hin : InBox lb ub xs)
    (hfo : FirstOrder lb ub xs ((Matrix.diagonal lam).mulVec xs + b)) (hx0 : InBox lb ub x0) (hR : ∀ i, |((Matrix.diagonal lam).mulVec x0 + b) i| ≤ R) (i : Fin n) :
    |x0 i - xs i| ≤ R / mu := by
  have h1 := Converge.firstOrder_at lb ub xs _ hin hfo i (x0 i) (hx0 i)
  have h2 := hR i
  simp only [Pi.add_apply, Matrix.mulVec_diagonal] at h1 h2
  rw [le_div_iff₀ hmu]
  obtain ⟨h3, h4⟩ := abs_le.1 h2
  have h5 := hlam i
  rcases le_total (xs i) (x0 i) with h | h
  · rw [abs_of_nonneg (by linarith)]
    rcases h.eq_or_lt with h6 | h6
    · rw [← h6, sub_self, zero_mul]; linarith
    · have h7 : 0 ≤ lam i * xs i + b i := by
        by_contra hn
        push Not at hn
        nlinarith
      nlinarith
  · rw [abs_of_nonpos (by linarith)]
    rcases h.eq_or_lt with h6 | h6
    · rw [h6, sub_self, neg_zero, zero_mul]; linarith
    · have h7 : lam i * xs i + b i ≤ 0 := by
        by_contra hn
        push Not at hn
        nlinarith
      nlinarith

/-- The solver ends with a residual below the tolerance, and with no unknown at an upper bound that is far away. -/
theorem solve (n : ℕ) (mu L R tol : ℝ) (hmu : 0 < mu) (hml : mu ≤ L) (hLR : L ≤ R) (htol : 0 < tol) (hfine : 10 * dblEps * L ≤ 1)
    (ht : 10 * dblEps * (R + L) ^ 2 ≤ min mu (mu ^ 2) * tol ^ 2) :
    ∃ N : ℕ, ∀ (A : Vec n → Vec n) (lam b lb ub x0 : Vec n), (∀ x, A x = (Matrix.diagonal lam).mulVec x) → (∀ i, mu ≤ lam i ∧ lam i ≤ L) →
      (∀ i, lb i + 1 ≤ ub i) → InBox lb ub x0 → (∀ i, |A x0 i + b i| ≤ R) →
      ∀ iteMax, N ≤ iteMax → ∃ out last, solveBBPGD (bcqp id A b lb ub) x0 tol iteMax [] = .ok out ∧ out.history.getLast? = some last ∧ last.res < tol ∧
        ∀ i, x0 i + (R + tol) / mu ≤ ub i - dblEps * 100 → out.x i ≤ ub i - dblEps * 100 := by
  have hR : 0 ≤ R := (hmu.le.trans hml).trans hLR
  obtain ⟨N, hN⟩ := C92_separate_partial n mu L R (n * (R / mu)) tol hmu hml hLR (by positivity) htol hfine ht
  refine ⟨N + 1, fun A lam b lb ub x0 hA hlam hroom hx0 hg iteMax hite => ?_⟩
  obtain rfl : A = fun x => (Matrix.diagonal lam).mulVec x := funext hA
  have heps : 0 < dblEps * 100 ∧ dblEps * 100 < 1 / 4 := by unfold dblEps; norm_num
  have hlu : ∀ i, lb i ≤ ub i := fun i => by linarith [hroom i]
  obtain ⟨xs, hin, hfo⟩ := Converge.minimiser (Matrix.diagonal lam) (Separate.diagonal_symm lam) b lb ub hlu
  have hnear := guess_near lam b lb ub x0 xs mu R hmu (fun i => (hlam i).1) hin hfo hx0 hg
  obtain ⟨out, hs, hret, hbox, hap, r, hr, hlt⟩ := hN id lam b lb ub x0 xs hlam (fun i => by
      have := hroom i
      refine ⟨?_, ?_, ?_⟩ <;> simp only [id] <;> linarith) hx0 hin hfo
    ((Unbound.norm2_le_normInf _).trans (mul_le_mul_of_nonneg_left (normInf_le _ _ (by positivity) hnear) (Nat.cast_nonneg _)))
    (normInf_le _ _ hR hg) iteMax (by omega)
  obtain ⟨-, pre, last, hh, -, hpre, -, -, -⟩ := C20_bbpgd_partial id _ b lb ub x0 hlu tol iteMax [] out hs
  rw [List.nil_append] at hh
  have hlast : out.history.getLast? = some last := by rw [hh]; simp
  refine ⟨out, last, hs, hlast, ?_, ?_⟩
  · by_contra hn
    push Not at hn
    obtain ⟨pre', h1, e, q1, hq1, hr1⟩ := C20_exhausted id _ b lb ub x0 tol iteMax (by omega) [] out hs hret last hlast hn
    have hmem : h1 ∈ pre := by
      have : pre = pre' ++ [h1] := by
        have h2 : pre ++ [last] = (pre' ++ [h1]) ++ [last] := by rw [← hh, e]; simp
        exact List.append_cancel_right h2
      rw [this]; simp
    obtain ⟨q, hq, hr⟩ := hr
    rw [hq] at hq1
    have : q = q1 := Except.ok.inj hq1
    have := hpre h1 hmem
    subst_vars
    linarith
  · intro i hi
    by_contra hn
    push Not at hn
    obtain ⟨q, hq, rfl⟩ := hr
    have hq : checkProjectionResidual id lb ub out.x ((Matrix.diagonal lam).mulVec out.x + b) = .ok q := hq
    have hqi := (check_ok _ _ _ _ _ q).mp hq i
    have hqr : |q i| ≤ norm2 q := RunStep.abs_le_norm2 q i
    have h1 := hroom i
    unfold residualAt at hqi
    simp only [id] at hqi
    rw [if_neg (by linarith), if_pos hn] at hqi
    have e : q i = max (lam i * out.x i + b i) 0 := by
      have := (Option.some.inj hqi).symm
      simpa [Matrix.mulVec_diagonal] using this
    have h2 : lam i * out.x i + b i ≤ q i := by rw [e]; exact le_max_left _ _
    have h3 := (abs_le.1 hqr).2
    have h4 := (abs_le.1 (hg i)).1
    simp only [Matrix.mulVec_diagonal] at h4
    have h5 : (R + tol) / mu < out.x i - x0 i := by linarith
    rw [div_lt_iff₀ hmu] at h5
    have h6 : 0 ≤ out.x i - x0 i := by
      have : 0 ≤ (R + tol) / mu := by positivity
      linarith
    have h7 := mul_le_mul_of_nonneg_left (hlam i).1 h6
    nlinarith

end Verif.Dilute
