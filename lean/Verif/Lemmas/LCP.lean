import Verif.Lemmas.BCQP
import Verif.Spec.LCP
/-! Helper lemmas for the complementarity solvers. -/
namespace Verif.LCP
open BCQP Spec

variable {n : ℕ}

theorem clipZero_nonneg (v : Vec n) (i : Fin n) : 0 ≤ clipZero v i := by
  unfold clipZero
  split
  · exact le_rfl
  · rename_i h; exact not_lt.mp h

theorem residualIs_lcp (A : Vec n → Vec n) (b x : Vec n) (r : ℝ) :
    ResidualIs (lcp A b) x r ↔ r = violation A b x := by
  have e : norm2 (minXY x (A x + b)) = violation A b x := by
    unfold norm2 violation dot minXY
    congr 1
    exact Finset.sum_congr rfl (fun i _ => by simp [sq])
  constructor
  · rintro ⟨q, hq, rfl⟩
    have : minXY x (A x + b) = q := by
      have hq' : (Except.ok (minXY x (A x + b)) : Except Stop (Vec n)) = .ok q := hq
      injection hq'
    rw [← this, e]
  · rintro rfl
    exact ⟨_, rfl, e.symm⟩

theorem checkResiduePhi_eq (A : Vec n → Vec n) (b x : Vec n) : checkResiduePhi x (A x + b) = violation A b x := by
  unfold checkResiduePhi norm2 violation dot minXY
  congr 1
  exact Finset.sum_congr rfl (fun i _ => by simp [sq])

theorem hMinMap_norm (x y : Vec n) : norm2 (hMinMap x y).1 = checkResiduePhi x y := by
  unfold checkResiduePhi hMinMap minXY
  congr 1
  funext i
  simp only [min_def]
  split <;> split <;> first | rfl | linarith

theorem checkResiduePhi_comm (x y : Vec n) : checkResiduePhi x y = checkResiduePhi y x := by
  unfold checkResiduePhi minXY
  congr 1
  funext i
  exact min_comm _ _

theorem violation_nonneg (A : Vec n → Vec n) (b x : Vec n) : 0 ≤ violation A b x := Real.sqrt_nonneg _

theorem lineSearch_spec (A : Vec n → Vec n) (b x dx : Vec n) (f0 gradf : ℝ) (hg : gradf ≤ 0) :
    ∀ (fuel : ℕ) (tau : ℝ), 0 < tau → ∀ xk yk t, lineSearch A b x dx f0 gradf fuel tau = .ok (xk, yk, t) →
      0 < t ∧ yk = A xk + b ∧ (∀ i, 0 ≤ xk i) ∧
      ((1 / 10 ^ 28 : ℝ) ≤ t * t → (1 / 2) * violation A b xk ^ 2 ≤ f0) := by
  intro fuel
  induction fuel with
  | zero => intro tau ht xk yk t h; unfold lineSearch at h; exact absurd h (by simp)
  | succ fuel ih =>
    intro tau ht xk yk t h
    unfold lineSearch at h
    simp only at h
    split at h
    · rename_i hle
      simp only [Except.ok.injEq, Prod.mk.injEq] at h
      obtain ⟨rfl, rfl, rfl⟩ := h
      refine ⟨ht, rfl, fun i => clipZero_nonneg _ i, fun _ => ?_⟩
      rw [hMinMap_norm, checkResiduePhi_comm, checkResiduePhi_eq] at hle
      nlinarith
    · split at h
      · rename_i hlt
        simp only [Except.ok.injEq, Prod.mk.injEq] at h
        obtain ⟨rfl, rfl, rfl⟩ := h
        exact ⟨ht, rfl, fun i => clipZero_nonneg _ i, fun h => absurd hlt (not_lt.mpr h)⟩
      · exact ih _ (by linarith) _ _ _ h

theorem lineSearch_ends (A : Vec n → Vec n) (b x dx : Vec n) (f0 gradf : ℝ) :
    ∀ (fuel : ℕ) (tau : ℝ), 0 < tau → tau < 2 ^ fuel / 10 ^ 14 →
      ∃ r, lineSearch A b x dx f0 gradf (fuel + 1) tau = .ok r := by
  intro fuel
  induction fuel with
  | zero =>
    intro tau h0 ht
    unfold lineSearch
    simp only
    split
    · exact ⟨_, rfl⟩
    · rw [if_pos]
      · exact ⟨_, rfl⟩
      · rw [pow_zero] at ht
        calc tau * tau < (1 / 10 ^ 14) * (1 / 10 ^ 14) := by nlinarith
          _ = 1 / 10 ^ 28 := by norm_num
  | succ fuel ih =>
    intro tau h0 ht
    unfold lineSearch
    simp only
    split
    · exact ⟨_, rfl⟩
    · split
      · exact ⟨_, rfl⟩
      · exact ih _ (by linarith) (by rw [pow_succ] at ht; linarith)

/-- What the Newton loop knows at the start of a pass after the first: the current vector came from the previous one. -/
def NewtonInv (A : Vec n → Vec n) (b x y xk yk : Vec n) (tk : ℝ) : Prop :=
  y = A x + b ∧ yk = A xk + b ∧ (∀ i, 0 ≤ x i) ∧ 0 < tk ∧
    ((1 / 10 ^ 28 : ℝ) ≤ tk * tk → violation A b x ≤ violation A b xk)

theorem step_inv (A : Vec n → Vec n) (b x y xk' yk' dx H mask nab : Vec n) (t : ℝ) (fuel : ℕ)
    (hy : y = A x + b) (hH : (H, mask) = hMinMap x y)
    (hdesc : dot nab dx ≤ 0)
    (h : lineSearch A b x dx ((1 / 2) * norm2 H ^ 2) ((1 / 1000) * dot nab dx) fuel 1 = .ok (xk', yk', t)) :
    NewtonInv A b xk' yk' x y t := by
  obtain ⟨h1, h2, h3, h4⟩ := lineSearch_spec A b x dx _ _ (by linarith) fuel 1 one_pos _ _ _ h
  refine ⟨h2, hy, h3, h1, fun hg => ?_⟩
  have hH' : H = (hMinMap x y).1 := by rw [← hH]
  have := h4 hg
  rw [hH', hMinMap_norm, hy, checkResiduePhi_eq] at this
  have h5 : violation A b xk' ^ 2 ≤ violation A b x ^ 2 := by linarith
  exact abs_le_abs_of_sq (violation_nonneg _ _ _) (violation_nonneg _ _ _) h5
where
  abs_le_abs_of_sq {a b : ℝ} (ha : 0 ≤ a) (hb : 0 ≤ b) (h : a ^ 2 ≤ b ^ 2) : a ≤ b := by nlinarith

/-- How a run of the Newton loop can end with code 0 when a pass was begun. -/
def NewtonEnd (A : Vec n → Vec n) (b : Vec n) (tol : ℝ) (x : Vec n) (last : Hist) : Prop :=
  (0 < last.step ∧ last.res < tol) ∨
  (1 / 2) * violation A b x ^ 2 < 1 / 10 ^ 14 ∨
  ∃ old, |(1 / 2) * violation A b x ^ 2 - old| / |old| < tol

theorem descent (nab dx : Vec n) : dot nab (if dot nab dx > -(1 / 10 ^ 14) * norm2 dx ^ 2 then (-1 : ℝ) • nab else dx)
    ≤ 0 := by
  split
  · have : dot nab ((-1 : ℝ) • nab) = -dot nab nab := by
      unfold dot; rw [← Finset.sum_neg_distrib]; exact Finset.sum_congr rfl (fun i _ => by simp)
    rw [this]
    linarith [dot_self_nonneg nab]
  · rename_i h
    have h2 : 0 ≤ norm2 dx ^ 2 := sq_nonneg _
    have h3 := not_lt.mp h
    nlinarith

theorem newtonLoop_spec (A : Vec n → Vec n) (b : Vec n) (gmres : Vec n → Vec n → Vec n → Vec n) (x0 : Vec n)
    (tol : ℝ) (fuel : ℕ) :
    ∀ (left ite : ℕ) (x y xk yk dx : Vec n) (err tk : ℝ) (hist : List Hist) (out : NewtonOut n),
      y = A x + b → (x = x0 ∨ ∀ i, 0 ≤ x i) → (tk = 0 ∨ NewtonInv A b x y xk yk tk) →
      newtonLoop A b gmres x0 tol fuel left ite x y xk yk dx err tk hist = .ok out →
      (out.x = x0 ∨ ∀ i, 0 ≤ out.x i) ∧
      ∃ new, out.history = hist ++ new ∧ new.length ≤ left ∧
        (out.ret = 1 ∧ out.x = x0 ∨
         out.ret = 0 ∧ new.length = left ∧ (new = [] → out.x = x) ∨
         out.ret = 0 ∧ ∃ pre last, new = pre ++ [last] ∧ NewtonEnd A b tol out.x last ∧
          (0 < last.step → (∃ xp, last.res = violation A b xp) ∧
            ((1 / 10 ^ 28 : ℝ) ≤ last.step * last.step → violation A b out.x ≤ last.res))) := by
  intro left
  induction left with
  | zero =>
    intro ite x y xk yk dx err tk hist out hy hx hinv h
    unfold newtonLoop at h
    injection h with h
    subst h
    exact ⟨hx, [], by simp, by simp, Or.inr (Or.inl ⟨rfl, rfl, fun _ => rfl⟩)⟩
  | succ left ih =>
    intro ite x y xk yk dx err tk hist out hy hx hinv h
    have hlast : 0 < tk → (∃ xp, checkResiduePhi xk yk = violation A b xp) ∧
        ((1 / 10 ^ 28 : ℝ) ≤ tk * tk → violation A b x ≤ checkResiduePhi xk yk) := by
      intro ht
      rcases hinv with h0 | ⟨-, hk, -, -, hle⟩
      · linarith
      · rw [hk, checkResiduePhi_eq]
        exact ⟨⟨xk, rfl⟩, hle⟩
    unfold newtonLoop at h
    simp only at h
    split at h
    · rename_i hc
      injection h with h
      subst h
      refine ⟨hx, [⟨ite + 1, tk, checkResiduePhi xk yk, 0⟩], rfl, by simp, Or.inr (Or.inr ⟨rfl, [], _, rfl,
        Or.inl ⟨hc.1, lt_of_le_of_lt (le_abs_self _) hc.2⟩, hlast⟩)⟩
    · simp only [bind_ok] at h
      obtain ⟨rel, hrel, h⟩ := h
      have hv : norm2 (hMinMap x y).1 = violation A b x := by rw [hMinMap_norm, hy, checkResiduePhi_eq]
      split at h
      · rename_i hc
        injection h with h
        subst h
        refine ⟨hx, [⟨ite + 1, tk, checkResiduePhi xk yk, 0⟩], rfl, by simp, Or.inr (Or.inr ⟨rfl, [], _, rfl, ?_, hlast⟩)⟩
        rcases hc with hc | hc
        · unfold rdiv at hrel
          split at hrel
          · exact absurd hrel (by simp)
          · injection hrel with hrel
            rw [hv] at hrel
            exact Or.inr (Or.inr ⟨err, by rw [hrel]; exact hc⟩)
        · rw [hv] at hc
          exact Or.inr (Or.inl hc)
      · split at h
        · injection h with h
          subst h
          exact ⟨Or.inl rfl, [⟨ite + 1, tk, checkResiduePhi xk yk, 0⟩], rfl, by simp, Or.inl ⟨rfl, rfl⟩⟩
        · simp only [bind_ok] at h
          obtain ⟨⟨xk', yk', tau⟩, hls, h⟩ := h
          have hinv' := step_inv A b x y xk' yk' _ _ _ _ tau fuel hy rfl (descent _ _) hls
          obtain ⟨h1, new, hn, hl, hc⟩ := ih _ _ _ _ _ _ _ _ _ _ hinv'.1 (Or.inr hinv'.2.2.1) (Or.inr hinv') h
          refine ⟨h1, ⟨ite + 1, tk, checkResiduePhi xk yk, 0⟩ :: new, by rw [hn]; simp, by simp; omega, ?_⟩
          rcases hc with hc | ⟨hr, hlen, -⟩ | ⟨hr, pre, last, e, hend, hla⟩
          · exact Or.inl hc
          · exact Or.inr (Or.inl ⟨hr, by simp [hlen], fun h => absurd h (by simp)⟩)
          · exact Or.inr (Or.inr ⟨hr, _ :: pre, last, by rw [e]; rfl, hend, hla⟩)

theorem bind_exists {ε α β : Type} (x : Except ε α) (f : α → Except ε β) (h : ∃ a, x = .ok a)
    (hf : ∀ a, x = .ok a → ∃ b, f a = .ok b) : ∃ b, (x >>= f) = .ok b := by
  obtain ⟨a, rfl⟩ := h
  exact hf a rfl

theorem newtonLoop_ends (A : Vec n → Vec n) (b : Vec n) (gmres : Vec n → Vec n → Vec n → Vec n) (x0 : Vec n)
    (tol : ℝ) :
    ∀ (left ite : ℕ) (x y xk yk dx : Vec n) (err tk : ℝ) (hist : List Hist), err ≠ 0 →
      ∃ out, newtonLoop A b gmres x0 tol 48 left ite x y xk yk dx err tk hist = .ok out := by
  intro left
  induction left with
  | zero => intros; exact ⟨_, rfl⟩
  | succ left ih =>
    intro ite x y xk yk dx err tk hist herr
    unfold newtonLoop
    simp only
    split
    · exact ⟨_, rfl⟩
    · have hd : rdiv |(1 / 2) * norm2 (hMinMap x y).1 ^ 2 - err| |err| =
          .ok (|(1 / 2) * norm2 (hMinMap x y).1 ^ 2 - err| / |err|) := by
        unfold rdiv; rw [if_neg (abs_ne_zero.mpr herr)]
      rw [hd]
      show ∃ out, (if _ ∨ _ then _ else _) = _
      split
      · exact ⟨_, rfl⟩
      · rename_i hne
        split
        · exact ⟨_, rfl⟩
        · refine bind_exists _ _ (lineSearch_ends _ _ _ _ _ _ 47 1 one_pos (by norm_num)) ?_
          rintro ⟨xk', yk', t⟩ -
          refine ih _ _ _ _ _ _ _ _ _ ?_
          rw [not_or] at hne
          intro h0
          rw [h0] at hne
          exact hne.2 (by norm_num)

end Verif.LCP
