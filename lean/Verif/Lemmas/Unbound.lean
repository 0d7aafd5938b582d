import Verif.Lemmas.Converge
import Verif.Lemmas.Raydan
import Mathlib.Analysis.Matrix.Spectrum
/-! Lemmas on the convergence of the projected gradient method when the bounds are far away (C92). -/
namespace Verif.Unbound
open Verif.BCQP Verif.Spec Verif.Spec.Converge Verif.Converge

variable {n : ℕ}

theorem dot_comm (x y : Vec n) : dot x y = dot y x := by
  unfold dot; exact Finset.sum_congr rfl fun i _ => mul_comm _ _

theorem dot_add_right (x y z : Vec n) : dot x (y + z) = dot x y + dot x z := by
  unfold dot; rw [← Finset.sum_add_distrib]; refine Finset.sum_congr rfl fun i _ => ?_; simp only [Pi.add_apply]; ring

theorem dot_symm (M : Matrix (Fin n) (Fin n) ℝ) (hM : M.transpose = M) (x y : Vec n) : dot x (M.mulVec y) = dot (M.mulVec x) y := by
  change x ⬝ᵥ M.mulVec y = M.mulVec x ⬝ᵥ y
  rw [Matrix.dotProduct_mulVec, ← Matrix.mulVec_transpose, hM]

/-! ### The iteration without bounds -/

section
variable (M : Matrix (Fin n) (Fin n) ℝ) (b : Vec n) (L : ℝ)

/-- A quotient; `1 / L` where it is not defined. -/
noncomputable def quot (L a b : ℝ) : ℝ := if b = 0 then 1 / L else a / b

/-- The step size after the difference `d` of two iterates. -/
noncomputable def bb (ite : ℕ) (d : Vec n) : ℝ :=
  if ite % 2 = 0 then quot L (dot d d) (dot d (M.mulVec d)) else quot L (dot d (M.mulVec d)) (dot (M.mulVec d) (M.mulVec d))

/-- The iterates and step sizes. -/
noncomputable def traj (x0 : Vec n) (a0 : ℝ) : ℕ → Vec n × ℝ
  | 0 => (x0, a0)
  | k + 1 =>
    let s := traj x0 a0 k
    let x := -s.2 • (M.mulVec s.1 + b) + s.1
    (x, bb M L (k + 1) (x - s.1))

end

section
variable {M : Matrix (Fin n) (Fin n) ℝ} {mu L : ℝ}

theorem bb_bounds (hM : M.transpose = M) (hmu : 0 < mu) (hml : mu ≤ L) (hq : Quadratic M mu L) (ite : ℕ) (d : Vec n) : 1 / L ≤ bb M L ite d ∧ bb M L ite d ≤ 1 / mu := by
  have hL : 0 < L := lt_of_lt_of_le hmu hml
  have hmm : 1 / L ≤ 1 / mu := one_div_le_one_div_of_le hmu hml
  have h0 := dot_self_nonneg d
  have h1 := hq d
  have h2 := form_upper M mu L hM hmu hL hq d
  have h3 := form_lower M mu L hmu hq d
  have p1 : 0 ≤ dot d (M.mulVec d) := le_trans (by positivity) h1.1
  have p2 := dot_self_nonneg (M.mulVec d)
  unfold bb quot
  split
  · split
    · exact ⟨le_rfl, hmm⟩
    · rename_i hne
      have t0 := lt_of_le_of_ne p1 (Ne.symm hne)
      constructor
      · rw [div_le_div_iff₀ hL t0]; linarith [h1.2]
      · rw [div_le_div_iff₀ t0 hmu]; linarith [h1.1]
  · split
    · exact ⟨le_rfl, hmm⟩
    · rename_i hne
      have t0 := lt_of_le_of_ne p2 (Ne.symm hne)
      constructor
      · rw [div_le_div_iff₀ hL t0]; linarith
      · rw [div_le_div_iff₀ t0 hmu]; linarith

/-- The equation of the step size, in terms of a vector of which the difference is a multiple. -/
theorem bb_eq (hM : M.transpose = M) (hmu : 0 < mu) (hml : mu ≤ L) (hq : Quadratic M mu L) (ite : ℕ) (g : Vec n) (a : ℝ) (ha : a ≠ 0) :
    bb M L ite (-a • g) * dot g (M.mulVec g) = dot g g ∨ bb M L ite (-a • g) * dot (M.mulVec g) (M.mulVec g) = dot g (M.mulVec g) := by
  have hL : 0 < L := lt_of_lt_of_le hmu hml
  have h0 := dot_self_nonneg g
  have h1 := hq g
  have h3 := form_lower M mu L hmu hq g
  have p1 : 0 ≤ dot g (M.mulVec g) := le_trans (by positivity) h1.1
  have ha2 : a * a ≠ 0 := mul_ne_zero ha ha
  have e1 : dot (-a • g) (-a • g) = a * a * dot g g := by rw [dot_smul_left, dot_smul_right]; ring
  have e2 : dot (-a • g) (M.mulVec (-a • g)) = a * a * dot g (M.mulVec g) := by rw [Matrix.mulVec_smul, dot_smul_left, dot_smul_right]; ring
  have e3 : dot (M.mulVec (-a • g)) (M.mulVec (-a • g)) = a * a * dot (M.mulVec g) (M.mulVec g) := by rw [Matrix.mulVec_smul, dot_smul_left, dot_smul_right]; ring
  unfold bb quot
  rw [e1, e2, e3]
  split
  · left
    split
    · rename_i h
      have hz : dot g (M.mulVec g) = 0 := by rcases mul_eq_zero.1 h with h | h; exact absurd h ha2; exact h
      rw [hz] at h1 ⊢
      have : dot g g ≤ 0 := by by_contra hn; push Not at hn; have := mul_pos hmu hn; linarith [h1.1]
      linarith
    · rename_i h
      have : dot g (M.mulVec g) ≠ 0 := fun hz => h (by rw [hz, mul_zero])
      field_simp
  · right
    split
    · rename_i h
      have hz : dot (M.mulVec g) (M.mulVec g) = 0 := by rcases mul_eq_zero.1 h with h | h; exact absurd h ha2; exact h
      rw [hz] at h3 ⊢
      have : dot g (M.mulVec g) ≤ 0 := by by_contra hn; push Not at hn; have := mul_pos hmu hn; linarith
      linarith
    · rename_i h
      have : dot (M.mulVec g) (M.mulVec g) ≠ 0 := fun hz => h (by rw [hz, mul_zero])
      field_simp

/-- The step of the code is this step when its constant does not interfere. -/
theorem step_eq (ite : ℕ) (d : Vec n) (h1 : 10 * dblEps ≤ dot d (M.mulVec d)) (h2 : 10 * dblEps ≤ dot (M.mulVec d) (M.mulVec d)) :
    stepAlternating ite d (M.mulVec d) = .ok (bb M L ite d) := by
  have he := dblEps_pos
  have t0 : 0 < dot d (M.mulVec d) := by linarith
  have u0 : 0 < dot (M.mulVec d) (M.mulVec d) := by linarith
  unfold stepAlternating rdiv bb quot
  simp only [norm2_sq]
  by_cases hp : ite % 2 = 0
  · simp only [if_pos hp]
    have hn : ¬ |dot d (M.mulVec d)| < 10 * dblEps := by rw [abs_of_pos t0]; linarith
    rw [if_neg hn, if_neg t0.ne', if_neg t0.ne']
  · simp only [if_neg hp]
    have hn : ¬ |dot (M.mulVec d) (M.mulVec d)| < 10 * dblEps := by rw [abs_of_pos u0]; linarith
    rw [if_neg hn, if_neg u0.ne', if_neg u0.ne']

variable {b : Vec n}

/-- The gradient after a step. -/
theorem grad_next (x : Vec n) (a : ℝ) : M.mulVec (-a • (M.mulVec x + b) + x) + b = (M.mulVec x + b) - a • M.mulVec (M.mulVec x + b) := by
  rw [Matrix.mulVec_add, Matrix.mulVec_smul, neg_smul]; abel

/-- In the coordinates of the eigenvectors the iteration is a `Run`. -/
theorem isRun (hM : M.transpose = M) (hmu : 0 < mu) (hml : mu ≤ L) (hq : Quadratic M mu L) (x0 : Vec n) (a0 : ℝ) (lam : Fin n → ℝ) (v : Fin n → Vec n)
    (hv : ∀ i, M.mulVec (v i) = lam i • v i) (hp : ∀ x y : Vec n, dot x y = ∑ i, dot (v i) x * dot (v i) y) (hn : ∀ i, dot (v i) (v i) = 1) :
    Raydan.Run mu L 1 lam (fun k i => dot (v i) (M.mulVec (traj M b L x0 a0 (k + 1)).1 + b)) (fun k i => dot (v i) (M.mulVec (traj M b L x0 a0 (k + 1)).1 + b) ^ 2) (fun k => (traj M b L x0 a0 (k + 1)).2) := by
  have hL : 0 < L := lt_of_lt_of_le hmu hml
  have hc : ∀ i x, dot (v i) (M.mulVec x) = lam i * dot (v i) x := by
    intro i x
    rw [dot_symm M hM, hv, dot_smul_left]
  have hlam : ∀ i, mu ≤ lam i ∧ lam i ≤ L := by
    intro i
    have := hq (v i)
    rw [hv, dot_smul_right, hn] at this
    constructor <;> linarith [this.1, this.2]
  have hal : ∀ k, 1 / L ≤ (traj M b L x0 a0 (k + 1)).2 ∧ (traj M b L x0 a0 (k + 1)).2 ≤ 1 / mu := fun k => bb_bounds hM hmu hml hq _ _
  refine ⟨fun i => (hlam i).1, fun i => (hlam i).2, fun k i => le_of_eq (congrArg _ ?_), fun k => (hal k).1, fun k => (hal k).2, fun k i => by simp, fun k i => by simp, fun k => ?_⟩
  · change dot (v i) (M.mulVec (-(traj M b L x0 a0 (k + 1)).2 • (M.mulVec (traj M b L x0 a0 (k + 1)).1 + b) + (traj M b L x0 a0 (k + 1)).1) + b) = _
    rw [grad_next, dot_sub_right, dot_smul_right, hc]
    ring
  · obtain ⟨g, hg⟩ : ∃ g, g = M.mulVec (traj M b L x0 a0 (k + 1)).1 + b := ⟨_, rfl⟩
    obtain ⟨a, ha⟩ : ∃ a, a = (traj M b L x0 a0 (k + 1)).2 := ⟨_, rfl⟩
    have ha0 : a ≠ 0 := by
      rw [ha]; exact (lt_of_lt_of_le (by positivity) (hal k).1).ne'
    have e : (traj M b L x0 a0 (k + 1 + 1)).2 = bb M L (k + 1 + 1) (-a • g) := by
      change bb M L (k + 1 + 1) (-(traj M b L x0 a0 (k + 1)).2 • (M.mulVec (traj M b L x0 a0 (k + 1)).1 + b) + (traj M b L x0 a0 (k + 1)).1 - (traj M b L x0 a0 (k + 1)).1) = _
      rw [← hg, ← ha, add_sub_cancel_right]
    rw [← hg, e]
    have s0 : dot g g = ∑ i, dot (v i) g ^ 2 := by rw [hp]; exact Finset.sum_congr rfl fun i _ => by ring
    have s1 : dot g (M.mulVec g) = ∑ i, lam i * dot (v i) g ^ 2 := by rw [hp]; exact Finset.sum_congr rfl fun i _ => by rw [hc]; ring
    have s2 : dot (M.mulVec g) (M.mulVec g) = ∑ i, lam i ^ 2 * dot (v i) g ^ 2 := by rw [hp]; exact Finset.sum_congr rfl fun i _ => by rw [hc]; ring
    rw [← s0, ← s1, ← s2]
    exact bb_eq hM hmu hml hq _ g a ha0

/-- The gradient of the iteration without bounds: it stays within a multiple of the second one, and becomes small; both uniformly. -/
theorem traj_grad (n : ℕ) {mu L : ℝ} (hmu : 0 < mu) (hml : mu ≤ L) :
    (∃ C : ℝ, 1 ≤ C ∧ ∀ (M : Matrix (Fin n) (Fin n) ℝ) (b x0 : Vec n) (a0 : ℝ), M.transpose = M → Quadratic M mu L →
      ∀ k, norm2 (M.mulVec (traj M b L x0 a0 (k + 1)).1 + b) ≤ C * norm2 (M.mulVec (traj M b L x0 a0 1).1 + b)) ∧
    ∀ e : ℝ, 0 < e → ∃ N : ℕ, ∀ (M : Matrix (Fin n) (Fin n) ℝ) (b x0 : Vec n) (a0 : ℝ), M.transpose = M → Quadratic M mu L →
      ∀ k, N ≤ k → norm2 (M.mulVec (traj M b L x0 a0 (k + 1)).1 + b) ≤ e * norm2 (M.mulVec (traj M b L x0 a0 1).1 + b) := by
  have basis : ∀ (M : Matrix (Fin n) (Fin n) ℝ), M.transpose = M → ∃ (lam : Fin n → ℝ) (v : Fin n → Vec n), (∀ i, M.mulVec (v i) = lam i • v i) ∧
      (∀ x y : Vec n, dot x y = ∑ i, dot (v i) x * dot (v i) y) ∧ (∀ i, dot (v i) (v i) = 1) := by
    intro M hM
    have hA : M.IsHermitian := by
      unfold Matrix.IsHermitian
      rw [Matrix.conjTranspose_eq_transpose_of_trivial]; exact hM
    have key : ∀ a b : EuclideanSpace ℝ (Fin n), inner ℝ a b = dot a.ofLp b.ofLp := by
      intro a b
      rw [EuclideanSpace.inner_eq_star_dotProduct]
      unfold dot dotProduct
      refine Finset.sum_congr rfl fun i _ => ?_
      simp [mul_comm]
    refine ⟨hA.eigenvalues, fun i => (hA.eigenvectorBasis i).ofLp, fun i => hA.mulVec_eigenvectorBasis i, fun x y => ?_, fun i => ?_⟩
    · have h := hA.eigenvectorBasis.sum_inner_mul_inner (WithLp.toLp 2 x) (WithLp.toLp 2 y)
      simp only [key] at h
      rw [← h]
      refine Finset.sum_congr rfl fun i _ => ?_
      rw [dot_comm x]
    · have h := hA.eigenvectorBasis.orthonormal.1 i
      rw [← key, real_inner_self_eq_norm_sq, h]; norm_num
  have conv : ∀ (f : ℝ) (x y : Vec n) (v : Fin n → Vec n), 0 ≤ f → (∀ x y : Vec n, dot x y = ∑ i, dot (v i) x * dot (v i) y) →
      ∑ i, dot (v i) x ^ 2 ≤ f ^ 2 * ∑ i, dot (v i) y ^ 2 → norm2 x ≤ f * norm2 y := by
    intro f x y v hf hp h
    have s0 : ∀ g, dot g g = ∑ i, dot (v i) g ^ 2 := fun g => by rw [hp]; exact Finset.sum_congr rfl fun i _ => by ring
    rw [← s0, ← s0, ← norm2_sq, ← norm2_sq, ← mul_pow] at h
    exact le_of_abs_le (abs_le_of_sq_le_sq h (mul_nonneg hf (norm2_nonneg _)))
  constructor
  · obtain ⟨C, hC, h⟩ := Raydan.bounded n hmu hml le_rfl
    refine ⟨C, hC, fun M b x0 a0 hM hq k => ?_⟩
    obtain ⟨lam, v, hv, hp, hn⟩ := basis M hM
    have h1 := h lam _ _ _ (isRun (b := b) hM hmu hml hq x0 a0 lam v hv hp hn) k
    refine conv C _ _ v (by linarith) hp (h1.trans ?_)
    refine mul_le_mul_of_nonneg_right ?_ (Finset.sum_nonneg fun i _ => sq_nonneg _)
    nlinarith
  · intro e he
    obtain ⟨N, h⟩ := Raydan.vanishes n hmu hml le_rfl (e ^ 2) (by positivity)
    refine ⟨N, fun M b x0 a0 hM hq k hk => ?_⟩
    obtain ⟨lam, v, hv, hp, hn⟩ := basis M hM
    exact conv e _ _ v he.le hp (h lam _ _ _ (isRun (b := b) hM hmu hml hq x0 a0 lam v hv hp hn) k hk)

/-- The distance from the solution. -/
theorem near_solution (hmu : 0 < mu) (hq : Quadratic M mu L) (xs x : Vec n) (hs : M.mulVec xs + b = 0) : mu * norm2 (x - xs) ≤ norm2 (M.mulVec x + b) := by
  have e : M.mulVec x + b = M.mulVec (x - xs) := by
    rw [Matrix.mulVec_sub, eq_neg_of_add_eq_zero_left hs]; abel
  have h1 := (hq (x - xs)).1
  have h2 := dot_le_norm2 (x - xs) (M.mulVec (x - xs))
  rw [← norm2_sq] at h1
  rw [e]
  rcases (norm2_nonneg (x - xs)).eq_or_lt with h0 | h0
  · rw [← h0, mul_zero]; exact norm2_nonneg _
  · exact le_of_mul_le_mul_left (by nlinarith) h0

theorem abs_le_norm2 (x : Vec n) (i : Fin n) : |x i| ≤ norm2 x := by
  unfold norm2
  refine Real.abs_le_sqrt ?_
  unfold dot
  rw [pow_two]
  exact Finset.single_le_sum (f := fun i => x i * x i) (fun i _ => mul_self_nonneg _) (Finset.mem_univ i)

theorem norm2_le_normInf (x : Vec n) : norm2 x ≤ n * normInf x := by
  have h0 : 0 ≤ normInf x := norm_nonneg _
  have h : dot x x ≤ (n * normInf x) ^ 2 := by
    have : dot x x ≤ ∑ i : Fin n, normInf x ^ 2 := by
      unfold dot
      refine Finset.sum_le_sum fun i _ => ?_
      have h1 : |x i| ≤ normInf x := norm_le_pi_norm x i
      rw [← abs_mul_abs_self]
      nlinarith [abs_nonneg (x i)]
    rw [Finset.sum_const, Finset.card_univ, Fintype.card_fin, nsmul_eq_mul] at this
    refine this.trans ?_
    rw [mul_pow]
    refine mul_le_mul_of_nonneg_right ?_ (sq_nonneg _)
    rcases Nat.eq_zero_or_pos n with rfl | hn
    · simp
    · have : (1 : ℝ) ≤ n := by exact_mod_cast hn
      nlinarith
  rw [← norm2_sq] at h
  exact le_of_abs_le (abs_le_of_sq_le_sq h (by positivity))

/-! ### The loop of the code -/

variable {fl : ℝ → ℝ} {lb ub : Vec n} {tol : ℝ}

/-- Inside the bounds the residual is the gradient and the projection does nothing. -/
theorem interior (rho : ℝ) (xs x g : Vec n) (hc : ∀ i, Clear fl (lb i) (ub i) (xs i) rho) (hx : norm2 (x - xs) ≤ rho) :
    checkProjectionResidual fl lb ub x g = .ok g ∧ boundProjection lb ub x = x ∧ InBox lb ub x := by
  have hi : ∀ i, xs i - rho ≤ x i ∧ x i ≤ xs i + rho := by
    intro i
    have := (abs_le_norm2 (x - xs) i).trans hx
    rw [Pi.sub_apply, abs_le] at this
    constructor <;> linarith [this.1, this.2]
  refine ⟨?_, ?_, ?_⟩
  · rw [check_ok]
    intro i
    obtain ⟨c1, c2, c3, c4⟩ := hc i
    obtain ⟨h1, h2⟩ := hi i
    unfold residualAt
    simp only
    rw [if_neg (by linarith), if_neg (by linarith), if_pos ⟨by linarith, by linarith⟩]
  · funext i
    obtain ⟨c1, c2, c3, c4⟩ := hc i
    obtain ⟨h1, h2⟩ := hi i
    unfold boundProjection
    rw [max_eq_left (by linarith), min_eq_left (by linarith)]
  · intro i
    obtain ⟨c1, c2, c3, c4⟩ := hc i
    obtain ⟨h1, h2⟩ := hi i
    exact ⟨by linarith, by linarith⟩

/-- The loop follows the iteration without bounds and ends at the first small gradient. -/
theorem loop_follows (hM : M.transpose = M) (hmu : 0 < mu) (hml : mu ≤ L) (hq : Quadratic M mu L) (htol : 0 < tol) (hfine : 10 * dblEps * L ≤ 1) (R : ℝ) (hLR : L ≤ R)
    (ht : 10 * dblEps * R ^ 2 ≤ min mu (mu ^ 2) * tol ^ 2) (rho : ℝ) (xs : Vec n) (hc : ∀ i, Clear fl (lb i) (ub i) (xs i) rho) (x0 : Vec n) (a0 : ℝ) (ha0 : 1 / R ≤ a0)
    (hin : ∀ k, norm2 ((traj M b L x0 a0 k).1 - xs) ≤ rho) :
    ∀ (m k left mv : ℕ) (xk : Vec n) (hist : List Hist), m < left → norm2 (M.mulVec (traj M b L x0 a0 (k + m + 1)).1 + b) < tol →
      tol ≤ norm2 (M.mulVec (traj M b L x0 a0 k).1 + b) →
      ∃ out, bbLoop (bcqp fl (fun v => M.mulVec v) b lb ub) stepAlternating (fun a => a < dblEps * 10) tol left k mv (traj M b L x0 a0 k).2 xk (traj M b L x0 a0 k).1
          (M.mulVec (traj M b L x0 a0 k).1 + b) hist = .ok out ∧
        out.ret = 0 ∧ InBox lb ub out.x ∧ norm2 (M.mulVec out.x + b) < tol ∧ out.applied = out.x ∧
        ResidualIs (bcqp fl (fun v => M.mulVec v) b lb ub) out.x (norm2 (M.mulVec out.x + b)) := by
  have hL : 0 < L := lt_of_lt_of_le hmu hml
  have hR : 0 < R := hL.trans_le hLR
  intro m
  induction m with
  | zero =>
    intro k left mv xk hist hleft hend hbeg
    obtain ⟨left, rfl⟩ : ∃ l, left = l + 1 := ⟨left - 1, by omega⟩
    obtain ⟨i1, i2, i3⟩ := interior rho xs _ (M.mulVec (traj M b L x0 a0 (k + 1)).1 + b) hc (hin (k + 1))
    refine ⟨⟨(traj M b L x0 a0 (k + 1)).1, hist ++ [⟨k + 1, (traj M b L x0 a0 k).2, norm2 (M.mulVec (traj M b L x0 a0 (k + 1)).1 + b), mv + 1⟩], 0,
      (traj M b L x0 a0 (k + 1)).1⟩, ?_, rfl, i3, hend, rfl, ⟨_, i1, rfl⟩⟩
    rw [bbLoop]
    change (checkProjectionResidual fl lb ub (boundProjection lb ub (traj M b L x0 a0 (k + 1)).1) (M.mulVec (boundProjection lb ub (traj M b L x0 a0 (k + 1)).1) + b) >>= _) = _
    rw [i2, i1]
    change (if |norm2 _| < tol then _ else _) = _
    rw [abs_of_nonneg (norm2_nonneg _), if_pos hend]
    change Except.ok (⟨boundProjection lb ub (traj M b L x0 a0 (k + 1)).1, _, 0, boundProjection lb ub (traj M b L x0 a0 (k + 1)).1⟩ : Out n) = _
    rw [i2]
  | succ m ih =>
    intro k left mv xk hist hleft hend hbeg
    obtain ⟨left, rfl⟩ : ∃ l, left = l + 1 := ⟨left - 1, by omega⟩
    obtain ⟨i1, i2, i3⟩ := interior rho xs _ (M.mulVec (traj M b L x0 a0 (k + 1)).1 + b) hc (hin (k + 1))
    rcases lt_or_ge (norm2 (M.mulVec (traj M b L x0 a0 (k + 1)).1 + b)) tol with hlt | hge
    · refine ⟨⟨(traj M b L x0 a0 (k + 1)).1, hist ++ [⟨k + 1, (traj M b L x0 a0 k).2, norm2 (M.mulVec (traj M b L x0 a0 (k + 1)).1 + b), mv + 1⟩], 0,
        (traj M b L x0 a0 (k + 1)).1⟩, ?_, rfl, i3, hlt, rfl, ⟨_, i1, rfl⟩⟩
      rw [bbLoop]
      change (checkProjectionResidual fl lb ub (boundProjection lb ub (traj M b L x0 a0 (k + 1)).1) (M.mulVec (boundProjection lb ub (traj M b L x0 a0 (k + 1)).1) + b) >>= _) = _
      rw [i2, i1]
      change (if |norm2 _| < tol then _ else _) = _
      rw [abs_of_nonneg (norm2_nonneg _), if_pos hlt]
      change Except.ok (⟨boundProjection lb ub (traj M b L x0 a0 (k + 1)).1, _, 0, boundProjection lb ub (traj M b L x0 a0 (k + 1)).1⟩ : Out n) = _
      rw [i2]
    · obtain ⟨out, h1, h2⟩ := ih (k + 1) left (mv + 1) (traj M b L x0 a0 k).1
        (hist ++ [⟨k + 1, (traj M b L x0 a0 k).2, norm2 (M.mulVec (traj M b L x0 a0 (k + 1)).1 + b), mv + 1⟩]) (by omega)
        (by rw [show k + 1 + m + 1 = k + (m + 1) + 1 by omega]; exact hend) hge
      refine ⟨out, ?_, h2⟩
      have hal : 1 / R ≤ (traj M b L x0 a0 k).2 := by
        cases k with
        | zero => exact ha0
        | succ k => exact (one_div_le_one_div_of_le hL hLR).trans (bb_bounds hM hmu hml hq _ _).1
      have hap : 0 < (traj M b L x0 a0 k).2 := lt_of_lt_of_le (by positivity) hal
      obtain ⟨g, hg⟩ : ∃ g, g = M.mulVec (traj M b L x0 a0 k).1 + b := ⟨_, rfl⟩
      have hd : (traj M b L x0 a0 (k + 1)).1 - (traj M b L x0 a0 k).1 = -(traj M b L x0 a0 k).2 • g := by
        rw [hg]
        change -(traj M b L x0 a0 k).2 • (M.mulVec (traj M b L x0 a0 k).1 + b) + (traj M b L x0 a0 k).1 - (traj M b L x0 a0 k).1 = _
        rw [add_sub_cancel_right]
      obtain ⟨d, hdd⟩ : ∃ d, d = (traj M b L x0 a0 (k + 1)).1 - (traj M b L x0 a0 k).1 := ⟨_, rfl⟩
      have hnd : tol ^ 2 ≤ R ^ 2 * dot d d := by
        rw [hdd, hd, dot_smul_left, dot_smul_right, ← norm2_sq]
        have h5 : tol ^ 2 ≤ norm2 g ^ 2 := pow_le_pow_left₀ htol.le (by rw [hg]; exact hbeg) 2
        have h6 : 1 ≤ R * (traj M b L x0 a0 k).2 := by rwa [div_le_iff₀ hR, mul_comm] at hal
        have h7 : 1 ≤ (R * (traj M b L x0 a0 k).2) ^ 2 := one_le_pow₀ h6
        nlinarith [sq_nonneg (norm2 g)]
      have h8 : 0 ≤ min mu (mu ^ 2) := le_min hmu.le (by positivity)
      have hge' : 10 * dblEps ≤ min mu (mu ^ 2) * dot d d := by
        have h9 : 10 * dblEps * R ^ 2 ≤ min mu (mu ^ 2) * dot d d * R ^ 2 := by
          calc _ ≤ min mu (mu ^ 2) * tol ^ 2 := ht
            _ ≤ min mu (mu ^ 2) * (R ^ 2 * dot d d) := by gcongr
            _ = _ := by ring
        exact le_of_mul_le_mul_right h9 (by positivity)
      have hd0 := dot_self_nonneg d
      have g1 : 10 * dblEps ≤ dot d (M.mulVec d) := by
        refine hge'.trans (le_trans ?_ (hq d).1)
        gcongr; exact min_le_left _ _
      have g2 : 10 * dblEps ≤ dot (M.mulVec d) (M.mulVec d) := by
        refine hge'.trans (le_trans ?_ (form_lower M mu L hmu hq d))
        calc min mu (mu ^ 2) * dot d d ≤ mu ^ 2 * dot d d := by gcongr; exact min_le_right _ _
          _ = mu * (mu * dot d d) := by ring
          _ ≤ _ := by gcongr; exact (hq d).1
      have hs := step_eq (L := L) (k + 1) d g1 g2
      rw [bbLoop]
      change (checkProjectionResidual fl lb ub (boundProjection lb ub (traj M b L x0 a0 (k + 1)).1) (M.mulVec (boundProjection lb ub (traj M b L x0 a0 (k + 1)).1) + b) >>= _) = _
      rw [i2, i1]
      change (if |norm2 _| < tol then _ else (stepAlternating (k + 1) (boundProjection lb ub (traj M b L x0 a0 (k + 1)).1 - (traj M b L x0 a0 k).1)
        (M.mulVec (boundProjection lb ub (traj M b L x0 a0 (k + 1)).1) + b - (M.mulVec (traj M b L x0 a0 k).1 + b)) >>= _)) = _
      rw [i2, abs_of_nonneg (norm2_nonneg _), if_neg (not_lt.2 hge),
        show M.mulVec (traj M b L x0 a0 (k + 1)).1 + b - (M.mulVec (traj M b L x0 a0 k).1 + b) = M.mulVec d by rw [hdd, Matrix.mulVec_sub]; abel, ← hdd, hs]
      change (if bb M L (k + 1) d < dblEps * 10 then _ else _) = _
      have hb := (bb_bounds hM hmu hml hq (k + 1) d).1
      have hnn : ¬ bb M L (k + 1) d < dblEps * 10 := by
        rw [not_lt]
        refine le_trans ?_ hb
        rw [le_div_iff₀ hL]
        linarith
      rw [if_neg hnn]
      have ed : (traj M b L x0 a0 (k + 1)).2 = bb M L (k + 1) d := by rw [hdd]; rfl
      rw [ed] at h1
      rw [← h1]
      change bbLoop _ _ _ _ _ _ _ _ _ (boundProjection lb ub (traj M b L x0 a0 (k + 1)).1) (M.mulVec (boundProjection lb ub (traj M b L x0 a0 (k + 1)).1) + b) _ = _
      rw [i2]

end

end Verif.Unbound
