import Verif.Spec.Converge
import Verif.Props.BCQP
import Mathlib.Algebra.Order.BigOperators.Ring.Finset
import Mathlib.Topology.Order.Compact
import Mathlib.Topology.Instances.Matrix
import Mathlib.Analysis.SpecificLimits.Basic
/-! Lemmas on the convergence of the projected gradient method with Barzilai-Borwein steps (C92). -/
namespace Verif.Converge
open Verif.BCQP Verif.Spec Verif.Spec.Converge

variable {n : ℕ}

theorem dot_sub_left (x y z : Vec n) : dot (x - y) z = dot x z - dot y z := by
  unfold dot; rw [← Finset.sum_sub_distrib]; exact Finset.sum_congr rfl (fun i _ => by simp [sub_mul])

theorem dot_sub_right (x y z : Vec n) : dot x (y - z) = dot x y - dot x z := by
  rw [dot_comm, dot_sub_left, dot_comm y, dot_comm z]

theorem dot_smul_left (c : ℝ) (x y : Vec n) : dot (c • x) y = c * dot x y := by
  unfold dot; rw [Finset.mul_sum]; exact Finset.sum_congr rfl (fun i _ => by simp [mul_assoc])

theorem dot_smul_right (c : ℝ) (x y : Vec n) : dot x (c • y) = c * dot x y := by
  rw [dot_comm, dot_smul_left, dot_comm]

theorem dot_cauchy (x y : Vec n) : dot x y ^ 2 ≤ dot x x * dot y y := by
  have h := Finset.sum_mul_sq_le_sq_mul_sq Finset.univ x y
  unfold dot
  simpa only [pow_two] using h

theorem dot_le_norm2 (x y : Vec n) : dot x y ≤ norm2 x * norm2 y := by
  have h := dot_cauchy x y
  rw [← norm2_sq, ← norm2_sq, ← mul_pow] at h
  exact le_of_abs_le (abs_le_of_sq_le_sq h (mul_nonneg (norm2_nonneg _) (norm2_nonneg _)))

theorem norm2_add_le (x y : Vec n) : norm2 (x + y) ≤ norm2 x + norm2 y := by
  have h : norm2 (x + y) ^ 2 ≤ (norm2 x + norm2 y) ^ 2 := by
    rw [norm2_sq, dot_add_left, dot_add_right, dot_add_right, dot_comm y x]
    have := dot_le_norm2 x y
    have h1 := norm2_sq x
    have h2 := norm2_sq y
    nlinarith
  exact le_of_abs_le (abs_le_of_sq_le_sq h (add_nonneg (norm2_nonneg _) (norm2_nonneg _)))

theorem norm2_smul (c : ℝ) (hc : 0 ≤ c) (x : Vec n) : norm2 (c • x) = c * norm2 x := by
  unfold norm2
  rw [dot_smul_left, dot_smul_right, ← mul_assoc, Real.sqrt_mul (mul_self_nonneg c), Real.sqrt_mul_self hc]

theorem norm2_mono (x y : Vec n) (h : ∀ i, |x i| ≤ |y i|) : norm2 x ≤ norm2 y := by
  refine Real.sqrt_le_sqrt (Finset.sum_le_sum (fun i _ => ?_))
  have := mul_self_le_mul_self (abs_nonneg _) (h i)
  rwa [abs_mul_abs_self, abs_mul_abs_self] at this

theorem norm2_abs (x : Vec n) : norm2 (fun i => |x i|) = norm2 x := by
  unfold norm2 dot
  simp only [abs_mul_abs_self]

/-! ### The quadratic form -/

section Form
variable (M : Matrix (Fin n) (Fin n) ℝ) (mu L : ℝ)

/-- The matrix is bounded from above on what it maps. -/
theorem form_upper (hM : M.transpose = M) (hmu : 0 < mu) (hL : 0 < L) (hq : Quadratic M mu L) (x : Vec n) : dot (M.mulVec x) (M.mulVec x) ≤ L * dot x (M.mulVec x) := by
  have h1 := (hq (x - (1 / L) • M.mulVec x)).1
  have h2 := (hq (M.mulVec x)).2
  have h0 : 0 ≤ dot (x - (1 / L) • M.mulVec x) (M.mulVec (x - (1 / L) • M.mulVec x)) :=
    le_trans (mul_nonneg hmu.le (dot_self_nonneg _)) h1
  rw [Matrix.mulVec_sub, Matrix.mulVec_smul, dot_sub_left, dot_sub_right, dot_sub_right, dot_smul_left, dot_smul_left, dot_smul_right, dot_smul_right,
    dot_mulVec_symm M hM x (M.mulVec x)] at h0
  have h3 : 1 / L * (1 / L * dot (M.mulVec x) (M.mulVec (M.mulVec x))) ≤ 1 / L * dot (M.mulVec x) (M.mulVec x) := by
    rw [← mul_assoc, mul_comm (1 / L * (1 / L))]
    calc _ ≤ L * dot (M.mulVec x) (M.mulVec x) * (1 / L * (1 / L)) := by gcongr
      _ = _ := by field_simp
  have h4 : dot (M.mulVec x) (M.mulVec x) * (1 / L) ≤ dot x (M.mulVec x) := by linarith
  rw [mul_one_div, div_le_iff₀ hL] at h4
  linarith

/-- ... and from below. -/
theorem form_lower (hmu : 0 < mu) (hq : Quadratic M mu L) (x : Vec n) : mu * dot x (M.mulVec x) ≤ dot (M.mulVec x) (M.mulVec x) := by
  have h1 := (hq x).1
  have h2 := dot_cauchy x (M.mulVec x)
  have h3 := dot_self_nonneg x
  have h4 := dot_self_nonneg (M.mulVec x)
  rcases h3.eq_or_lt with h | h
  · rw [← h, zero_mul] at h2
    have : dot x (M.mulVec x) = 0 := by nlinarith [sq_nonneg (dot x (M.mulVec x))]
    rw [this]; linarith
  · have h5 : 0 ≤ dot x (M.mulVec x) := le_trans (mul_nonneg hmu.le h3) h1
    have h6 : mu * dot x x * dot x (M.mulVec x) ≤ dot x (M.mulVec x) * dot x (M.mulVec x) := mul_le_mul_of_nonneg_right h1 h5
    have h7 : dot x x * (mu * dot x (M.mulVec x)) ≤ dot x x * dot (M.mulVec x) (M.mulVec x) := by nlinarith
    exact le_of_mul_le_mul_left h7 h

theorem mulVec_norm (hM : M.transpose = M) (hmu : 0 < mu) (hL : 0 < L) (hq : Quadratic M mu L) (x : Vec n) : norm2 (M.mulVec x) ≤ L * norm2 x := by
  have h1 := form_upper M mu L hM hmu hL hq x
  have h2 := (hq x).2
  have h3 : norm2 (M.mulVec x) ^ 2 ≤ (L * norm2 x) ^ 2 := by
    rw [mul_pow, norm2_sq, norm2_sq]
    nlinarith
  exact le_of_abs_le (abs_le_of_sq_le_sq h3 (mul_nonneg hL.le (norm2_nonneg _)))

/-- A gradient step with a step size between `1 / L` and `1 / mu`. -/
theorem contracts (hM : M.transpose = M) (hmu : 0 < mu) (hL : 0 < L) (hcond : L < 2 * mu) (hq : Quadratic M mu L) (al : ℝ) (h1 : 1 / L ≤ al) (h2 : al ≤ 1 / mu)
    (x : Vec n) : dot (x - al • M.mulVec x) (x - al • M.mulVec x) ≤ (2 - 2 * mu / L) * dot x x := by
  have hu := form_upper M mu L hM hmu hL hq x
  have hl := (hq x).1
  have ha : 0 < al := lt_of_lt_of_le (by positivity) h1
  have e : dot (x - al • M.mulVec x) (x - al • M.mulVec x) = dot x x - 2 * al * dot x (M.mulVec x) + al * al * dot (M.mulVec x) (M.mulVec x) := by
    rw [dot_sub_left, dot_sub_right, dot_sub_right, dot_smul_left, dot_smul_left, dot_smul_right, dot_smul_right, dot_comm (M.mulVec x) x]
    ring
  rw [e]
  have h3 : al * al * dot (M.mulVec x) (M.mulVec x) ≤ al * al * (L * dot x (M.mulVec x)) := by gcongr
  have hal : al * L ≤ L / mu := by
    calc al * L ≤ 1 / mu * L := by gcongr
      _ = L / mu := by ring
  have hc : 0 < 2 - L / mu := by
    rw [sub_pos, div_lt_iff₀ hmu]; exact hcond
  have h4 : 1 / L * (2 - L / mu) ≤ al * (2 - al * L) := by
    calc 1 / L * (2 - L / mu) ≤ al * (2 - L / mu) := by gcongr
      _ ≤ al * (2 - al * L) := by gcongr
  have h5 : 0 ≤ al * (2 - al * L) := le_trans (by positivity) h4
  have h6 : 1 / L * (2 - L / mu) * (mu * dot x x) ≤ al * (2 - al * L) * dot x (M.mulVec x) := by
    have := dot_self_nonneg x
    gcongr
  have h7 : 1 / L * (2 - L / mu) * (mu * dot x x) = (2 * mu / L - 1) * dot x x := by field_simp
  nlinarith

end Form

/-! ### The minimiser -/

theorem firstOrder_at (lb ub x g : Vec n) (hx : InBox lb ub x) (h : FirstOrder lb ub x g) (i : Fin n) (z : ℝ) (hz : lb i ≤ z ∧ z ≤ ub i) : 0 ≤ g i * (z - x i) := by
  have := h (Function.update x i z) (fun j => by
    by_cases hj : j = i
    · subst hj; simpa using hz
    · simpa [Function.update_of_ne hj] using hx j)
  rw [Finset.sum_eq_single i (fun j _ hj => by simp [Function.update_of_ne hj]) (by simp)] at this
  simpa using this

/-- The minimiser is left where it is by a gradient step. -/
theorem fixed (lb ub x g : Vec n) (hx : InBox lb ub x) (h : FirstOrder lb ub x g) (al : ℝ) (ha : 0 ≤ al) : boundProjection lb ub (-al • g + x) = x := by
  funext i
  have h1 := firstOrder_at lb ub x g hx h i (lb i) ⟨le_rfl, (hx i).1.trans (hx i).2⟩
  have h2 := firstOrder_at lb ub x g hx h i (ub i) ⟨(hx i).1.trans (hx i).2, le_rfl⟩
  obtain ⟨h3, h4⟩ := hx i
  simp only [boundProjection, Pi.add_apply, Pi.smul_apply, smul_eq_mul]
  rcases lt_trichotomy (g i) 0 with hg | hg | hg
  · have : ub i = x i := by nlinarith
    have h5 : x i ≤ -al * g i + x i := by nlinarith
    rw [max_eq_left (by linarith), min_eq_right (by linarith), this]
  · rw [hg, mul_zero, zero_add, max_eq_left h3, min_eq_left h4]
  · have : lb i = x i := by nlinarith
    have h5 : -al * g i + x i ≤ x i := by nlinarith
    rw [max_eq_right (by linarith), min_eq_left (by linarith), this]

/-- There is a minimiser over a box. -/
theorem minimiser (M : Matrix (Fin n) (Fin n) ℝ) (hM : M.transpose = M) (b lb ub : Vec n) (hb : ∀ i, lb i ≤ ub i) :
    ∃ x, InBox lb ub x ∧ FirstOrder lb ub x (M.mulVec x + b) := by
  let f : Vec n → ℝ := fun x => dot x (M.mulVec x) * (1 / 2) + dot x b
  have hf : Continuous f := by
    have h1 : Continuous fun x : Vec n => M.mulVec x := continuous_const.matrix_mulVec continuous_id
    unfold f dot
    refine Continuous.add (Continuous.mul (continuous_finsetSum _ fun i _ => ?_) continuous_const) (continuous_finsetSum _ fun i _ => ?_)
    · exact (continuous_apply i).mul ((continuous_apply i).comp h1)
    · exact (continuous_apply i).mul continuous_const
  obtain ⟨x, hx, hmin⟩ := (isCompact_univ_pi (s := fun i => Set.Icc (lb i) (ub i)) (fun i => isCompact_Icc)).exists_isMinOn
    ⟨lb, fun i _ => ⟨le_rfl, hb i⟩⟩ hf.continuousOn
  have hxb : InBox lb ub x := fun i => hx i (Set.mem_univ _)
  refine ⟨x, hxb, fun z hz => ?_⟩
  have e3 : ∑ i, (M.mulVec x + b) i * (z i - x i) = dot (b + M.mulVec x) (z - x) := by
    unfold dot; exact Finset.sum_congr rfl (fun i _ => by simp only [Pi.add_apply, Pi.sub_apply]; ring)
  rw [e3]
  have key : ∀ t : ℝ, 0 < t → t ≤ 1 → 0 ≤ dot (b + M.mulVec x) (z - x) + t * (dot (z - x) (M.mulVec (z - x)) * (1 / 2)) := by
    intro t ht ht1
    have hin : x + t • (z - x) ∈ Set.univ.pi fun i => Set.Icc (lb i) (ub i) := by
      intro i _
      obtain ⟨a1, a2⟩ := hxb i
      obtain ⟨a3, a4⟩ := hz i
      simp only [Pi.add_apply, Pi.smul_apply, Pi.sub_apply, smul_eq_mul, Set.mem_Icc]
      constructor <;> nlinarith
    have h1 : f x ≤ f (x + t • (z - x)) := hmin hin
    have h2 : f (x + t • (z - x)) = _ := objective_shift M hM b x (t • (z - x))
    rw [h2, Matrix.mulVec_smul, dot_smul_left, dot_smul_right, dot_smul_right] at h1
    have h3 : 0 ≤ t * (dot (b + M.mulVec x) (z - x) + t * (dot (z - x) (M.mulVec (z - x)) * (1 / 2))) := by
      simp only [f] at h1
      nlinarith
    exact nonneg_of_mul_nonneg_right h3 ht
  by_contra hneg
  push Not at hneg
  generalize dot (b + M.mulVec x) (z - x) = u at *
  generalize dot (z - x) (M.mulVec (z - x)) * (1 / 2) = w at *
  rcases le_or_gt w 0 with hw | hw
  · have := key 1 one_pos le_rfl; linarith
  · have h1 := key (min 1 (-u / (2 * w))) (lt_min one_pos (by apply div_pos <;> linarith)) (min_le_left _ _)
    have h2 : min 1 (-u / (2 * w)) * w ≤ -u / (2 * w) * w := by gcongr; exact min_le_right _ _
    have h3 : -u / (2 * w) * w = -u / 2 := by field_simp
    linarith

/-! ### One step -/

/-- The residual after a step is small if the step is. -/
theorem residual_step (fl : ℝ → ℝ) (lb ub x g' al : ℝ) (ha : 0 < al) (hw : Room fl lb ub) (g : ℝ) :
    ∃ q, residualAt fl lb ub (min (max (-al * g' + x) lb) ub) g = some q ∧ |q| ≤ |min (max (-al * g' + x) lb) ub - x| / al + |g - g'| ∧ |q| ≤ |g| := by
  obtain ⟨w1, w2, w3⟩ := hw
  have hmin : |min g 0| ≤ |g| := by
    rcases le_total g 0 with h | h
    · rw [min_eq_left h]
    · rw [min_eq_right h]; simp
  have hmax : |max g 0| ≤ |g| := by
    rcases le_total g 0 with h | h
    · rw [max_eq_right h]; simp
    · rw [max_eq_left h]
  have hlu : lb ≤ ub := w1.le.trans w2
  -- the value is defined, and at most the gradient
  have hdef : ∀ v, lb ≤ v → v ≤ ub → ∃ q, residualAt fl lb ub v g = some q ∧ |q| ≤ |g| := by
    intro v hv1 hv2
    unfold residualAt
    simp only
    split
    · exact ⟨_, rfl, hmin⟩
    · split
      · exact ⟨_, rfl, hmax⟩
      · rename_i h1 h2
        push Not at h1 h2
        rw [if_pos ⟨by linarith, by linarith⟩]
        exact ⟨_, rfl, le_rfl⟩
  have htri : |g| ≤ |g'| + |g - g'| := by
    have := abs_add_le g' (g - g'); rwa [add_sub_cancel] at this
  rcases le_total (-al * g' + x) lb with h | h
  · -- at the lower bound
    rw [max_eq_right h, min_eq_left hlu]
    have hq : residualAt fl lb ub lb g = some (min g 0) := by
      unfold residualAt; simp only; rw [if_pos w1]
    refine ⟨_, hq, ?_, hmin⟩
    have h1 : -g' ≤ |lb - x| / al := by
      rw [le_div_iff₀ ha]
      have := le_abs_self (lb - x)
      nlinarith
    have h0 : 0 ≤ |lb - x| / al := by positivity
    rcases le_total g 0 with hg | hg
    · rw [min_eq_left hg, abs_of_nonpos hg]
      have := neg_abs_le (g - g')
      linarith
    · rw [min_eq_right hg, abs_zero]; positivity
  · rw [max_eq_left h]
    rcases le_total (-al * g' + x) ub with h' | h'
    · rw [min_eq_left h']
      obtain ⟨q, hq, hqg⟩ := hdef _ h h'
      refine ⟨q, hq, ?_, hqg⟩
      have : |-al * g' + x - x| / al = |g'| := by
        rw [add_sub_cancel_right, abs_mul, abs_neg, abs_of_pos ha]; field_simp
      rw [this]
      exact hqg.trans htri
    · rw [min_eq_right h']
      have hq : residualAt fl lb ub ub g = some (max g 0) := by
        unfold residualAt; simp only; rw [if_neg (by linarith), if_pos w3]
      refine ⟨_, hq, ?_, hmax⟩
      have h1 : g' ≤ |ub - x| / al := by
        rw [le_div_iff₀ ha]
        have := neg_abs_le (ub - x)
        nlinarith
      have h0 : 0 ≤ |ub - x| / al := by positivity
      rcases le_total g 0 with hg | hg
      · rw [max_eq_right hg, abs_zero]; positivity
      · rw [max_eq_left hg, abs_of_nonneg hg]
        have := le_abs_self (g - g')
        linarith

/-! ### The loop -/

/-- What the loop needs to know of the problem. -/
structure Good (fl : ℝ → ℝ) (M : Matrix (Fin n) (Fin n) ℝ) (lb ub : Vec n) (mu L tol : ℝ) : Prop where
  symm : M.transpose = M
  mu_pos : 0 < mu
  L_pos : 0 < L
  form : Quadratic M mu L
  room : ∀ i, Room fl (lb i) (ub i)
  tol_pos : 0 < tol
  fine : 10 * dblEps * L ≤ 1

section Loop
variable {fl : ℝ → ℝ} {M : Matrix (Fin n) (Fin n) ℝ} {b lb ub : Vec n} {mu L tol : ℝ}

/-- The residual after a step. -/
theorem resid_step (G : Good fl M lb ub mu L tol) (b xm : Vec n) (al R : ℝ) (ha : 0 < al) (hR : 1 / al ≤ R) :
    let p := bcqp fl (fun v => M.mulVec v) b lb ub
    let x := p.proj (-al • (M.mulVec xm + b) + xm)
    ∃ q, p.resid x (M.mulVec x + b) = .ok q ∧ norm2 q ≤ (R + L) * norm2 (x - xm) := by
  intro p x
  choose q h1 h2 h3 using fun i => residual_step fl (lb i) (ub i) (xm i) ((M.mulVec xm + b) i) al ha (G.room i) ((M.mulVec x + b) i)
  refine ⟨q, (check_ok fl lb ub x _ q).2 h1, ?_⟩
  have e : M.mulVec x + b - (M.mulVec xm + b) = M.mulVec (x - xm) := by rw [Matrix.mulVec_sub]; abel
  have k1 : norm2 q ≤ norm2 ((1 / al) • (fun i => |(x - xm) i|) + fun i => |M.mulVec (x - xm) i|) := by
    apply norm2_mono
    intro i
    have h4 : |q i| ≤ |x i - xm i| / al + |(M.mulVec x + b) i - (M.mulVec xm + b) i| := h2 i
    rw [← Pi.sub_apply, ← Pi.sub_apply, e] at h4
    refine h4.trans (le_of_eq ?_)
    simp only [Pi.add_apply, Pi.smul_apply, smul_eq_mul]
    have h5 : 0 ≤ 1 / al * |(x - xm) i| + |M.mulVec (x - xm) i| := by positivity
    rw [abs_of_nonneg h5]
    ring
  have k2 := norm2_add_le ((1 / al) • (fun i => |(x - xm) i|)) (fun i => |M.mulVec (x - xm) i|)
  rw [norm2_smul _ (by positivity), norm2_abs, norm2_abs (M.mulVec (x - xm))] at k2
  have k3 := mulVec_norm M mu L G.symm G.mu_pos G.L_pos G.form (x - xm)
  have k4 : 1 / al * norm2 (x - xm) ≤ R * norm2 (x - xm) := mul_le_mul_of_nonneg_right hR (norm2_nonneg _)
  linarith

/-- The step size of the next iteration. -/
theorem next_alpha (G : Good fl M lb ub mu L tol) (R : ℝ) (hR : 0 ≤ R) (ht : 10 * dblEps * (R + L) ^ 2 ≤ min mu (mu ^ 2) * tol ^ 2) (d : Vec n) (hd : tol ≤ (R + L) * norm2 d)
    (ite : ℕ) : ∃ al, stepAlternating ite d (M.mulVec d) = .ok al ∧ 1 / L ≤ al ∧ al ≤ 1 / mu := by
  have hL := G.L_pos
  have hmu := G.mu_pos
  have htol := G.tol_pos
  have hRL : 0 < R + L := by linarith
  have hd0 : 0 < norm2 d := by
    by_contra h
    have : norm2 d = 0 := le_antisymm (not_lt.1 h) (norm2_nonneg d)
    rw [this, mul_zero] at hd; linarith
  have hs : 0 < dot d d := by rw [← norm2_sq]; positivity
  have hq := G.form d
  have hu := form_upper M mu L G.symm hmu hL G.form d
  have hl := form_lower M mu L hmu G.form d
  have hge : 10 * dblEps ≤ min mu (mu ^ 2) * dot d d := by
    have h1 : tol ^ 2 ≤ (R + L) ^ 2 * dot d d := by
      rw [← norm2_sq, ← mul_pow]
      exact pow_le_pow_left₀ htol.le hd 2
    have h2 : 10 * dblEps * (R + L) ^ 2 ≤ min mu (mu ^ 2) * dot d d * (R + L) ^ 2 := by
      have h3 : 0 ≤ min mu (mu ^ 2) := le_min hmu.le (by positivity)
      calc _ ≤ min mu (mu ^ 2) * tol ^ 2 := ht
        _ ≤ min mu (mu ^ 2) * ((R + L) ^ 2 * dot d d) := by gcongr
        _ = _ := by ring
    exact le_of_mul_le_mul_right h2 (by positivity)
  have g1 : 10 * dblEps ≤ dot d (M.mulVec d) := by
    refine hge.trans (le_trans ?_ hq.1)
    gcongr; exact min_le_left _ _
  have g2 : 10 * dblEps ≤ norm2 (M.mulVec d) ^ 2 := by
    rw [norm2_sq]
    refine hge.trans (le_trans ?_ hl)
    calc min mu (mu ^ 2) * dot d d ≤ mu ^ 2 * dot d d := by gcongr; exact min_le_right _ _
      _ = mu * (mu * dot d d) := by ring
      _ ≤ _ := by gcongr; exact hq.1
  have he := dblEps_pos
  have t0 : 0 < dot d (M.mulVec d) := by linarith
  have u0 : 0 < norm2 (M.mulVec d) ^ 2 := by linarith
  unfold stepAlternating rdiv
  simp only
  by_cases hp : ite % 2 = 0
  · simp only [if_pos hp]
    have hn : ¬ |dot d (M.mulVec d)| < 10 * dblEps := by rw [abs_of_pos t0]; linarith
    rw [if_neg hn, if_neg t0.ne']
    refine ⟨_, rfl, ?_, ?_⟩
    · rw [norm2_sq, div_le_div_iff₀ hL t0]; linarith [hq.2]
    · rw [norm2_sq, div_le_div_iff₀ t0 hmu]; linarith [hq.1]
  · simp only [if_neg hp]
    have hn : ¬ |norm2 (M.mulVec d) ^ 2| < 10 * dblEps := by rw [abs_of_pos u0]; linarith
    rw [if_neg hn, if_neg u0.ne']
    refine ⟨_, rfl, ?_, ?_⟩
    · rw [div_le_div_iff₀ hL u0, norm2_sq]; linarith
    · rw [div_le_div_iff₀ u0 hmu, norm2_sq]; linarith

/-- One pass of the loop: the residual is below the tolerance, or the next step size is between `1 / L` and `1 / mu`. -/
theorem pass (G : Good fl M lb ub mu L tol) (b : Vec n) (R : ℝ) (hR : 0 ≤ R) (ht : 10 * dblEps * (R + L) ^ 2 ≤ min mu (mu ^ 2) * tol ^ 2) (left ite mv : ℕ) (al : ℝ)
    (ha : 0 < al) (haR : 1 / al ≤ R) (xk xm : Vec n) (hist : List Hist) :
    let p := bcqp fl (fun v => M.mulVec v) b lb ub
    let x := p.proj (-al • (M.mulVec xm + b) + xm)
    ∃ r, ResidualIs p x r ∧ r ≤ (R + L) * norm2 (x - xm) ∧
      ((r < tol ∧ bbLoop p stepAlternating (fun a => a < dblEps * 10) tol (left + 1) ite mv al xk xm (M.mulVec xm + b) hist =
          .ok ⟨x, hist ++ [⟨ite + 1, al, r, mv + 1⟩], 0, x⟩) ∨
        (tol ≤ r ∧ ∃ al', 1 / L ≤ al' ∧ al' ≤ 1 / mu ∧ bbLoop p stepAlternating (fun a => a < dblEps * 10) tol (left + 1) ite mv al xk xm (M.mulVec xm + b) hist =
          bbLoop p stepAlternating (fun a => a < dblEps * 10) tol left (ite + 1) (mv + 1) al' xm x (M.mulVec x + b) (hist ++ [⟨ite + 1, al, r, mv + 1⟩]))) := by
  intro p x
  obtain ⟨q, hq, hle⟩ := resid_step G b xm al R ha haR
  refine ⟨norm2 q, ⟨q, hq, rfl⟩, hle, ?_⟩
  rcases lt_or_ge (norm2 q) tol with h | h
  · left
    refine ⟨h, ?_⟩
    rw [bbLoop]
    change (p.resid x (M.mulVec x + b) >>= _) = _
    rw [show p.resid x (M.mulVec x + b) = .ok q from hq]
    change (if |norm2 q| < tol then _ else _) = _
    rw [abs_of_nonneg (norm2_nonneg q), if_pos h]
  · right
    refine ⟨h, ?_⟩
    obtain ⟨al', h1, h2, h3⟩ := next_alpha G R hR ht (x - xm) (h.trans hle) (ite + 1)
    refine ⟨al', h2, h3, ?_⟩
    rw [bbLoop]
    change (p.resid x (M.mulVec x + b) >>= _) = _
    rw [show p.resid x (M.mulVec x + b) = .ok q from hq]
    change (if |norm2 q| < tol then _ else (stepAlternating (ite + 1) (x - xm) (M.mulVec x + b - (M.mulVec xm + b)) >>= _)) = _
    rw [abs_of_nonneg (norm2_nonneg q), if_neg (not_lt.2 h), show M.mulVec x + b - (M.mulVec xm + b) = M.mulVec (x - xm) by rw [Matrix.mulVec_sub]; abel, h1]
    change (if al' < dblEps * 10 then _ else _) = _
    have hn : ¬ al' < dblEps * 10 := by
      rw [not_lt]
      refine le_trans ?_ h2
      rw [le_div_iff₀ G.L_pos]
      linarith [G.fine]
    rw [if_neg hn]
    rfl

/-- The loop ends at the limit or with a residual below the tolerance. -/
theorem loop_ends (G : Good fl M lb ub mu L tol) (b : Vec n) (ht : 10 * dblEps * (L + L) ^ 2 ≤ min mu (mu ^ 2) * tol ^ 2) :
    ∀ (left ite mv : ℕ) (al : ℝ) (xk xm : Vec n) (hist : List Hist), 1 / L ≤ al →
      ∃ out new, bbLoop (bcqp fl (fun v => M.mulVec v) b lb ub) stepAlternating (fun a => a < dblEps * 10) tol left ite mv al xk xm (M.mulVec xm + b) hist = .ok out ∧
        out.ret = 0 ∧ out.history = hist ++ new ∧ new.length ≤ left ∧ (∀ e ∈ new.dropLast, tol ≤ e.res) ∧
        (new.length = left ∨ ∃ e ∈ new.getLast?, e.res < tol) := by
  intro left
  induction left with
  | zero =>
    intro ite mv al xk xm hist ha
    exact ⟨_, [], rfl, rfl, by simp, by simp, by simp, Or.inl rfl⟩
  | succ left ih =>
    intro ite mv al xk xm hist ha
    have hal : 0 < al := lt_of_lt_of_le (by have := G.L_pos; positivity) ha
    have haL : 1 / al ≤ L := by
      have hL := G.L_pos
      rw [div_le_iff₀ hal]; rwa [div_le_iff₀ hL, mul_comm] at ha
    obtain ⟨r, -, -, ⟨h1, h2⟩ | ⟨h1, al', h2, -, h3⟩⟩ := pass G b L G.L_pos.le ht left ite mv al hal haL xk xm hist
    · exact ⟨_, [_], h2, rfl, rfl, by simp, by simp, Or.inr ⟨_, rfl, h1⟩⟩
    · obtain ⟨out, new, k1, k2, k3, k4, k5, k6⟩ := ih (ite + 1) (mv + 1) al' xm
        ((bcqp fl (fun v => M.mulVec v) b lb ub).proj (-al • (M.mulVec xm + b) + xm)) (hist ++ [⟨ite + 1, al, r, mv + 1⟩]) h2
      refine ⟨out, ⟨ite + 1, al, r, mv + 1⟩ :: new, h3.trans k1, k2, by simp [k3], by simpa using k4, ?_, ?_⟩
      · intro e he
        rcases new with _ | ⟨e', new⟩
        · simp at he
        · rw [List.dropLast_cons₂, List.mem_cons] at he
          rcases he with rfl | he
          · exact h1
          · exact k5 e he
      · rcases k6 with k6 | ⟨e, k6, k7⟩
        · left; simp [k6]
        · right
          refine ⟨e, ?_, k7⟩
          rcases new with _ | ⟨e', new⟩
          · simp at k6
          · simpa [List.getLast?_cons_cons] using k6

/-- A step towards the minimiser. -/
theorem closer (G : Good fl M lb ub mu L tol) (b : Vec n) (hcond : L < 2 * mu) (xs : Vec n) (hin : InBox lb ub xs) (hfo : FirstOrder lb ub xs (M.mulVec xs + b)) (al : ℝ)
    (h1 : 1 / L ≤ al) (h2 : al ≤ 1 / mu) (xm : Vec n) :
    let x := (bcqp fl (fun v => M.mulVec v) b lb ub).proj (-al • (M.mulVec xm + b) + xm)
    norm2 (x - xs) ^ 2 ≤ (2 - 2 * mu / L) * norm2 (xm - xs) ^ 2 := by
  intro x
  have hL := G.L_pos
  have hal : 0 < al := lt_of_lt_of_le (by positivity) h1
  have hx : x - xs = boundProjection lb ub (-al • (M.mulVec xm + b) + xm) - boundProjection lb ub (-al • (M.mulVec xs + b) + xs) := by
    rw [fixed lb ub xs _ hin hfo al hal.le]; rfl
  have h3 := (C18_nonexpansive lb ub (-al • (M.mulVec xm + b) + xm) (-al • (M.mulVec xs + b) + xs)).2
  rw [← hx, show -al • (M.mulVec xm + b) + xm - (-al • (M.mulVec xs + b) + xs) = (xm - xs) - al • M.mulVec (xm - xs) by
    rw [Matrix.mulVec_sub]; ext i; simp; ring] at h3
  have h4 := contracts M mu L G.symm G.mu_pos hL hcond G.form al h1 h2 (xm - xs)
  calc norm2 (x - xs) ^ 2 ≤ norm2 ((xm - xs) - al • M.mulVec (xm - xs)) ^ 2 := pow_le_pow_left₀ (norm2_nonneg _) h3 2
    _ ≤ _ := by rw [norm2_sq, norm2_sq]; exact h4

theorem rate_bounds (G : Good fl M lb ub mu L tol) (hcond : L < 2 * mu) (hml : mu ≤ L) : 0 ≤ 2 - 2 * mu / L ∧ 2 - 2 * mu / L < 1 := by
  have hL := G.L_pos
  constructor
  · rw [sub_nonneg, div_le_iff₀ hL]; linarith
  · rw [sub_lt_comm, lt_div_iff₀ hL]; linarith

/-- The loop reaches the tolerance. -/
theorem loop_converges (G : Good fl M lb ub mu L tol) (b : Vec n) (hcond : L < 2 * mu) (hml : mu ≤ L) (ht : 10 * dblEps * (L + L) ^ 2 ≤ min mu (mu ^ 2) * tol ^ 2)
    (xs : Vec n) (hin : InBox lb ub xs) (hfo : FirstOrder lb ub xs (M.mulVec xs + b)) :
    ∀ (N left ite mv : ℕ) (al : ℝ) (xk xm : Vec n) (hist : List Hist) (E : ℝ), 1 / L ≤ al → al ≤ 1 / mu → norm2 (xm - xs) ^ 2 ≤ E →
      (4 * L) ^ 2 * ((2 - 2 * mu / L) ^ N * E) < tol ^ 2 → N < left →
      ∃ out, bbLoop (bcqp fl (fun v => M.mulVec v) b lb ub) stepAlternating (fun a => a < dblEps * 10) tol left ite mv al xk xm (M.mulVec xm + b) hist = .ok out ∧
        out.ret = 0 ∧ InBox lb ub out.x ∧ ∃ r, ResidualIs (bcqp fl (fun v => M.mulVec v) b lb ub) out.x r ∧ r < tol := by
  have hL := G.L_pos
  have hlu : ∀ i, lb i ≤ ub i := fun i => (G.room i).1.le.trans (G.room i).2.1
  obtain ⟨th0, th1⟩ := rate_bounds G hcond hml
  intro N
  induction N with
  | zero =>
    intro left ite mv al xk xm hist E h1 h2 hE hN hleft
    obtain ⟨left, rfl⟩ : ∃ l, left = l + 1 := ⟨left - 1, by omega⟩
    have hal : 0 < al := lt_of_lt_of_le (by positivity) h1
    have haL : 1 / al ≤ L := by rw [div_le_iff₀ hal]; rwa [div_le_iff₀ hL, mul_comm] at h1
    obtain ⟨r, hr, hle, ⟨k1, k2⟩ | ⟨k1, -⟩⟩ := pass G b L hL.le ht left ite mv al hal haL xk xm hist
    · exact ⟨_, k2, rfl, boundProjection_inBox _ _ _ hlu, r, hr, k1⟩
    · exfalso
      have hc := closer G b hcond xs hin hfo al h1 h2 xm
      set x := (bcqp fl (fun v => M.mulVec v) b lb ub).proj (-al • (M.mulVec xm + b) + xm)
      have hx : norm2 (x - xs) ≤ norm2 (xm - xs) := by
        refine le_of_abs_le (abs_le_of_sq_le_sq ?_ (norm2_nonneg _))
        refine hc.trans ?_
        have := sq_nonneg (norm2 (xm - xs))
        nlinarith
      have hd : norm2 (x - xm) ≤ norm2 (x - xs) + norm2 (xm - xs) := by
        have h3 := norm2_add_le (x - xs) (xs - xm)
        rw [sub_add_sub_cancel, show norm2 (xs - xm) = norm2 (xm - xs) by
          unfold norm2 dot; congr 1; refine Finset.sum_congr rfl fun i _ => ?_; simp only [Pi.sub_apply]; ring] at h3
        exact h3
      have h5 : tol ≤ 4 * L * norm2 (xm - xs) := by
        refine k1.trans (hle.trans ?_)
        nlinarith
      have h6 : tol ^ 2 ≤ (4 * L * norm2 (xm - xs)) ^ 2 := pow_le_pow_left₀ G.tol_pos.le h5 2
      rw [mul_pow] at h6
      rw [pow_zero, one_mul] at hN
      have : (4 * L) ^ 2 * norm2 (xm - xs) ^ 2 ≤ (4 * L) ^ 2 * E := by gcongr
      linarith
  | succ N ih =>
    intro left ite mv al xk xm hist E h1 h2 hE hN hleft
    obtain ⟨left, rfl⟩ : ∃ l, left = l + 1 := ⟨left - 1, by omega⟩
    have hal : 0 < al := lt_of_lt_of_le (by positivity) h1
    have haL : 1 / al ≤ L := by rw [div_le_iff₀ hal]; rwa [div_le_iff₀ hL, mul_comm] at h1
    obtain ⟨r, hr, hle, ⟨k1, k2⟩ | ⟨k1, al', k2, k3, k4⟩⟩ := pass G b L hL.le ht left ite mv al hal haL xk xm hist
    · exact ⟨_, k2, rfl, boundProjection_inBox _ _ _ hlu, r, hr, k1⟩
    · have hc := closer G b hcond xs hin hfo al h1 h2 xm
      rw [k4]
      refine ih left _ _ al' xm _ _ ((2 - 2 * mu / L) * E) k2 k3 (hc.trans (mul_le_mul_of_nonneg_left hE th0)) ?_ (by omega)
      rw [← mul_assoc (_ ^ N), ← pow_succ]
      exact hN

/-- The residual of the guess. -/
theorem resid_start (G : Good fl M lb ub mu L tol) (b x0 : Vec n) :
    let p := bcqp fl (fun v => M.mulVec v) b lb ub
    ∃ q, p.resid x0 (M.mulVec x0 + b) = .ok q ∧ normInf q ≤ normInf (M.mulVec x0 + b) := by
  intro p
  have h : ∀ i, ∃ q, residualAt fl (lb i) (ub i) (x0 i) ((M.mulVec x0 + b) i) = some q ∧ |q| ≤ |(M.mulVec x0 + b) i| := by
    intro i
    obtain ⟨w1, w2, w3⟩ := G.room i
    generalize (M.mulVec x0 + b) i = g
    unfold residualAt
    simp only
    split
    · refine ⟨_, rfl, ?_⟩
      rcases le_total g 0 with h | h
      · rw [min_eq_left h]
      · rw [min_eq_right h]; simp
    · split
      · refine ⟨_, rfl, ?_⟩
        rcases le_total g 0 with h | h
        · rw [max_eq_right h]; simp
        · rw [max_eq_left h]
      · rename_i h1 h2
        push Not at h1 h2
        rw [if_pos ⟨by linarith, by linarith⟩]
        exact ⟨_, rfl, le_rfl⟩
  choose q h1 h2 using h
  refine ⟨q, (check_ok fl lb ub x0 _ q).2 h1, ?_⟩
  unfold normInf
  rw [pi_norm_le_iff_of_nonneg (norm_nonneg _)]
  intro i
  rw [Real.norm_eq_abs]
  exact (h2 i).trans (norm_le_pi_norm (M.mulVec x0 + b) i)

/-- Before the loop. -/
theorem start (G : Good fl M lb ub mu L tol) (b x0 : Vec n) (R : ℝ) (hR : normInf (M.mulVec x0 + b) ≤ R) :
    let p := bcqp fl (fun v => M.mulVec v) b lb ub
    ∃ r, ResidualIs p x0 r ∧ ((r < tol ∧ ∀ (iteMax : ℕ) (hist : List Hist), solveBBPGD p x0 tol iteMax hist = .ok ⟨x0, hist ++ [⟨0, 0, r, 1⟩], 0, x0⟩) ∨
      (tol ≤ r ∧ ∃ al, 0 < al ∧ 1 / al ≤ R ∧ ∀ (iteMax : ℕ) (hist : List Hist), solveBBPGD p x0 tol iteMax hist =
        bbLoop p stepAlternating (fun a => a < dblEps * 10) tol iteMax 0 1 al x0 x0 (M.mulVec x0 + b) (hist ++ [⟨0, 0, r, 1⟩]))) := by
  intro p
  obtain ⟨q, hq, hle⟩ := resid_start G b x0
  refine ⟨norm2 q, ⟨q, hq, rfl⟩, ?_⟩
  rcases lt_or_ge (norm2 q) tol with h | h
  · left
    refine ⟨h, fun iteMax hist => ?_⟩
    unfold solveBBPGD
    change (p.resid x0 (M.mulVec x0 + b) >>= _) = _
    rw [show p.resid x0 (M.mulVec x0 + b) = .ok q from hq]
    change (if |norm2 q| < tol then _ else _) = _
    rw [abs_of_nonneg (norm2_nonneg q), if_pos h]
  · right
    have hn : 0 < normInf q := by
      unfold normInf
      rw [norm_pos_iff]
      intro h0
      have : norm2 q = 0 := (norm2_eq_zero q).2 fun i => by rw [h0]; rfl
      have := G.tol_pos
      linarith
    refine ⟨h, 1 / normInf q, by positivity, by rw [one_div_one_div]; exact hle.trans hR, fun iteMax hist => ?_⟩
    unfold solveBBPGD
    change (p.resid x0 (M.mulVec x0 + b) >>= _) = _
    rw [show p.resid x0 (M.mulVec x0 + b) = .ok q from hq]
    change (if |norm2 q| < tol then _ else (rdiv 1 (normInf q) >>= _)) = _
    rw [abs_of_nonneg (norm2_nonneg q), if_neg (not_lt.2 h)]
    unfold rdiv
    rw [if_neg hn.ne']
    rfl

end Loop

end Verif.Converge
