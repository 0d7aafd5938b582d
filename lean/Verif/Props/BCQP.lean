import Verif.Lemmas.BCQP
import Mathlib.Algebra.Order.Chebyshev
import Mathlib.Algebra.Order.Round
import Mathlib.Tactic.NormNum
import Mathlib.Algebra.BigOperators.Fin
/-! Properties C18-C21: the bound constrained quadratic program solver. -/
namespace Verif
open BCQP Spec

variable {n : ℕ}

/-! ### C18: projection -/

/-- C18: the projection lies in the box and no point of the box is nearer, in any component. -/
theorem C18_nearest (lb ub v : Vec n) (h : ∀ i, lb i ≤ ub i) :
    InBox lb ub (boundProjection lb ub v) ∧
    ∀ z, InBox lb ub z → ∀ i, |boundProjection lb ub v i - v i| ≤ |z i - v i| := by
  refine ⟨boundProjection_inBox lb ub v h, ?_⟩
  intro z hz i
  obtain ⟨h1, h2⟩ := hz i
  unfold boundProjection
  rcases le_total (v i) (lb i) with hl | hl
  · rw [max_eq_right hl, min_eq_left (h i), abs_of_nonneg (by linarith)]
    exact le_trans (by linarith) (le_abs_self _)
  · rw [max_eq_left hl]
    rcases le_total (v i) (ub i) with hu | hu
    · rw [min_eq_left hu, sub_self, abs_zero]; exact abs_nonneg _
    · rw [min_eq_right hu, abs_of_nonpos (by linarith)]
      exact le_trans (by linarith) (neg_le_abs _)

/-- C18: what is inside stays, and projecting twice is projecting once. -/
theorem C18_fixed (lb ub v : Vec n) (h : InBox lb ub v) : boundProjection lb ub v = v := by
  funext i
  unfold boundProjection
  rw [max_eq_left (h i).1, min_eq_left (h i).2]

theorem C18_idempotent (lb ub v : Vec n) (h : ∀ i, lb i ≤ ub i) :
    boundProjection lb ub (boundProjection lb ub v) = boundProjection lb ub v :=
  C18_fixed lb ub _ (boundProjection_inBox lb ub v h)

/-- C18: distances do not grow, component by component and in the 2-norm. -/
theorem C18_nonexpansive (lb ub u v : Vec n) :
    (∀ i, |boundProjection lb ub u i - boundProjection lb ub v i| ≤ |u i - v i|) ∧
    norm2 (boundProjection lb ub u - boundProjection lb ub v) ≤ norm2 (u - v) := by
  have h : ∀ i, |boundProjection lb ub u i - boundProjection lb ub v i| ≤ |u i - v i| := by
    intro i
    unfold boundProjection
    exact (abs_min_sub_min_le_max _ _ _ _).trans (by
      rw [sub_self, abs_zero]
      exact max_le ((abs_max_sub_max_le_max _ _ _ _).trans (by rw [sub_self, abs_zero]; simp)) (abs_nonneg _))
  refine ⟨h, Real.sqrt_le_sqrt (Finset.sum_le_sum (fun i _ => ?_))⟩
  have := mul_self_le_mul_self (abs_nonneg _) (h i)
  rwa [abs_mul_abs_self, abs_mul_abs_self] at this

example : ∀ i, (![0, -1] : Vec 2) i ≤ (![1, 5] : Vec 2) i := by
  rw [Fin.forall_fin_two]; simp; norm_num

/-! ### C19: residual -/

/-- C19: in exact arithmetic the residual is always computed. -/
theorem C19_defined (lb ub x y : Vec n) : ∃ q, checkProjectionResidual id lb ub x y = .ok q := check_exact lb ub x y

/-- C19, one direction: at a solution of the program the residual vanishes, provided each interval is at least as long
as the tolerance `100 ε` of the check. -/
theorem C19_zero_at_solution_partial (lb ub x g q : Vec n) (hx : InBox lb ub x)
    (hw : ∀ i, lb i + dblEps * 100 ≤ ub i) (hs : FirstOrder lb ub x g)
    (hq : checkProjectionResidual id lb ub x g = .ok q) : norm2 q = 0 := by
  rw [norm2_eq_zero]
  rw [check_ok] at hq
  have he := dblEps_pos
  intro i
  -- feasible displacement of component i alone
  have move : ∀ t, lb i ≤ t → t ≤ ub i → 0 ≤ g i * (t - x i) := by
    intro t h1 h2
    have := hs (Function.update x i t) (by
      intro j
      by_cases hj : j = i
      · subst hj; simp [h1, h2]
      · simp [hj, hx j])
    rwa [Finset.sum_eq_single i (by intro j _ hj; simp [hj]) (by simp), Function.update_self] at this
  have hi := hq i
  obtain ⟨hl, hu⟩ := hx i
  have hwi := hw i
  unfold residualAt at hi
  simp only [id] at hi
  split at hi
  · rename_i hlt
    injection hi with hi
    rw [← hi]
    have := move (ub i) (by linarith) le_rfl
    exact min_eq_right (by
      by_contra hneg
      have : g i * (ub i - x i) < 0 := mul_neg_of_neg_of_pos (not_le.mp hneg) (by linarith)
      linarith)
  · rename_i hge
    split at hi
    · injection hi with hi
      rw [← hi]
      have := move (lb i) le_rfl (by linarith)
      exact max_eq_right (by
        by_contra hneg
        have : g i * (lb i - x i) < 0 := mul_neg_of_pos_of_neg (not_le.mp hneg) (by linarith)
        linarith)
    · rename_i hle
      have hin : x i > lb i ∧ x i < ub i := ⟨by linarith, by linarith⟩
      rw [if_pos hin] at hi
      injection hi with hi
      rw [← hi]
      have h1 := move (lb i) le_rfl (by linarith)
      have h2 := move (ub i) (by linarith) le_rfl
      by_contra hne
      rcases lt_or_gt_of_ne hne with hlt | hgt
      · have : g i * (ub i - x i) < 0 := mul_neg_of_neg_of_pos hlt (by linarith)
        linarith
      · have : g i * (lb i - x i) < 0 := mul_neg_of_pos_of_neg hgt (by linarith)
        linarith

/-- C19 quantitatively: whatever the residual, no feasible `z` descends by more than the residual times its distance,
plus the tolerance `100 ε` times the sum of the gradient. -/
theorem C19_descent_bound (lb ub x g q z : Vec n) (hz : InBox lb ub z)
    (hq : checkProjectionResidual id lb ub x g = .ok q) :
    -(norm2 q * norm2 (z - x)) - dblEps * 100 * ∑ i, |g i| ≤ ∑ i, g i * (z i - x i) := by
  rw [check_ok] at hq
  have he := dblEps_pos
  have each : ∀ i, q i * (z i - x i) - dblEps * 100 * |g i| ≤ g i * (z i - x i) := by
    intro i
    have hi := hq i
    obtain ⟨hl, hu⟩ := hz i
    unfold residualAt at hi
    simp only [id] at hi
    have hab := neg_abs_le (g i)
    have hab2 := le_abs_self (g i)
    split at hi
    · rename_i hlt
      injection hi with hi
      rw [← hi]
      rcases le_total (g i) 0 with hg | hg
      · rw [min_eq_left hg]; nlinarith [abs_nonneg (g i)]
      · rw [min_eq_right hg, abs_of_nonneg hg]; nlinarith
    · split at hi
      · injection hi with hi
        rw [← hi]
        rcases le_total (g i) 0 with hg | hg
        · rw [max_eq_right hg, abs_of_nonpos hg]; nlinarith
        · rw [max_eq_left hg]; nlinarith [abs_nonneg (g i)]
      · split at hi
        · injection hi with hi
          rw [← hi]; nlinarith [abs_nonneg (g i)]
        · exact absurd hi (by simp)
  have hsum : ∑ i, q i * (z i - x i) - dblEps * 100 * ∑ i, |g i| ≤ ∑ i, g i * (z i - x i) := by
    rw [Finset.mul_sum, ← Finset.sum_sub_distrib]
    exact Finset.sum_le_sum (fun i _ => each i)
  have hcs : (∑ i, q i * (z i - x i)) ^ 2 ≤ dot q q * dot (z - x) (z - x) := by
    have := Finset.sum_mul_sq_le_sq_mul_sq Finset.univ (fun i => q i) (fun i => z i - x i)
    simpa [dot, sq] using this
  have : -(norm2 q * norm2 (z - x)) ≤ ∑ i, q i * (z i - x i) := by
    have h1 : |∑ i, q i * (z i - x i)| ≤ norm2 q * norm2 (z - x) := by
      refine abs_le_of_sq_le_sq ?_ (mul_nonneg (norm2_nonneg _) (norm2_nonneg _))
      rw [mul_pow, norm2_sq, norm2_sq]
      exact hcs
    exact (abs_le.mp h1).1
  linarith

/-- C19, other direction: if the residual vanishes and no component lies strictly within the tolerance of a bound, `x`
satisfies the first order conditions. -/
theorem C19_solution_of_zero_partial (lb ub x g q : Vec n) (hx : InBox lb ub x)
    (hsep : ∀ i, (x i = lb i ∨ lb i + dblEps * 100 ≤ x i) ∧ (x i = ub i ∨ x i ≤ ub i - dblEps * 100))
    (hq : checkProjectionResidual id lb ub x g = .ok q) (h0 : norm2 q = 0) : FirstOrder lb ub x g := by
  rw [norm2_eq_zero] at h0
  rw [check_ok] at hq
  have he := dblEps_pos
  intro z hz
  refine Finset.sum_nonneg (fun i _ => ?_)
  have hi := hq i
  rw [h0 i] at hi
  obtain ⟨hl, hu⟩ := hz i
  obtain ⟨s1, s2⟩ := hsep i
  unfold residualAt at hi
  simp only [id] at hi
  split at hi
  · rename_i hlt
    injection hi with hi
    have : 0 ≤ g i := by rw [← hi]; exact min_le_left _ _
    rcases s1 with s1 | s1
    · exact mul_nonneg this (by linarith)
    · linarith
  · split at hi
    · rename_i hgt
      injection hi with hi
      have : g i ≤ 0 := by rw [← hi]; exact le_max_left _ _
      rcases s2 with s2 | s2
      · exact mul_nonneg_of_nonpos_of_nonpos this (by linarith)
      · linarith
    · split at hi
      · injection hi with hi
        rw [hi]; simp
      · exact absurd hi (by simp)

/-- C19: first order points of a symmetric positive semidefinite program are its minimisers. -/
theorem C19_minimises (M : Matrix (Fin n) (Fin n) ℝ) (hM : M.transpose = M) (hp : PosSemi M) (b lb ub x : Vec n)
    (hs : FirstOrder lb ub x (M.mulVec x + b)) (z : Vec n) (hz : InBox lb ub z) :
    objective M b x ≤ objective M b z := by
  have h1 := hs z hz
  have h2 := objective_shift M hM b x (z - x)
  rw [add_sub_cancel] at h2
  have h3 := hp (z - x)
  have e1 : objective M b z = dot z (M.mulVec z) * (1 / 2) + dot z b := by
    unfold objective dot; rw [mul_comm]; congr 1; exact Finset.sum_congr rfl (fun i _ => mul_comm _ _)
  have e2 : objective M b x = dot x (M.mulVec x) * (1 / 2) + dot x b := by
    unfold objective dot; rw [mul_comm]; congr 1; exact Finset.sum_congr rfl (fun i _ => mul_comm _ _)
  have e3 : dot (b + M.mulVec x) (z - x) = ∑ i, (M.mulVec x + b) i * (z i - x i) := by
    unfold dot; exact Finset.sum_congr rfl (fun i _ => by simp only [Pi.add_apply, Pi.sub_apply]; ring)
  have e4 : dot (z - x) (M.mulVec (z - x)) = ∑ i, (z - x) i * (M.mulVec (z - x)) i := rfl
  rw [e1, e2, h2, e3, e4]
  linarith

/-- C19: the residual bounds how far the objective is from its minimum. -/
theorem C19_near_minimum (M : Matrix (Fin n) (Fin n) ℝ) (hM : M.transpose = M) (hp : PosSemi M) (b lb ub x q : Vec n)
    (hq : checkProjectionResidual id lb ub x (M.mulVec x + b) = .ok q) (z : Vec n) (hz : InBox lb ub z) :
    objective M b x ≤ objective M b z + norm2 q * norm2 (z - x) + dblEps * 100 * ∑ i, |(M.mulVec x + b) i| := by
  have h1 := C19_descent_bound lb ub x _ q z hz hq
  have h2 := objective_shift M hM b x (z - x)
  rw [add_sub_cancel] at h2
  have h3 := hp (z - x)
  have e1 : objective M b z = dot z (M.mulVec z) * (1 / 2) + dot z b := by
    unfold objective dot; rw [mul_comm]; congr 1; exact Finset.sum_congr rfl (fun i _ => mul_comm _ _)
  have e2 : objective M b x = dot x (M.mulVec x) * (1 / 2) + dot x b := by
    unfold objective dot; rw [mul_comm]; congr 1; exact Finset.sum_congr rfl (fun i _ => mul_comm _ _)
  have e3 : dot (b + M.mulVec x) (z - x) = ∑ i, (M.mulVec x + b) i * (z i - x i) := by
    unfold dot; exact Finset.sum_congr rfl (fun i _ => by simp only [Pi.add_apply, Pi.sub_apply]; ring)
  have e4 : dot (z - x) (M.mulVec (z - x)) = ∑ i, (z - x) i * (M.mulVec (z - x)) i := rfl
  rw [e1, e2, h2, e3, e4]
  linarith

example : InBox (![0, 0] : Vec 2) ![1, 1] ![0, 1] ∧
    (∀ i, (![0, 0] : Vec 2) i + dblEps * 100 ≤ (![1, 1] : Vec 2) i) ∧
    FirstOrder (![0, 0] : Vec 2) ![1, 1] ![0, 1] ![3, -2] ∧
    ∃ q, checkProjectionResidual id (![0, 0] : Vec 2) ![1, 1] ![0, 1] ![3, -2] = .ok q := by
  refine ⟨?_, ?_, ?_, check_exact _ _ _ _⟩
  · unfold InBox; rw [Fin.forall_fin_two]; simp
  · rw [Fin.forall_fin_two]; simp [dblEps]; norm_num
  · intro z hz
    have h0 := hz 0
    have h1 := hz 1
    simp at h0 h1
    simp [Fin.sum_univ_two]
    linarith

/-- C19 is false for a component whose bounds coincide: the only feasible point is the solution, yet its residual is not
zero when the gradient is negative. -/
theorem C19_equal_bounds_false : ∃ (lb ub x g q : Vec 1), InBox lb ub x ∧ FirstOrder lb ub x g ∧
    checkProjectionResidual id lb ub x g = .ok q ∧ norm2 q ≠ 0 := by
  refine ⟨fun _ => 0, fun _ => 0, fun _ => 0, fun _ => -1, fun _ => -1, fun i => ⟨le_rfl, le_rfl⟩, ?_, ?_, ?_⟩
  · intro z hz
    have h := hz 0
    have : z 0 = 0 := le_antisymm h.2 h.1
    simp [this]
  · rw [check_ok]
    intro i
    have := dblEps_pos
    unfold residualAt
    simp only [id]
    rw [if_pos (by linarith)]
    simp
  · rw [Ne, norm2_eq_zero]
    simp

/-- C19 is false just inside a bound: the residual can be zero although a descent direction is open. -/
theorem C19_inside_tolerance_false : ∃ (lb ub x g q : Vec 1), InBox lb ub x ∧
    checkProjectionResidual id lb ub x g = .ok q ∧ norm2 q = 0 ∧ ¬ FirstOrder lb ub x g := by
  have he := dblEps_pos
  have hs : dblEps < 1 := by unfold dblEps; norm_num
  refine ⟨fun _ => 0, fun _ => 1, fun _ => dblEps, fun _ => 1, fun _ => 0, fun i => ⟨he.le, hs.le⟩, ?_, ?_, ?_⟩
  · rw [check_ok]
    intro i
    unfold residualAt
    simp only [id]
    rw [if_pos (by linarith)]
    simp
  · rw [norm2_eq_zero]; simp
  · intro h
    have := h (fun _ => 0) (fun i => ⟨le_rfl, zero_le_one⟩)
    simp at this
    linarith

/-- With rounding the check can end the program: if the bound absorbs the tolerance (`fl (lb + 100 ε) = lb`, which for
doubles happens from magnitude 256 on), a vector with a component exactly on that bound is a "projection error". -/
theorem C19_rounding_exit (fl : ℝ → ℝ) (lb ub x y : Vec n) (i : Fin n) (h1 : fl (lb i + dblEps * 100) = lb i)
    (h2 : lb i ≤ fl (ub i - dblEps * 100)) (hx : x i = lb i) :
    checkProjectionResidual fl lb ub x y = .error .undefined := by
  unfold checkProjectionResidual
  rw [if_pos]
  refine ⟨i, ?_⟩
  unfold residualAt
  simp only [hx, h1]
  rw [if_neg (lt_irrefl _), if_neg (not_lt.mpr h2), if_neg (fun h => lt_irrefl _ h.1)]

/-- Rounding to the nearest multiple of `2^-44`, the spacing of doubles between 256 and 512, absorbs the tolerance. -/
example : let fl : ℝ → ℝ := fun v => (round (v * 2 ^ 44) : ℤ) / 2 ^ 44
    fl (300 + dblEps * 100) = 300 ∧ (300 : ℝ) ≤ fl (400 - dblEps * 100) := by
  intro fl
  have e1 : round ((300 + dblEps * 100) * 2 ^ 44 : ℝ) = 300 * 2 ^ 44 := by
    rw [round_eq, Int.floor_eq_iff]
    constructor <;> (unfold dblEps; push_cast; norm_num)
  have e2 : round ((400 - dblEps * 100) * 2 ^ 44 : ℝ) = 400 * 2 ^ 44 := by
    rw [round_eq, Int.floor_eq_iff]
    constructor <;> (unfold dblEps; push_cast; norm_num)
  refine ⟨?_, ?_⟩
  · simp only [fl, e1]; push_cast; norm_num
  · simp only [fl, e2]; push_cast; norm_num

/-! ### C20: BBPGD -/

/-- C20, as far as it holds.  Whatever the operator and the rounding in the check: the vector returned satisfies the
bounds unless it is the initial guess itself; at most `iteMax` entries follow the first in the history; if the last
reported residual is below the tolerance, or the solver reports stagnation, it is the residual of the returned vector;
and the solver does not stop early otherwise.  Missing: after `iteMax` iterations without convergence (return code 0) the
reported residual is not that of the returned vector (`C20_exhausted`, `C20_false`). -/
theorem C20_bbpgd_partial (fl : ℝ → ℝ) (A : Vec n → Vec n) (b lb ub x0 : Vec n) (hb : ∀ i, lb i ≤ ub i) (tol : ℝ)
    (iteMax : ℕ) (hist : List Hist) (out : Out n)
    (h : solveBBPGD (bcqp fl A b lb ub) x0 tol iteMax hist = .ok out) :
    (InBox lb ub out.x ∨ out.x = x0) ∧
    ∃ pre last, out.history = hist ++ (pre ++ [last]) ∧ pre.length ≤ iteMax ∧ (∀ e ∈ pre, tol ≤ e.res) ∧
      (last.res < tol ∨ out.ret = 1 → ResidualIs (bcqp fl A b lb ub) out.x last.res) ∧
      (out.ret = 0 ∨ out.ret = 1) ∧
      (out.ret = 0 → tol ≤ last.res → pre.length = iteMax) := by
  unfold solveBBPGD at h
  simp only [bind_ok] at h
  obtain ⟨q, hq, h⟩ := h
  have hnn : |norm2 q| = norm2 q := abs_of_nonneg (norm2_nonneg q)
  rw [hnn] at h
  have hR : ResidualIs (bcqp fl A b lb ub) x0 (norm2 q) := ⟨q, hq, rfl⟩
  split at h
  · rename_i hlt
    injection h with h
    subst h
    exact ⟨Or.inr rfl, [], _, rfl, by simp, by simp, fun _ => hR, Or.inl rfl, fun _ h => absurd hlt (not_lt.mpr h)⟩
  · rename_i hlt
    simp only [bind_ok] at h
    obtain ⟨a, -, h⟩ := h
    obtain ⟨h1, new, hn, hl, hc⟩ := bbLoop_spec (bcqp fl A b lb ub) _ _ tol (fun x => InBox lb ub x ∨ x = x0)
      (fun v => Or.inl (boundProjection_inBox lb ub v hb)) iteMax _ _ _ _ _ _ _ _ rfl (Or.inr rfl) (Or.inr rfl)
      ⟨hist, _, rfl, hR⟩ h
    refine ⟨h1, ?_⟩
    rcases hc with ⟨hr, pre, last, e, hlast, hres, -, hp⟩ | ⟨hr, pre, last, e, hlast, hres, -, hp⟩ |
      ⟨hr, e, hp, hx, hx2⟩
    · refine ⟨⟨0, 0, norm2 q, 1⟩ :: pre, last, by rw [hn, e]; simp, ?_, ?_, fun _ => hres, Or.inl hr,
        fun _ h => absurd hlast (not_lt.mpr h)⟩
      · rw [e] at hl; simpa using hl
      · intro e' he'
        rcases List.mem_cons.mp he' with rfl | he'
        · exact not_lt.mp hlt
        · exact hp e' he'
    · refine ⟨⟨0, 0, norm2 q, 1⟩ :: pre, last, by rw [hn, e]; simp, ?_, ?_, fun _ => hres, Or.inr hr,
        fun h => absurd h (by omega)⟩
      · rw [e] at hl; simpa using hl
      · intro e' he'
        rcases List.mem_cons.mp he' with rfl | he'
        · exact not_lt.mp hlt
        · exact hp e' he'
    · rcases List.eq_nil_or_concat' new with rfl | ⟨pre, last, rfl⟩
      · simp at e
        subst e
        refine ⟨[], ⟨0, 0, norm2 q, 1⟩, by rw [hn]; simp, by simp, by simp, fun _ => ?_, Or.inl hr, fun _ _ => rfl⟩
        rw [hx rfl]
        exact hR
      · refine ⟨⟨0, 0, norm2 q, 1⟩ :: pre, last, by rw [hn]; simp, by simpa using hl, ?_, ?_, Or.inl hr,
          fun _ _ => by simpa using e⟩
        · intro e' he'
          rcases List.mem_cons.mp he' with rfl | he'
          · exact not_lt.mp hlt
          · exact hp e' (by simp [he'])
        · rintro (h' | h')
          · exact absurd h' (not_lt.mpr (hp last (by simp)))
          · omega

/-- C20: a feasible initial guess gives a feasible result. -/
theorem C20_feasible (fl : ℝ → ℝ) (A : Vec n → Vec n) (b lb ub x0 : Vec n) (hb : ∀ i, lb i ≤ ub i)
    (hx0 : InBox lb ub x0) (tol : ℝ) (iteMax : ℕ) (hist : List Hist) (out : Out n)
    (h : solveBBPGD (bcqp fl A b lb ub) x0 tol iteMax hist = .ok out) : InBox lb ub out.x := by
  rcases (C20_bbpgd_partial fl A b lb ub x0 hb tol iteMax hist out h).1 with h | h
  · exact h
  · rw [h]; exact hx0

/-- C20: when `iteMax > 0` iterations pass without convergence or stagnation, the vector returned is the one before the
last: its residual is the last but one of the history. -/
theorem C20_exhausted (fl : ℝ → ℝ) (A : Vec n → Vec n) (b lb ub x0 : Vec n) (tol : ℝ)
    (iteMax : ℕ) (hi : 0 < iteMax) (hist : List Hist) (out : Out n)
    (h : solveBBPGD (bcqp fl A b lb ub) x0 tol iteMax hist = .ok out) (hr : out.ret = 0) (last : Hist)
    (hl : out.history.getLast? = some last) (ht : tol ≤ last.res) :
    ∃ pre h1, out.history = pre ++ [h1, last] ∧ ResidualIs (bcqp fl A b lb ub) out.x h1.res := by
  unfold solveBBPGD at h
  simp only [bind_ok] at h
  obtain ⟨q, hq, h⟩ := h
  have hnn : |norm2 q| = norm2 q := abs_of_nonneg (norm2_nonneg q)
  rw [hnn] at h
  have hR : ResidualIs (bcqp fl A b lb ub) x0 (norm2 q) := ⟨q, hq, rfl⟩
  split at h
  · rename_i hlt
    injection h with h
    subst h
    simp at hl
    subst hl
    exact absurd hlt (not_lt.mpr ht)
  · simp only [bind_ok] at h
    obtain ⟨a, -, h⟩ := h
    obtain ⟨-, new, hn, -, hc⟩ := bbLoop_spec (bcqp fl A b lb ub) _ _ tol (fun _ => True) (fun _ => trivial) iteMax
      _ _ _ _ _ _ _ _ rfl trivial trivial ⟨hist, _, rfl, hR⟩ h
    rcases hc with ⟨-, pre, l, e, hlast, -⟩ | ⟨hr', -⟩ | ⟨-, -, -, -, hx2⟩
    · rw [hn, e, ← List.append_assoc, List.getLast?_append] at hl
      simp at hl
      subst hl
      exact absurd hlast (not_lt.mpr ht)
    · omega
    · obtain ⟨pre, h1, h2, e, hres⟩ := hx2 hi
      rw [e] at hl
      have : h2 = last := by simpa using hl
      subst this
      exact ⟨pre, h1, e, hres⟩

/-- When the solve converges or stagnates the operator was last applied to the returned vector. -/
theorem bbpgd_applied (p : Problem n) (x0 : Vec n) (tol : ℝ) (iteMax : ℕ) (hist : List Hist) (out : Out n)
    (h : solveBBPGD p x0 tol iteMax hist = .ok out) (last : Hist) (hlast : out.history.getLast? = some last)
    (hc : last.res < tol ∨ out.ret = 1) : out.applied = out.x := by
  unfold solveBBPGD at h
  simp only [bind_ok] at h
  obtain ⟨q, hq, h⟩ := h
  have hnn : |norm2 q| = norm2 q := abs_of_nonneg (norm2_nonneg q)
  rw [hnn] at h
  split at h
  · injection h with h
    subst h
    rfl
  · rename_i hlt
    simp only [bind_ok] at h
    obtain ⟨a, -, h⟩ := h
    obtain ⟨-, new, hn, -, hc'⟩ := bbLoop_spec p _ _ tol (fun _ => True) (fun _ => trivial) iteMax
      _ _ _ _ _ _ _ _ rfl trivial trivial ⟨hist, _, rfl, ⟨q, hq, rfl⟩⟩ h
    rcases hc' with ⟨-, pre, l, e, -, -, hap, -⟩ | ⟨-, pre, l, e, -, -, hap, -⟩ | ⟨hr, -, hp, -⟩
    · exact hap
    · exact hap
    · rcases hc with hc | hc
      · rcases List.eq_nil_or_concat' new with rfl | ⟨pre, l, rfl⟩
        · rw [hn] at hlast
          simp at hlast
          rw [← hlast] at hc
          exact absurd hc hlt
        · rw [hn, ← List.append_assoc, List.getLast?_append] at hlast
          have : l = last := by simpa using hlast
          subst this
          exact absurd hc (not_lt.mpr (hp l (by simp)))
      · omega

/-- C20: with exact arithmetic and a positive tolerance the solver always returns. -/
theorem C20_returns (A : Vec n → Vec n) (b lb ub x0 : Vec n) (tol : ℝ) (htol : 0 < tol) (iteMax : ℕ)
    (hist : List Hist) : ∃ out, solveBBPGD (bcqp id A b lb ub) x0 tol iteMax hist = .ok out := by
  unfold solveBBPGD
  simp only
  obtain ⟨q, hq⟩ := check_exact lb ub x0 (A x0 + b)
  have hq' : (bcqp id A b lb ub).resid x0 ((bcqp id A b lb ub).A x0 + (bcqp id A b lb ub).b) = .ok q := hq
  rw [hq']
  show ∃ out, (if |norm2 q| < tol then _ else _) = _
  split
  · exact ⟨_, rfl⟩
  · rename_i hlt
    have hne : normInf q ≠ 0 := by
      intro h0
      have : q = 0 := norm_eq_zero.mp h0
      apply hlt
      rw [this, (norm2_eq_zero (0 : Vec n)).mpr (fun i => rfl), abs_zero]
      exact htol
    have : rdiv 1 (normInf q) = .ok (1 / normInf q) := by unfold rdiv; rw [if_neg hne]
    rw [this]
    exact bbLoop_terminates _ _ _ tol (fun x y => check_exact lb ub x y) stepAlternating_ok _ _ _ _ _ _ _ _

example : ∃ out, solveBBPGD (bcqp id (fun x => x) (fun _ => -1) (fun _ => 0) (fun _ => 10)) (fun _ : Fin 3 => 5) (1 / 2)
    7 [] = .ok out := C20_returns _ _ _ _ _ _ (by norm_num) _ _

theorem norm2_one (c : ℝ) : norm2 (fun _ : Fin 1 => c) = |c| := by
  unfold norm2 dot
  simp [Real.sqrt_mul_self_eq_abs]

theorem normInf_one (c : ℝ) : normInf (fun _ : Fin 1 => c) = |c| := by
  unfold normInf
  rw [pi_norm_const, Real.norm_eq_abs]

/-- The problem with one unknown of the refutations below: minimise `½ x² - x` for `0 ≤ x ≤ u`. -/
noncomputable def demo (u : ℝ) : Problem 1 := bcqp id (fun x => x) (fun _ => -1) (fun _ => 0) (fun _ => u)

theorem demo_resid_inner (u x y : ℝ) (hu : 10 ≤ u) (h1 : 1 ≤ x) (h2 : x ≤ 9) :
    (demo u).resid (fun _ => x) (fun _ => y) = .ok (fun _ => y) := by
  have : dblEps * 100 ≤ 1 := by unfold dblEps; norm_num
  have := dblEps_pos
  show checkProjectionResidual _ _ _ _ _ = _
  rw [check_ok]
  intro i
  unfold residualAt
  simp only [id]
  rw [if_neg (by linarith), if_neg (by linarith), if_pos (by constructor <;> linarith)]

theorem demo_grad (u x : ℝ) : (demo u).A (fun _ => x) + (demo u).b = fun _ => x - 1 := by
  funext i; simp [demo, bcqp]; ring

theorem demo_proj (u x : ℝ) (h0 : 0 ≤ x) (h1 : x ≤ u) : (demo u).proj (fun _ => x) = fun _ => x := by
  funext i; simp [demo, bcqp, boundProjection, h0, h1]

theorem demo_run (u : ℝ) (hu : 10 ≤ u) : solveBBPGD (demo u) (fun _ => 5) (1 / 2) 1 [] =
    .ok ⟨fun _ => 5, [⟨0, 0, 4, 1⟩, ⟨1, 1 / 4, 3, 2⟩], 0, fun _ => 4⟩ := by
  have e0 : (demo u).resid (fun _ => 5) (fun _ => 5 - 1) = .ok (fun _ => 5 - 1) :=
    demo_resid_inner u _ _ hu (by norm_num) (by norm_num)
  have e1 : (demo u).resid (fun _ => 4) (fun _ => 4 - 1) = .ok (fun _ => 4 - 1) :=
    demo_resid_inner u _ _ hu (by norm_num) (by norm_num)
  have n0 : norm2 (fun _ : Fin 1 => (5 - 1 : ℝ)) = 4 := by rw [norm2_one]; norm_num
  have n1 : norm2 (fun _ : Fin 1 => (4 - 1 : ℝ)) = 3 := by rw [norm2_one]; norm_num
  have i0 : rdiv 1 (normInf (fun _ : Fin 1 => (5 - 1 : ℝ))) = .ok (1 / 4) := by
    rw [normInf_one]; unfold rdiv; norm_num
  have p0 : (demo u).proj (-(1 / 4 : ℝ) • (fun _ : Fin 1 => (5 - 1 : ℝ)) + fun _ => 5) = fun _ => 4 := by
    rw [show (-(1 / 4 : ℝ) • (fun _ : Fin 1 => (5 - 1 : ℝ)) + fun _ => (5 : ℝ)) = fun _ => (4 : ℝ) from by
      funext i; simp; norm_num]
    exact demo_proj u 4 (by norm_num) (by linarith)
  obtain ⟨a, ha⟩ := stepAlternating_ok (0 + 1) ((fun _ : Fin 1 => (4 : ℝ)) - fun _ => 5)
    ((fun _ : Fin 1 => (4 - 1 : ℝ)) - fun _ => 5 - 1)
  have hns : ¬ a < dblEps * 10 := by
    have d1 : dot ((fun _ : Fin 1 => (4 : ℝ)) - fun _ => 5) ((fun _ : Fin 1 => (4 - 1 : ℝ)) - fun _ => 5 - 1) = 1 := by
      unfold dot; simp; norm_num
    have d2 : norm2 ((fun _ : Fin 1 => (4 - 1 : ℝ)) - fun _ => 5 - 1) ^ 2 = 1 := by
      rw [norm2_sq]; unfold dot; simp; norm_num
    unfold stepAlternating rdiv at ha
    simp only [d1, d2] at ha
    unfold dblEps at *
    norm_num at ha
    rw [← ha]
    norm_num
  unfold solveBBPGD
  simp only [demo_grad, e0]
  show (if |norm2 (fun _ : Fin 1 => (5 - 1 : ℝ))| < 1 / 2 then _ else _) = _
  rw [n0, if_neg (by norm_num), i0]
  show bbLoop (demo u) stepAlternating (fun a => a < dblEps * 10) (1 / 2) (0 + 1) 0 1 (1 / 4) (fun _ => 5) (fun _ => 5)
    (fun _ => 5 - 1) [⟨0, 0, 4, 1⟩] = _
  unfold bbLoop
  simp only [p0, demo_grad, e1]
  show (if |norm2 (fun _ : Fin 1 => (4 - 1 : ℝ))| < 1 / 2 then _ else _) = _
  rw [n1, if_neg (by norm_num), ha]
  show (if a < dblEps * 10 then _ else _) = _
  rw [if_neg hns]
  unfold bbLoop
  rfl

/-- C20 as stated is false: after the iteration limit the solver returns the previous iterate (5, residual 4) while the
history ends with the residual 3 of the discarded iterate 4. -/
theorem C20_false : ∃ (x0 : Vec 1) (out : Out 1) (last : Hist), InBox (fun _ => 0) (fun _ => 10) x0 ∧
    solveBBPGD (demo 10) x0 (1 / 2) 1 [] = .ok out ∧ out.ret = 0 ∧ out.history.getLast? = some last ∧
    ¬ ResidualIs (demo 10) out.x last.res := by
  refine ⟨fun _ => 5, ⟨fun _ => 5, [⟨0, 0, 4, 1⟩, ⟨1, 1 / 4, 3, 2⟩], 0, fun _ => 4⟩, ⟨1, 1 / 4, 3, 2⟩,
    fun i => ⟨by norm_num, by norm_num⟩, demo_run 10 le_rfl, rfl, rfl, ?_⟩
  rintro ⟨q, hq, hr⟩
  simp only at hq hr
  rw [demo_grad, demo_resid_inner _ _ _ le_rfl (by norm_num) (by norm_num)] at hq
  injection hq with hq
  rw [← hq, norm2_one] at hr
  norm_num at hr

/-- C20 as stated is false for an infeasible initial guess: with no iteration allowed, it is returned as it is; and also
when its residual happens to be small, whatever the limit (`C20_guess_false`). -/
theorem C20_guess_false : ∃ (lb ub b x0 : Vec 1) (out : Out 1),
    solveBBPGD (bcqp id (fun x => x) b lb ub) x0 (1 / 2) 100 [] = .ok out ∧ ¬ InBox lb ub out.x := by
  have he := dblEps_pos
  refine ⟨fun _ => 0, fun _ => 10, fun _ => 20, fun _ => -5, ⟨fun _ => -5, [⟨0, 0, 0, 1⟩], 0, fun _ => -5⟩, ?_, ?_⟩
  · have e0 : checkProjectionResidual id (fun _ : Fin 1 => 0) (fun _ => 10) (fun _ => -5)
        ((fun _ => -5) + fun _ => 20) = .ok (fun _ => 0) := by
      rw [check_ok]
      intro i
      unfold residualAt
      simp only [id]
      rw [if_pos (by linarith)]
      simp; norm_num
    unfold solveBBPGD
    simp only [bcqp, e0]
    have : norm2 (fun _ : Fin 1 => (0 : ℝ)) = 0 := by rw [norm2_one]; simp
    show (if |norm2 (fun _ : Fin 1 => (0 : ℝ))| < 1 / 2 then _ else _) = _
    rw [this, if_pos (by norm_num)]
    rfl
  · intro h
    have := (h 0).1
    simp at this
    linarith

/-! ### C21: APGD -/

/-- C21, as far as it holds: once an iteration has completed (and produced a residual below the largest double), the
vector returned is within the bounds and its residual is the smallest of those of the iterations, i.e. of all entries
after the first one (which records 0 for a residual that was not computed); if the last residual is below the tolerance it
is that one.  Missing: without a completed iteration the vector of ones is returned (`C21_false`). -/
theorem C21_apgd_partial (fl : ℝ → ℝ) (A : Vec n → Vec n) (b lb ub x0 : Vec n) (hb : ∀ i, lb i ≤ ub i) (tol : ℝ)
    (fuel iteMax : ℕ) (hist : List Hist) (out : Out n)
    (h : solveAPGD (bcqp fl A b lb ub) fuel x0 tol iteMax hist = .ok out) :
    ∃ first new, out.history = hist ++ (first :: new) ∧ new.length ≤ iteMax ∧
      ((∃ e ∈ new, e.res < dblMax) → InBox lb ub out.x ∧
        ∃ r, ResidualIs (bcqp fl A b lb ub) out.x r ∧ SmallestRes r new ∧
          ∀ last, new.getLast? = some last → last.res < tol → r = last.res) := by
  unfold solveAPGD apgd at h
  simp only [bind_ok] at h
  obtain ⟨Lk, -, tk, -, h⟩ := h
  rw [← List.append_nil (hist ++ _)] at h
  obtain ⟨new, rm, hn, hl, hbest, hc⟩ := apLoop_spec (bcqp fl A b lb ub) _ tol fuel (InBox lb ub)
    (fun v => boundProjection_inBox lb ub v hb) iteMax _ _ _ _ _ _ _ _ _ _ _ [] out
    (Or.inl ⟨fun _ => rfl, rfl, by simp⟩) (by simp) h
  rw [List.nil_append] at hn hbest
  refine ⟨_, new, by rw [hn, List.append_assoc]; rfl, hl, ?_⟩
  rintro ⟨e, he, hlt⟩
  rcases hbest with ⟨-, -, hall⟩ | ⟨h1, h2, h3⟩
  · exact absurd hlt (not_lt.mpr (hall e he))
  · refine ⟨h1, rm, h2, h3, ?_⟩
    intro last hlast ht
    obtain ⟨⟨e0, he0, hr0⟩, hmin⟩ := h3
    rcases hc with ⟨-, pre, l, e, hll, -, -, hp⟩ | ⟨-, hp⟩ | ⟨-, -, hp⟩
    · rw [e] at hlast he0 hmin
      have : l = last := by simpa using hlast
      subst this
      rcases List.mem_append.mp he0 with he0 | he0
      · have h4 := hp e0 (by simpa using he0)
        have h5 := hmin l (by simp)
        linarith
      · rw [← hr0, List.mem_singleton.mp he0]
    · have := hp last (by simpa using List.mem_of_getLast? hlast)
      linarith
    · have := hp last (by simpa using List.mem_of_getLast? hlast)
      linarith

/-- C21: for a symmetric matrix, with exact arithmetic, and an initial guess from which the first step size is defined,
the solver returns: the unbounded inner loop ends after a number of passes depending only on the problem. -/
theorem C21_returns (M : Matrix (Fin n) (Fin n) ℝ) (hM : M.transpose = M) (b lb ub x0 : Vec n) (tol : ℝ) (iteMax : ℕ)
    (hist : List Hist) (hx0 : M.mulVec (x0 - fun _ => 1) ≠ 0) :
    ∃ fuel out, solveAPGD (bcqp id M.mulVec b lb ub) fuel x0 tol iteMax hist = .ok out :=
  apgd_returns (bcqp id M.mulVec b lb ub) M hM (fun _ => rfl) (fun x y => check_exact lb ub x y) _ x0 tol iteMax hist hx0

example : ∃ (M : Matrix (Fin 2) (Fin 2) ℝ) (x0 : Vec 2), M.transpose = M ∧ M.mulVec (x0 - fun _ => 1) ≠ 0 := by
  refine ⟨1, 0, Matrix.transpose_one, fun h => ?_⟩
  have := congrFun h 0
  simp at this

/-- C21 as stated is false: with no iteration allowed the vector of ones is returned, outside the bounds. -/
theorem C21_false : ∃ (lb ub b x0 : Vec 1) (out : Out 1), InBox lb ub x0 ∧
    solveAPGD (bcqp id (fun x => x) b lb ub) 1 x0 (1 / 2) 0 [] = .ok out ∧ out.ret = 0 ∧ ¬ InBox lb ub out.x := by
  refine ⟨fun _ => 2, fun _ => 3, fun _ => 0, fun _ => 2, ⟨fun _ => 1, [⟨0, 1, 0, 1⟩], 0, fun _ => 1⟩,
    fun i => ⟨by norm_num, by norm_num⟩, ?_, rfl, ?_⟩
  · unfold solveAPGD apgd
    simp only [bcqp]
    have e : (-(fun _ => 1 : Vec 1) + fun _ => 2) = fun _ => (1 : ℝ) := by funext i; simp; norm_num
    rw [e, norm2_one]
    have r : rdiv |1| |1| = .ok 1 := by unfold rdiv; norm_num
    have r' : rdiv 1 1 = .ok 1 := by unfold rdiv; norm_num
    rw [r]
    show (rdiv 1 1 >>= _) = _
    rw [r']
    show apLoop _ _ _ _ _ _ _ _ _ _ _ _ _ _ _ _ = _
    unfold apLoop
    rfl
  · intro h
    have := (h 0).1
    norm_num at this

/-- C21: from the initial guess of ones the first step size is `0/0`; the run has no defined result. -/
theorem C21_ones_undefined (p : Problem n) (fuel : ℕ) (tol : ℝ) (iteMax : ℕ) (hist : List Hist) :
    solveAPGD p fuel (fun _ => 1) tol iteMax hist = .error .undefined := by
  unfold solveAPGD apgd
  simp only
  have e : (-(fun _ => 1 : Vec n) + fun _ => 1) = 0 := neg_add_cancel _
  rw [e, (norm2_eq_zero (0 : Vec n)).mpr (fun i => rfl)]
  unfold rdiv
  rw [if_pos rfl]
  rfl

end Verif
