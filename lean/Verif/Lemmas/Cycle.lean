import Verif.Lemmas.BCQP
import Mathlib.Data.Rat.Cast.Order
import Mathlib.Logic.Function.Iterate
import Mathlib.Algebra.Order.Ring.Unbundled.Rat
import Mathlib.Data.Fin.VecNotation
import Mathlib.Algebra.BigOperators.Fin
import Mathlib.Tactic.NormNum
import Mathlib.Tactic.FinCases
import Mathlib.Tactic.Linarith
/-!
A run of `solveBBPGD` on a problem with two unknowns `≥ 0` and rational data, followed exactly: `next` computes the
iterates with rational numbers, `bbLoop_next` says that the loop of the model does the same.
-/
namespace Verif.Cycle
open Verif.BCQP

/-- The data of a problem: the matrix `[[a00, a01], [a01, a11]]` and the vector `(b0, b1)`. -/
structure QP where
  (a00 a01 a11 b0 b1 : ℚ)

/-- What the loop carries: the parity of the count, the step size, the iterate. -/
structure St where
  (odd : Bool) (al x y : ℚ)
deriving DecidableEq

def QP.g0 (d : QP) (x y : ℚ) : ℚ := d.a00 * x + d.a01 * y + d.b0
def QP.g1 (d : QP) (x y : ℚ) : ℚ := d.a01 * x + d.a11 * y + d.b1

def QP.nx (d : QP) (s : St) : ℚ := max (s.x - s.al * d.g0 s.x s.y) 0
def QP.ny (d : QP) (s : St) : ℚ := max (s.y - s.al * d.g1 s.x s.y) 0

def QP.ss (d : QP) (s : St) : ℚ := (d.nx s - s.x) * (d.nx s - s.x) + (d.ny s - s.y) * (d.ny s - s.y)
def QP.h0 (d : QP) (s : St) : ℚ := d.g0 (d.nx s) (d.ny s) - d.g0 s.x s.y
def QP.h1 (d : QP) (s : St) : ℚ := d.g1 (d.nx s) (d.ny s) - d.g1 s.x s.y
def QP.sh (d : QP) (s : St) : ℚ := (d.nx s - s.x) * d.h0 s + (d.ny s - s.y) * d.h1 s
def QP.hh (d : QP) (s : St) : ℚ := d.h0 s * d.h0 s + d.h1 s * d.h1 s

/-- One iteration. -/
def QP.next (d : QP) (s : St) : St :=
  ⟨!s.odd, if s.odd then d.ss s / d.sh s else d.sh s / d.hh s, d.nx s, d.ny s⟩

/-- The residual of a component: `x` is 0 or well above 0. -/
def QP.r (x g : ℚ) : ℚ := if x = 0 then min g 0 else g

/-- The length of the residual vector at `(x, y)`, squared. -/
def QP.rr (d : QP) (x y : ℚ) : ℚ :=
  QP.r x (d.g0 x y) * QP.r x (d.g0 x y) + QP.r y (d.g1 x y) * QP.r y (d.g1 x y)

/-- A component is 0 or well above 0, and not large. -/
def clear (x : ℚ) : Bool := (x == 0 || decide (1 / 10 ^ 10 ≤ x)) && decide (x ≤ 10 ^ 6)

/-- The iteration is an ordinary one: no test of the loop is near its threshold. -/
def QP.plain (d : QP) (s : St) : Bool :=
  clear (d.nx s) && clear (d.ny s) && decide (1 / 10 ^ 10 ≤ d.sh s) && decide (1 / 10 ^ 10 ≤ d.hh s) &&
  decide (1 / 10 ^ 10 ≤ (d.next s).al) && decide (1 / 100 ≤ d.rr (d.nx s) (d.ny s))

/-- The vector of two rational numbers. -/
def vec (x y : ℚ) : Vec 2 := ![(x : ℝ), (y : ℝ)]

/-- The operator of the problem. -/
noncomputable def QP.A (d : QP) (v : Vec 2) : Vec 2 :=
  ![(d.a00 : ℝ) * v 0 + d.a01 * v 1, (d.a01 : ℝ) * v 0 + d.a11 * v 1]

/-- What is asked of the rounding and of the upper bound. -/
structure Bounds (fl : ℝ → ℝ) (ub : ℝ) : Prop where
  low : fl (0 + dblEps * 100) ≤ 1 / 10 ^ 10
  low' : 0 < fl (0 + dblEps * 100)
  up : (10 : ℝ) ^ 6 < fl (ub - dblEps * 100)
  up' : (10 : ℝ) ^ 6 < ub

/-- The problem of the solver. -/
noncomputable def QP.prob (d : QP) (fl : ℝ → ℝ) (ub : ℝ) : Problem 2 :=
  bcqp fl d.A (vec d.b0 d.b1) (fun _ => 0) (fun _ => ub)

theorem vec_ext {u v : Vec 2} (h0 : u 0 = v 0) (h1 : u 1 = v 1) : u = v := by
  funext i
  fin_cases i
  · exact h0
  · exact h1

theorem dot2 (u v : Vec 2) : dot u v = u 0 * v 0 + u 1 * v 1 := by
  simp [dot, Fin.sum_univ_two]

theorem grad_vec (d : QP) (x y : ℚ) : d.A (vec x y) + vec d.b0 d.b1 = vec (d.g0 x y) (d.g1 x y) := by
  apply vec_ext <;> simp [QP.A, vec, QP.g0, QP.g1]

theorem cast_big {x : ℚ} (h : 1 / 10 ^ 10 ≤ x) : (1 : ℝ) / 10 ^ 10 ≤ (x : ℝ) := by
  have := (Rat.cast_le (K := ℝ)).2 h
  push_cast at this
  exact this

theorem clear_spec {x : ℚ} (h : clear x = true) :
    (x = 0 ∨ (1 : ℝ) / 10 ^ 10 ≤ (x : ℝ)) ∧ (x : ℝ) ≤ 10 ^ 6 := by
  simp only [clear, Bool.and_eq_true, Bool.or_eq_true, beq_iff_eq, decide_eq_true_eq] at h
  obtain ⟨h1, h2⟩ := h
  refine ⟨h1.imp id ?_, ?_⟩
  · intro h; exact cast_big h
  · exact_mod_cast (Rat.cast_le (K := ℝ)).2 h2

theorem resid_at {fl : ℝ → ℝ} {ub : ℝ} (hb : Bounds fl ub) (x g : ℚ) (h : clear x = true) :
    residualAt fl 0 ub (x : ℝ) (g : ℝ) = some ((QP.r x g : ℚ) : ℝ) := by
  obtain ⟨h1, h2⟩ := clear_spec h
  unfold residualAt QP.r
  have e1 := hb.low; have e2 := hb.low'; have e3 := hb.up; have e4 := hb.up'
  rcases h1 with rfl | h1
  · simp only [Rat.cast_zero, e2, if_true]
    simp
  · have hx : x ≠ 0 := by
      rintro rfl
      norm_num at h1
    have n1 : ¬ (x : ℝ) < fl (0 + dblEps * 100) := by linarith
    have n2 : ¬ (x : ℝ) > fl (ub - dblEps * 100) := by linarith
    have n3 : (x : ℝ) > 0 ∧ (x : ℝ) < ub := ⟨lt_of_lt_of_le (by norm_num) h1, by linarith⟩
    simp only [n1, n2, if_false, n3, and_self, if_true, hx]

theorem resid_vec (d : QP) {fl : ℝ → ℝ} {ub : ℝ} (hb : Bounds fl ub) (x y : ℚ) (hx : clear x = true)
    (hy : clear y = true) :
    (d.prob fl ub).resid (vec x y) (vec (d.g0 x y) (d.g1 x y)) =
      .ok (vec (QP.r x (d.g0 x y)) (QP.r y (d.g1 x y))) := by
  rw [QP.prob, bcqp]
  rw [check_ok]
  intro i
  fin_cases i
  · simpa [vec] using resid_at hb x (d.g0 x y) hx
  · simpa [vec] using resid_at hb y (d.g1 x y) hy

theorem proj_vec (d : QP) {fl : ℝ → ℝ} {ub : ℝ} (hb : Bounds fl ub) (s : St) (hx : clear (d.nx s) = true)
    (hy : clear (d.ny s) = true) :
    (d.prob fl ub).proj (-(s.al : ℝ) • vec (d.g0 s.x s.y) (d.g1 s.x s.y) + vec s.x s.y) = vec (d.nx s) (d.ny s) := by
  have u1 := (clear_spec hx).2
  have u2 := (clear_spec hy).2
  have e4 := hb.up'
  have c0 : ((d.nx s : ℚ) : ℝ) = max ((s.x : ℝ) - s.al * (d.g0 s.x s.y : ℚ)) 0 := by
    rw [QP.nx]; push_cast; rfl
  have c1 : ((d.ny s : ℚ) : ℝ) = max ((s.y : ℝ) - s.al * (d.g1 s.x s.y : ℚ)) 0 := by
    rw [QP.ny]; push_cast; rfl
  apply vec_ext
  · simp only [QP.prob, bcqp, boundProjection, vec, Pi.add_apply, Pi.smul_apply, smul_eq_mul, Matrix.cons_val_zero]
    rw [show -(s.al : ℝ) * ((d.g0 s.x s.y : ℚ) : ℝ) + (s.x : ℝ) = (s.x : ℝ) - s.al * (d.g0 s.x s.y : ℚ) by ring,
      ← c0]
    exact min_eq_left (by linarith)
  · simp only [QP.prob, bcqp, boundProjection, vec, Pi.add_apply, Pi.smul_apply, smul_eq_mul, Matrix.cons_val_one,
      Matrix.cons_val_zero]
    rw [show -(s.al : ℝ) * ((d.g1 s.x s.y : ℚ) : ℝ) + (s.y : ℝ) = (s.y : ℝ) - s.al * (d.g1 s.x s.y : ℚ) by ring,
      ← c1]
    exact min_eq_left (by linarith)

theorem eps10 : 10 * dblEps ≤ 1 / 10 ^ 10 := by
  unfold dblEps; norm_num

theorem norm2_vec (x y : ℚ) (h : 1 / 100 ≤ x * x + y * y) : (1 : ℝ) / 10 ≤ norm2 (vec x y) := by
  apply Real.le_sqrt_of_sq_le
  rw [dot2]
  simp only [vec, Matrix.cons_val_zero, Matrix.cons_val_one]
  have := (Rat.cast_le (K := ℝ)).2 h
  push_cast at this
  linarith

theorem norm2_sq_vec (x y : ℚ) : norm2 (vec x y) ^ 2 = ((x * x + y * y : ℚ) : ℝ) := by
  rw [norm2_sq, dot2]; simp [vec]

theorem vec_sub (x y u v : ℚ) : vec x y - vec u v = vec (x - u) (y - v) := by
  apply vec_ext <;> simp [vec]

theorem dot_vec (x y u v : ℚ) : dot (vec x y) (vec u v) = ((x * u + y * v : ℚ) : ℝ) := by
  rw [dot2]; simp [vec]

theorem step_vec (d : QP) (s : St) (h : d.plain s = true) (ite : ℕ) (ho : s.odd = decide (ite % 2 = 1)) :
    stepAlternating (ite + 1) (vec (d.nx s) (d.ny s) - vec s.x s.y)
      (vec (d.g0 (d.nx s) (d.ny s)) (d.g1 (d.nx s) (d.ny s)) - vec (d.g0 s.x s.y) (d.g1 s.x s.y)) =
      .ok (((d.next s).al : ℚ) : ℝ) := by
  simp only [QP.plain, Bool.and_eq_true, decide_eq_true_eq] at h
  obtain ⟨⟨⟨⟨⟨-, -⟩, h3⟩, h4⟩, -⟩, -⟩ := h
  have g3 : (1 : ℝ) / 10 ^ 10 ≤ ((d.sh s : ℚ) : ℝ) := cast_big h3
  have g4 : (1 : ℝ) / 10 ^ 10 ≤ ((d.hh s : ℚ) : ℝ) := cast_big h4
  have p3 : (0 : ℝ) < ((d.sh s : ℚ) : ℝ) := lt_of_lt_of_le (by norm_num) g3
  have p4 : (0 : ℝ) < ((d.hh s : ℚ) : ℝ) := lt_of_lt_of_le (by norm_num) g4
  have q3 : ¬ |((d.sh s : ℚ) : ℝ)| < 10 * dblEps := by
    rw [abs_of_pos p3]; have := eps10; linarith
  have q4 : ¬ |((d.hh s : ℚ) : ℝ)| < 10 * dblEps := by
    rw [abs_of_pos p4]; have := eps10; linarith
  unfold stepAlternating
  rw [vec_sub, vec_sub, norm2_sq_vec, norm2_sq_vec, dot_vec]
  have e1 : ((d.nx s - s.x) * (d.g0 (d.nx s) (d.ny s) - d.g0 s.x s.y) +
      (d.ny s - s.y) * (d.g1 (d.nx s) (d.ny s) - d.g1 s.x s.y)) = d.sh s := rfl
  have e2 : ((d.g0 (d.nx s) (d.ny s) - d.g0 s.x s.y) * (d.g0 (d.nx s) (d.ny s) - d.g0 s.x s.y) +
      (d.g1 (d.nx s) (d.ny s) - d.g1 s.x s.y) * (d.g1 (d.nx s) (d.ny s) - d.g1 s.x s.y)) = d.hh s := rfl
  have e3 : ((d.nx s - s.x) * (d.nx s - s.x) + (d.ny s - s.y) * (d.ny s - s.y)) = d.ss s := rfl
  rw [e1, e2, e3]
  by_cases hp : (ite + 1) % 2 = 0
  · have : s.odd = true := by rw [ho]; simp; omega
    simp only [hp, if_true, q3, if_false, QP.next, this, rdiv, p3.ne', Rat.cast_div]
  · have : s.odd = false := by rw [ho]; simp; omega
    simp only [hp, if_false, q4, QP.next, this, rdiv, p4.ne', Rat.cast_div]
    simp

/-- One pass of the loop. -/
theorem bbLoop_next (d : QP) {fl : ℝ → ℝ} {ub : ℝ} (hb : Bounds fl ub) (s : St) (h : d.plain s = true)
    (tol : ℝ) (ht : tol ≤ 1 / 10) (left ite mv : ℕ) (ho : s.odd = decide (ite % 2 = 1)) (xk : Vec 2)
    (history : List Hist) :
    ∃ r : ℝ, 1 / 10 ≤ r ∧
    bbLoop (d.prob fl ub) stepAlternating (fun a => a < dblEps * 10) tol (left + 1) ite mv s.al xk (vec s.x s.y)
      (vec (d.g0 s.x s.y) (d.g1 s.x s.y)) history =
    bbLoop (d.prob fl ub) stepAlternating (fun a => a < dblEps * 10) tol left (ite + 1) (mv + 1) (d.next s).al
      (vec s.x s.y) (vec (d.next s).x (d.next s).y)
      (vec (d.g0 (d.next s).x (d.next s).y) (d.g1 (d.next s).x (d.next s).y))
      (history ++ [⟨ite + 1, s.al, r, mv + 1⟩]) := by
  have hst := step_vec d s h ite ho
  have h' := h
  simp only [QP.plain, Bool.and_eq_true, decide_eq_true_eq] at h'
  obtain ⟨⟨⟨⟨⟨h1, h2⟩, -⟩, -⟩, h5⟩, h6⟩ := h'
  refine ⟨norm2 (vec (QP.r (d.nx s) (d.g0 (d.nx s) (d.ny s))) (QP.r (d.ny s) (d.g1 (d.nx s) (d.ny s)))),
    norm2_vec _ _ h6, ?_⟩
  have hn := norm2_vec _ _ h6
  conv_lhs => rw [bbLoop]
  have hr := resid_vec d hb (d.nx s) (d.ny s) h1 h2
  have hA : (d.prob fl ub).A (vec (d.nx s) (d.ny s)) + (d.prob fl ub).b =
      vec (d.g0 (d.nx s) (d.ny s)) (d.g1 (d.nx s) (d.ny s)) := grad_vec d _ _
  simp only [proj_vec d hb s h1 h2, hA, hr]
  have nt : ¬ |norm2 (vec (QP.r (d.nx s) (d.g0 (d.nx s) (d.ny s))) (QP.r (d.ny s) (d.g1 (d.nx s) (d.ny s))))| < tol := by
    rw [abs_of_nonneg (norm2_nonneg _)]; linarith
  have ns : ¬ (((d.next s).al : ℚ) : ℝ) < dblEps * 10 := by
    have g5 : (1 : ℝ) / 10 ^ 10 ≤ (((d.next s).al : ℚ) : ℝ) := cast_big h5
    have := eps10; linarith
  simp only [bind, Except.bind, nt, if_false, hst, ns]
  rfl

/-- The run of the loop from a state all of whose successors are plain. -/
theorem bbLoop_run (d : QP) {fl : ℝ → ℝ} {ub : ℝ} (hb : Bounds fl ub) (tol : ℝ) (ht : tol ≤ 1 / 10) :
    ∀ (left ite mv : ℕ) (s : St), (∀ k, d.plain (d.next^[k] s) = true) → s.odd = decide (ite % 2 = 1) →
    ∀ (xk : Vec 2) (history : List Hist),
    ∃ news : List Hist, news.length = left ∧ (∀ e ∈ news, 1 / 10 ≤ e.res) ∧
    bbLoop (d.prob fl ub) stepAlternating (fun a => a < dblEps * 10) tol left ite mv s.al xk (vec s.x s.y)
      (vec (d.g0 s.x s.y) (d.g1 s.x s.y)) history =
    .ok ⟨if left = 0 then xk else vec (d.next^[left - 1] s).x (d.next^[left - 1] s).y, history ++ news, 0,
      vec (d.next^[left] s).x (d.next^[left] s).y⟩ := by
  intro left
  induction left with
  | zero => intro ite mv s _ _ xk history; exact ⟨[], rfl, by simp, by simp [bbLoop]⟩
  | succ left ih =>
    intro ite mv s hs ho xk history
    obtain ⟨r, hr, e⟩ := bbLoop_next d hb s (hs 0) tol ht left ite mv ho xk history
    obtain ⟨news, hl, hn, e'⟩ := ih (ite + 1) (mv + 1) (d.next s) (fun k => hs (k + 1)) (by
      show (!s.odd) = _
      rw [ho, ← decide_not, decide_eq_decide]
      omega) (vec s.x s.y) (history ++ [⟨ite + 1, s.al, r, mv + 1⟩])
    refine ⟨⟨ite + 1, s.al, r, mv + 1⟩ :: news, by simp [hl], ?_, ?_⟩
    · intro e he
      rcases List.mem_cons.1 he with rfl | he
      · exact hr
      · exact hn e he
    · rw [e, e']
      cases left with
      | zero => simp
      | succ left => simp

/-- The state at the start of `solveBBPGD`. -/
def QP.start (d : QP) (x y : ℚ) : St := ⟨false, 1 / max |QP.r x (d.g0 x y)| |QP.r y (d.g1 x y)|, x, y⟩

theorem normInf_vec (x y : ℚ) : normInf (vec x y) = ((max |x| |y| : ℚ) : ℝ) := by
  unfold normInf vec
  apply le_antisymm
  · rw [pi_norm_le_iff_of_nonneg (by positivity)]
    intro i
    push_cast
    fin_cases i
    · exact le_max_left _ _
    · exact le_max_right _ _
  · push_cast
    refine max_le ?_ ?_
    · simpa using norm_le_pi_norm (![(x : ℝ), (y : ℝ)] : Fin 2 → ℝ) 0
    · simpa using norm_le_pi_norm (![(x : ℝ), (y : ℝ)] : Fin 2 → ℝ) 1

/-- The run of the solver. -/
theorem solve_run (d : QP) {fl : ℝ → ℝ} {ub : ℝ} (hb : Bounds fl ub) (tol : ℝ) (ht : tol ≤ 1 / 10) (x y : ℚ)
    (hx : clear x = true) (hy : clear y = true) (hr : 1 / 100 ≤ d.rr x y)
    (hs : ∀ k, d.plain (d.next^[k] (d.start x y)) = true) (iteMax : ℕ) (history : List Hist) :
    ∃ news : List Hist, news.length = iteMax + 1 ∧ (∀ e ∈ news, 1 / 10 ≤ e.res) ∧
    solveBBPGD (d.prob fl ub) (vec x y) tol iteMax history =
    .ok ⟨vec (d.next^[iteMax - 1] (d.start x y)).x (d.next^[iteMax - 1] (d.start x y)).y, history ++ news, 0,
      vec (d.next^[iteMax] (d.start x y)).x (d.next^[iteMax] (d.start x y)).y⟩ := by
  have hn := norm2_vec _ _ hr
  obtain ⟨news, hl, hres, e⟩ := bbLoop_run d hb tol ht iteMax 0 1 (d.start x y) hs (by simp [QP.start]) (vec x y)
    (history ++ [⟨0, 0, norm2 (vec (QP.r x (d.g0 x y)) (QP.r y (d.g1 x y))), 1⟩])
  refine ⟨⟨0, 0, norm2 (vec (QP.r x (d.g0 x y)) (QP.r y (d.g1 x y))), 1⟩ :: news, by simp [hl], ?_, ?_⟩
  · intro e he
    rcases List.mem_cons.1 he with rfl | he
    · exact hn
    · exact hres e he
  · unfold solveBBPGD
    have hA : (d.prob fl ub).A (vec x y) + (d.prob fl ub).b = vec (d.g0 x y) (d.g1 x y) := grad_vec d _ _
    have nt : ¬ |norm2 (vec (QP.r x (d.g0 x y)) (QP.r y (d.g1 x y)))| < tol := by
      rw [abs_of_nonneg (norm2_nonneg _)]; linarith
    have hz : normInf (vec (QP.r x (d.g0 x y)) (QP.r y (d.g1 x y))) ≠ 0 := by
      intro h0
      rw [normInf, norm_eq_zero] at h0
      rw [h0] at hn
      have : norm2 (0 : Vec 2) = 0 := by simp [norm2, BCQP.dot]
      rw [this] at hn
      norm_num at hn
    have hal : ((d.start x y).al : ℝ) = 1 / normInf (vec (QP.r x (d.g0 x y)) (QP.r y (d.g1 x y))) := by
      rw [normInf_vec]; simp [QP.start]
    simp only [hA, resid_vec d hb x y hx hy, bind, Except.bind, nt, if_false, rdiv, hz]
    rw [← hal]
    have e := e
    simp only [QP.start] at e
    simp only [QP.start]
    rw [e]
    cases iteMax with
    | zero => simp
    | succ n => simp

/-- A sequence that comes back to an earlier state is plain throughout if it is plain until then. -/
theorem plain_of_cycle (d : QP) (s : St) (T P : ℕ) (hP : 0 < P) (hc : d.next^[T + P] s = d.next^[T] s)
    (h : ∀ k < T + P, d.plain (d.next^[k] s) = true) : ∀ k, d.plain (d.next^[k] s) = true := by
  intro k
  induction k using Nat.strong_induction_on with
  | _ k ih =>
    by_cases hk : k < T + P
    · exact h k hk
    · obtain ⟨j, rfl⟩ := Nat.exists_eq_add_of_le (not_lt.1 hk)
      rw [show T + P + j = j + (T + P) by omega, Function.iterate_add_apply, hc, ← Function.iterate_add_apply]
      exact ih (j + T) (by omega)

theorem cycle_at (d : QP) (s : St) (T P : ℕ) (hc : d.next^[T + P] s = d.next^[T] s) (n : ℕ) :
    d.next^[T + P * n] s = d.next^[T] s := by
  induction n with
  | zero => rfl
  | succ n ih =>
    rw [show T + P * (n + 1) = P * n + (T + P) by ring, Function.iterate_add_apply, hc, ← Function.iterate_add_apply,
      Nat.add_comm]
    exact ih

/-! ### The example -/

/-- Two unknowns with nearly the same effect. -/
def wedge : QP := ⟨1, 2499 / 2500, 1, -8, -9⟩

theorem wedge_cycle : wedge.next^[9 + 4] (wedge.start 0 0) = wedge.next^[9] (wedge.start 0 0) := by decide +kernel

theorem wedge_zero : (wedge.next^[9] (wedge.start 0 0)).x = 0 ∧ (wedge.next^[9] (wedge.start 0 0)).y = 0 := by
  decide +kernel

theorem wedge_plain : ∀ k, wedge.plain (wedge.next^[k] (wedge.start 0 0)) = true := by
  refine plain_of_cycle wedge _ 9 4 (by norm_num) wedge_cycle ?_
  decide +kernel

theorem wedge_first : 1 / 100 ≤ wedge.rr 0 0 := by decide +kernel

/-- The run of the solver on the example, from a guess of zero. -/
theorem wedge_run {fl : ℝ → ℝ} {ub : ℝ} (hb : Bounds fl ub) (tol : ℝ) (ht : tol ≤ 1 / 10) (iteMax : ℕ) :
    ∃ out : Out 2, solveBBPGD (wedge.prob fl ub) 0 tol iteMax [] = .ok out ∧ out.history.length = iteMax + 1 ∧
      (∀ e ∈ out.history, 1 / 10 ≤ e.res) ∧ ∀ n, iteMax = 9 + 4 * n → out.applied = 0 := by
  obtain ⟨news, h1, h2, h3⟩ := solve_run wedge hb tol ht 0 0 (by decide +kernel) (by decide +kernel) wedge_first wedge_plain iteMax []
  have hv : vec 0 0 = 0 := by apply vec_ext <;> simp [vec]
  rw [hv] at h3
  refine ⟨_, h3, by simp [h1], by simpa using h2, ?_⟩
  rintro n rfl
  simp only [cycle_at wedge _ 9 4 wedge_cycle n]
  rw [wedge_zero.1, wedge_zero.2, hv]

end Verif.Cycle
