import Verif.Model.GaussLegendre
import Verif.Spec.GaussLegendre
import Verif.Lemmas.GaussGood1
import Verif.Lemmas.GaussGood2
import Verif.Lemmas.GaussGood3
import Verif.Lemmas.GaussGood4
import Verif.Lemmas.FloatStep
import Mathlib.Analysis.SpecialFunctions.Integrals.Basic
import Mathlib.Topology.Algebra.Polynomial

namespace Verif.Gauss

open Spec.Gauss

theorem scale_real : ((scale : ℕ) : ℝ) = 10 ^ 129 := by unfold scale; norm_num

theorem scale_pos : (0 : ℝ) < (scale : ℕ) := by rw [scale_real]; positivity

theorem total_eq (l : List ℕ) : total l = l.sum := by
  induction l with
  | nil => rfl
  | cons a l ih => simp [total, ih]

/-! ### The moments -/

/-- `ps` are the numbers `w x^(2k)`, rounded down. -/
def Powers (k : ℕ) : List ℕ → List ℕ → List ℕ → Prop
  | x :: xs, w :: ws, p :: ps => ((p : ℝ) ≤ w * ((x : ℝ) / scale) ^ (2 * k) ∧ w * ((x : ℝ) / scale) ^ (2 * k) ≤ p + k) ∧ Powers k xs ws ps
  | [], [], [] => True
  | _, _, _ => False

theorem powers_zero : ∀ xs ws : List ℕ, xs.length = ws.length → Powers 0 xs ws ws
  | [], [], _ => trivial
  | _ :: xs, _ :: ws, h => ⟨by simp, powers_zero xs ws (by simpa using h)⟩

theorem powers_raise (k : ℕ) : ∀ xs ws ps : List ℕ, (∀ x ∈ xs, x ≤ scale) → Powers k xs ws ps →
    Powers (k + 1) xs ws (raise (xs.map fun x => x * x) ps)
  | [], [], [], _, _ => trivial
  | x :: xs, w :: ws, p :: ps, h, ⟨⟨h1, h2⟩, h3⟩ => by
    refine ⟨?_, powers_raise k xs ws ps (fun y hy => h y (by simp [hy])) h3⟩
    have hs := scale_pos
    have hx : (x : ℝ) ≤ (scale : ℕ) := by exact_mod_cast h x (by simp)
    have hy0 : 0 ≤ (x : ℝ) / scale := by positivity
    have hy1 : (x : ℝ) / scale ≤ 1 := by rw [div_le_one hs]; exact hx
    have ydiv : ((p * (x * x) / (scale * scale) : ℕ) : ℝ) ≤ p * ((x : ℝ) / scale) ^ 2 := by
      refine (Nat.cast_div_le).trans (le_of_eq ?_)
      push_cast
      field_simp
    have ydiv2 : p * ((x : ℝ) / scale) ^ 2 < (p * (x * x) / (scale * scale) : ℕ) + 1 := by
      have hpos : 0 < scale * scale := Nat.mul_pos (by unfold scale; positivity) (by unfold scale; positivity)
      have := Nat.lt_mul_div_succ (p * (x * x)) hpos
      have c : ((p * (x * x) : ℕ) : ℝ) < ((scale * scale * (p * (x * x) / (scale * scale) + 1) : ℕ) : ℝ) := by exact_mod_cast this
      rw [Nat.cast_mul (scale * scale), Nat.cast_add _ 1] at c
      generalize ((p * (x * x) / (scale * scale) : ℕ) : ℝ) = d at *
      push_cast at c
      rw [div_pow, mul_div_assoc', div_lt_iff₀ (by positivity)]
      nlinarith
    generalize ((p * (x * x) / (scale * scale) : ℕ) : ℝ) = d at *
    have e : (w : ℝ) * ((x : ℝ) / scale) ^ (2 * (k + 1)) = w * ((x : ℝ) / scale) ^ (2 * k) * ((x : ℝ) / scale) ^ 2 := by ring
    have hsq : ((x : ℝ) / scale) ^ 2 ≤ 1 := pow_le_one₀ hy0 hy1
    have hsq0 : 0 ≤ ((x : ℝ) / scale) ^ 2 := by positivity
    rw [e]
    push_cast
    constructor
    · exact ydiv.trans (mul_le_mul_of_nonneg_right h1 hsq0)
    · have a := mul_le_mul_of_nonneg_right h2 hsq0
      have b : (k : ℝ) * ((x : ℝ) / scale) ^ 2 ≤ k := mul_le_of_le_one_right (by positivity) hsq
      nlinarith

theorem powers_sum (k : ℕ) : ∀ xs ws ps : List ℕ, Powers k xs ws ps →
    (ps.sum : ℝ) ≤ (List.zipWith (fun (x w : ℕ) => (w : ℝ) * ((x : ℝ) / scale) ^ (2 * k)) xs ws).sum ∧
    (List.zipWith (fun (x w : ℕ) => (w : ℝ) * ((x : ℝ) / scale) ^ (2 * k)) xs ws).sum ≤ (ps.sum : ℝ) + xs.length * k
  | [], [], [], _ => by simp
  | x :: xs, w :: ws, p :: ps, ⟨⟨h1, h2⟩, h3⟩ => by
    obtain ⟨a, b⟩ := powers_sum k xs ws ps h3
    simp only [List.zipWith_cons_cons, List.sum_cons, List.length_cons]
    rw [Nat.cast_add, Nat.cast_add, Nat.cast_one]
    constructor <;> linarith

theorem close_spec (s k : ℕ) (h : close s k = true) : |(s : ℝ) - 2 * scale / (2 * k + 1)| ≤ 10 ^ 51 := by
  unfold close at h
  rw [Bool.and_eq_true] at h
  obtain ⟨h1, h2⟩ := h
  have h1 := Nat.le_of_ble_eq_true h1
  have h2 := Nat.le_of_ble_eq_true h2
  have h1' : (s : ℝ) * (2 * k + 1) ≤ 2 * scale + 10 ^ 51 := by exact_mod_cast h1
  have h2' : 2 * (scale : ℝ) ≤ s * (2 * k + 1) + 10 ^ 51 := by exact_mod_cast h2
  generalize (scale : ℝ) = S at *
  have hp : (0 : ℝ) < 2 * k + 1 := by positivity
  have h1k : (1 : ℝ) ≤ 2 * k + 1 := by linarith [(Nat.cast_nonneg k : (0 : ℝ) ≤ k)]
  have e : (s : ℝ) - 2 * S / (2 * k + 1) = (s * (2 * k + 1) - 2 * S) / (2 * k + 1) := by field_simp
  rw [e, abs_div, abs_of_pos hp, div_le_iff₀ hp]
  have : |(s : ℝ) * (2 * k + 1) - 2 * S| ≤ 10 ^ 51 := abs_le.2 ⟨by linarith, by linarith⟩
  refine this.trans ?_
  have : (0 : ℝ) ≤ 10 ^ 51 := by positivity
  nlinarith

theorem moments_spec (xs ws : List ℕ) (hx : ∀ x ∈ xs, x ≤ scale) : ∀ (n k : ℕ) (ps : List ℕ), Powers k xs ws ps →
    moments (xs.map fun x => x * x) n k ps = true → ∀ j, k ≤ j → j < k + n →
    |(List.zipWith (fun (x w : ℕ) => (w : ℝ) * ((x : ℝ) / scale) ^ (2 * j)) xs ws).sum - 2 * scale / (2 * j + 1)| ≤ 10 ^ 51 + xs.length * j := by
  intro n
  induction n with
  | zero => intro k ps _ _ j h1 h2; omega
  | succ n ih =>
    intro k ps hp h j h1 h2
    unfold moments at h
    rw [Bool.and_eq_true] at h
    rcases Nat.eq_or_lt_of_le h1 with rfl | h3
    · have c := close_spec _ _ h.1
      obtain ⟨a, b⟩ := powers_sum k xs ws ps hp
      rw [total_eq] at c
      have c' := abs_le.1 c
      have : (0 : ℝ) ≤ xs.length * k := by positivity
      exact abs_le.2 ⟨by linarith, by linarith⟩
    · exact ih (k + 1) _ (powers_raise k xs ws ps hx hp) h.2 j h3 (by omega)

/-! ### A table that passes the check -/

theorem increasing_spec : ∀ (l : List ℤ) (a : ℤ), increasing a l = true → (a :: l).Pairwise (· < ·) ∧ ∀ x ∈ a :: l, x < (scale : ℤ)
  | [], a, h => by simpa [increasing] using h
  | x :: l, a, h => by
    unfold increasing at h
    rw [Bool.and_eq_true] at h
    have h1 := of_decide_eq_true h.1
    obtain ⟨p, q⟩ := increasing_spec l x h.2
    refine ⟨?_, ?_⟩
    · refine List.pairwise_cons.2 ⟨?_, p⟩
      intro y hy
      rcases List.mem_cons.1 hy with rfl | hy
      · exact h1
      · exact h1.trans ((List.pairwise_cons.1 p).1 y hy)
    · intro y hy
      rcases List.mem_cons.1 hy with rfl | hy
      · exact h1.trans (q x (by simp))
      · exact q y hy

/-- What is proved of a table. -/
structure Table (n : ℕ) (xs : List ℝ) (ws : List ℝ) : Prop where
  le : n ≤ 128
  nodes : xs.length = n
  weights : ws.length = n
  sorted : xs.Pairwise (· < ·)
  inside : ∀ x ∈ xs, -1 < x ∧ x < 1
  pos : ∀ w ∈ ws, 0 < w
  symm : xs.map (fun x => -x) = xs.reverse
  wsymm : ws.reverse = ws
  even : ∀ j < n, |quadrature xs ws (fun x => x ^ (2 * j)) - 2 / (2 * j + 1)| ≤ 1 / 10 ^ 75

theorem good_table (n : ℕ) (xs : List ℤ) (ws : List ℕ) (h : good n xs ws = true) :
    Table n (xs.map lit) (ws.map fun a : ℕ => lit a) := by
  unfold good at h
  simp only [Bool.and_eq_true, decide_eq_true_eq] at h
  obtain ⟨⟨⟨⟨⟨⟨⟨h1, h2⟩, h3⟩, h4⟩, h5⟩, h6⟩, h7⟩, h8⟩ := h
  obtain ⟨i1, i2⟩ := increasing_spec xs _ h4
  have hs : (0 : ℝ) < 10 ^ 129 := by positivity
  have scZ : ((scale : ℤ) : ℝ) = 10 ^ 129 := by rw [Int.cast_natCast, scale_real]
  have mono : ∀ a b : ℤ, a < b → lit a < lit b := by
    intro a b hab
    unfold lit
    exact div_lt_div_of_pos_right (by exact_mod_cast hab) hs
  have l1 : lit (scale : ℤ) = 1 := by unfold lit; rw [scZ]; exact div_self hs.ne'
  have l2 : lit (-(scale : ℤ)) = -1 := by unfold lit; rw [Int.cast_neg, scZ, neg_div]; rw [div_self hs.ne']
  have ins : ∀ x ∈ xs, -(scale : ℤ) < x ∧ x < (scale : ℤ) := fun x hx =>
    ⟨(List.pairwise_cons.1 i1).1 x hx, i2 x (by simp [hx])⟩
  refine ⟨h3, by simpa using h1, by simpa using h2, ?_, ?_, ?_, ?_, ?_, ?_⟩
  · exact List.Pairwise.map lit mono (List.pairwise_cons.1 i1).2
  · intro y hy
    obtain ⟨x, hx, rfl⟩ := List.mem_map.1 hy
    exact ⟨l2 ▸ mono _ _ (ins x hx).1, l1 ▸ mono _ _ (ins x hx).2⟩
  · intro y hy
    obtain ⟨w, hw, rfl⟩ := List.mem_map.1 hy
    have := Nat.le_of_ble_eq_true (List.all_eq_true.1 h7 w hw)
    unfold lit
    have : (0 : ℝ) < ((w : ℤ) : ℝ) := by rw [Int.cast_natCast]; exact_mod_cast this
    positivity
  · rw [← List.map_reverse, ← h5, List.map_map, List.map_map]
    congr 1
    funext x
    simp [lit, neg_div]
  · rw [← List.map_reverse, h6]
  · intro j hj
    have m := moments_spec (xs.map Int.natAbs) ws (by
      intro y hy
      obtain ⟨x, hx, rfl⟩ := List.mem_map.1 hy
      have := ins x hx
      generalize scale = s at *
      omega) n 0 ws (powers_zero _ _ (by simp [h1, h2])) (by rw [List.map_map]; exact h8) j (Nat.zero_le _) (by omega)
    have e : quadrature (xs.map lit) (ws.map fun a : ℕ => lit a) (fun x => x ^ (2 * j)) =
        (List.zipWith (fun (x w : ℕ) => (w : ℝ) * ((x : ℝ) / scale) ^ (2 * j)) (xs.map Int.natAbs) ws).sum / 10 ^ 129 := by
      unfold quadrature
      clear m h1 h2 h4 h5 h6 h7 h8 i1 i2 ins
      induction xs generalizing ws with
      | nil => simp
      | cons x xs ih =>
        cases ws with
        | nil => simp
        | cons w ws =>
          simp only [List.map_cons, List.zipWith_cons_cons, List.sum_cons, add_div, ih]
          congr 1
          have ab : ((x.natAbs : ℕ) : ℝ) = |(x : ℝ)| := by
            rw [← Int.cast_abs, ← Int.natCast_natAbs, Int.cast_natCast]
          rw [scale_real, ab, pow_mul, pow_mul, div_pow, sq_abs, lit, lit, div_pow]
          push_cast
          ring
    rw [e]
    rw [List.length_map, h1] at m
    have e2 : (List.zipWith (fun (x w : ℕ) => (w : ℝ) * ((x : ℝ) / scale) ^ (2 * j)) (xs.map Int.natAbs) ws).sum / 10 ^ 129 - 2 / (2 * (j : ℝ) + 1) =
        ((List.zipWith (fun (x w : ℕ) => (w : ℝ) * ((x : ℝ) / scale) ^ (2 * j)) (xs.map Int.natAbs) ws).sum - 2 * scale / (2 * j + 1)) / 10 ^ 129 := by
      rw [scale_real, sub_div]
      congr 1
      field_simp
    rw [e2, abs_div, abs_of_pos hs, div_le_iff₀ hs]
    refine m.trans ?_
    have n1 : (n : ℝ) ≤ 128 := by exact_mod_cast h3
    have j1 : (j : ℝ) ≤ 128 := by exact_mod_cast (by omega : j ≤ 128)
    have : (n : ℝ) * j ≤ 128 * 128 := mul_le_mul n1 j1 (by positivity) (by norm_num)
    have : (10 : ℝ) ^ 51 + 128 * 128 ≤ 1 / 10 ^ 75 * 10 ^ 129 := by norm_num
    linarith

/-! ### Moments and polynomials -/

theorem quad_add (xs ws : List ℝ) (f g : ℝ → ℝ) : quadrature xs ws (fun x => f x + g x) = quadrature xs ws f + quadrature xs ws g := by
  unfold quadrature
  induction xs generalizing ws with
  | nil => simp
  | cons x xs ih =>
    cases ws with
    | nil => simp
    | cons w ws => simp only [List.zipWith_cons_cons, List.sum_cons, ih]; ring

theorem quad_smul (xs ws : List ℝ) (c : ℝ) (f : ℝ → ℝ) : quadrature xs ws (fun x => c * f x) = c * quadrature xs ws f := by
  unfold quadrature
  induction xs generalizing ws with
  | nil => simp
  | cons x xs ih =>
    cases ws with
    | nil => simp
    | cons w ws => simp only [List.zipWith_cons_cons, List.sum_cons, ih]; ring

theorem quad_zero (xs ws : List ℝ) : quadrature xs ws (fun _ => 0) = 0 := by
  have := quad_smul xs ws 0 (fun _ => 0)
  simpa using this

theorem quad_sum (xs ws : List ℝ) (m : ℕ) (f : ℕ → ℝ → ℝ) :
    quadrature xs ws (fun x => ∑ k ∈ Finset.range m, f k x) = ∑ k ∈ Finset.range m, quadrature xs ws (f k) := by
  induction m with
  | zero => simpa using quad_zero xs ws
  | succ m ih => simp only [Finset.sum_range_succ]; rw [quad_add, ih]

theorem quad_reverse (xs ws : List ℝ) (f : ℝ → ℝ) (h : xs.length = ws.length) :
    quadrature xs.reverse ws.reverse f = quadrature xs ws f := by
  unfold quadrature
  rw [← List.reverse_zipWith h, List.sum_reverse]

theorem quad_neg (xs ws : List ℝ) (f : ℝ → ℝ) : quadrature (xs.map fun x => -x) ws f = quadrature xs ws (fun x => f (-x)) := by
  unfold quadrature
  rw [List.zipWith_map_left]

theorem quad_odd {n : ℕ} {xs ws : List ℝ} (h : Table n xs ws) (j : ℕ) : quadrature xs ws (fun x => x ^ (2 * j + 1)) = 0 := by
  have h1 := quad_reverse xs ws (fun x => x ^ (2 * j + 1)) (h.nodes.trans h.weights.symm)
  rw [← h.symm, h.wsymm, quad_neg] at h1
  have e : (fun x : ℝ => (-x) ^ (2 * j + 1)) = fun x => (-1) * x ^ (2 * j + 1) := by
    funext x
    rw [Odd.neg_pow ⟨j, rfl⟩]; ring
  rw [e, quad_smul] at h1
  linarith

theorem quad_moment {n : ℕ} {xs ws : List ℝ} (h : Table n xs ws) (k : ℕ) (hk : k < 2 * n) :
    |quadrature xs ws (fun x => x ^ k) - ∫ x in (-1 : ℝ)..1, x ^ k| ≤ 1 / 10 ^ 75 := by
  rw [integral_pow]
  rcases Nat.even_or_odd' k with ⟨j, rfl | rfl⟩
  · have := h.even j (by omega)
    refine le_trans (le_of_eq ?_) this
    congr 2
    rw [Odd.neg_pow ⟨j, rfl⟩]
    push_cast
    norm_num
  · rw [quad_odd h]
    have e : (1 : ℝ) ^ (2 * j + 1 + 1) - (-1) ^ (2 * j + 1 + 1) = 0 := by
      rw [Even.neg_pow ⟨j + 1, by ring⟩]; simp
    rw [e]
    norm_num

theorem quad_poly {n : ℕ} {xs ws : List ℝ} {ε : ℝ} (hm : ∀ k < n, |quadrature xs ws (fun x => x ^ k) - ∫ x in (-1 : ℝ)..1, x ^ k| ≤ ε)
    (p : Polynomial ℝ) (hp : p.natDegree < n) :
    |quadrature xs ws (fun x => p.eval x) - ∫ x in (-1 : ℝ)..1, p.eval x| ≤ ε * size n p := by
  have e : (fun x => p.eval x) = fun x => ∑ k ∈ Finset.range n, p.coeff k * x ^ k := by
    funext x; exact Polynomial.eval_eq_sum_range' hp x
  simp only [e]
  rw [quad_sum, intervalIntegral.integral_finset_sum]
  · simp only [quad_smul, intervalIntegral.integral_const_mul]
    rw [← Finset.sum_sub_distrib]
    refine (Finset.abs_sum_le_sum_abs _ _).trans ?_
    unfold size
    rw [Finset.mul_sum]
    refine Finset.sum_le_sum fun k hk => ?_
    rw [← mul_sub, abs_mul, mul_comm]
    exact mul_le_mul_of_nonneg_right (hm k (Finset.mem_range.1 hk)) (abs_nonneg _)
  · intro k _
    exact (Continuous.intervalIntegrable (by fun_prop) _ _)

theorem quad_mono (xs ws : List ℝ) (f g : ℝ → ℝ) (hw : ∀ w ∈ ws, 0 ≤ w) (h : ∀ x ∈ xs, f x ≤ g x) : quadrature xs ws f ≤ quadrature xs ws g := by
  unfold quadrature
  induction xs generalizing ws with
  | nil => simp
  | cons x xs ih =>
    cases ws with
    | nil => simp
    | cons w ws =>
      simp only [List.zipWith_cons_cons, List.sum_cons]
      exact add_le_add (mul_le_mul_of_nonneg_left (h x (by simp)) (hw w (by simp)))
        (ih ws (fun w' h' => hw w' (by simp [h'])) (fun x' h' => h x' (by simp [h'])))

theorem quad_function {n : ℕ} {xs ws : List ℝ} (h : Table n xs ws) (hn : 0 < n) (f : ℝ → ℝ) (hf : ContinuousOn f (Set.Icc (-1) 1))
    (p : Polynomial ℝ) (hp : p.natDegree < 2 * n) (d : ℝ) (hd : ∀ x ∈ Set.Icc (-1 : ℝ) 1, |f x - p.eval x| ≤ d) :
    |quadrature xs ws f - ∫ x in (-1 : ℝ)..1, f x| ≤ (4 + 1 / 10 ^ 75) * d + 1 / 10 ^ 75 * size (2 * n) p := by
  have hpoly := quad_poly (quad_moment h) p hp
  have hins : ∀ x ∈ xs, x ∈ Set.Icc (-1 : ℝ) 1 := fun x hx => ⟨(h.inside x hx).1.le, (h.inside x hx).2.le⟩
  have hone := quad_moment h 0 (by omega)
  simp only [pow_zero, integral_pow] at hone
  norm_num at hone
  have one : quadrature xs ws (fun _ => 1) ≤ 2 + 1 / 10 ^ 75 := by
    have := (abs_le.1 hone).2
    norm_num
    linarith
  have d0 : 0 ≤ d := (abs_nonneg _).trans (hd 0 (by simp))
  have a : |quadrature xs ws f - quadrature xs ws (fun x => p.eval x)| ≤ (2 + 1 / 10 ^ 75) * d := by
    have e : quadrature xs ws f = quadrature xs ws (fun x => (f x - p.eval x)) + quadrature xs ws (fun x => p.eval x) := by
      rw [← quad_add]; congr 1; funext x; ring
    rw [e, add_sub_cancel_right]
    have u1 := quad_mono xs ws (fun x => f x - p.eval x) (fun _ => d * 1) (fun w hw => (h.pos w hw).le)
      (fun x hx => by rw [mul_one]; exact (abs_le.1 (hd x (hins x hx))).2)
    have u2 := quad_mono xs ws (fun _ => (-d) * 1) (fun x => f x - p.eval x) (fun w hw => (h.pos w hw).le)
      (fun x hx => by rw [mul_one]; exact (abs_le.1 (hd x (hins x hx))).1)
    rw [quad_smul] at u1 u2
    have := mul_le_mul_of_nonneg_left one d0
    exact abs_le.2 ⟨by linarith, by linarith⟩
  have b : |(∫ x in (-1 : ℝ)..1, f x) - ∫ x in (-1 : ℝ)..1, p.eval x| ≤ 2 * d := by
    have hfi : IntervalIntegrable f MeasureTheory.volume (-1) 1 := (ContinuousOn.intervalIntegrable (by rw [Set.uIcc_of_le (by norm_num)]; exact hf))
    have hpi : IntervalIntegrable (fun x => p.eval x) MeasureTheory.volume (-1) 1 := p.continuous.intervalIntegrable _ _
    rw [← intervalIntegral.integral_sub hfi hpi]
    have := intervalIntegral.norm_integral_le_of_norm_le_const (a := (-1 : ℝ)) (b := 1) (C := d) (f := fun x => f x - p.eval x) (by
      intro x hx
      rw [Set.uIoc_of_le (by norm_num)] at hx
      exact hd x ⟨hx.1.le, hx.2⟩)
    rw [Real.norm_eq_abs] at this
    refine this.trans (le_of_eq ?_)
    norm_num
    ring
  have t1 := abs_sub_le (quadrature xs ws f) (quadrature xs ws (fun x => p.eval x)) (∫ x in (-1 : ℝ)..1, p.eval x)
  have t2 := abs_sub_le (quadrature xs ws f) (∫ x in (-1 : ℝ)..1, p.eval x) (∫ x in (-1 : ℝ)..1, f x)
  rw [abs_sub_comm (∫ x in (-1 : ℝ)..1, p.eval x)] at t2
  linarith

/-! ### Rounded literals -/

open FloatStep in
theorem quad_rounded {n : ℕ} {xs ws : List ℝ} (h : Table n xs ws) (hn : 0 < n) (fl : ℝ → ℝ) (u : ℝ) (hu : 0 ≤ u) (hu1 : 1024 * u ≤ 1)
    (hfl : ∀ x, |fl x - x| ≤ u * |x|) (k : ℕ) (hk : k < 2 * n) :
    |quadrature (xs.map fl) (ws.map fl) (fun x => x ^ k) - ∫ x in (-1 : ℝ)..1, x ^ k| ≤ 1 / 10 ^ 75 + 10 * n * u := by
  have hA : Spec.FloatStep.Accurate ⟨fl, Real.sin, Real.cos⟩ u := ⟨hfl, fun x => by simp; exact hu, fun x => by simp; exact hu⟩
  have hu' : u < 1 := by linarith
  have r := fun a => Rel.round hu hu' hA a
  have hpow : ∀ (x : ℝ) (k : ℕ), Rel u k (fl x ^ k) (x ^ k) := by
    intro x k
    induction k with
    | zero => simpa using Rel.refl hu hu' 1
    | succ k ih => rw [pow_succ, pow_succ]; exact ih.mul hu hu' (r x)
  have hle := h.le
  have k1 : ((k + 1 : ℕ) : ℝ) ≤ 2 * n := by exact_mod_cast (by omega : k + 1 ≤ 2 * n)
  have n1 : (n : ℝ) ≤ 128 := by exact_mod_cast hle
  have term : ∀ x w : ℝ, -1 < x ∧ x < 1 → 0 < w → |fl w * fl x ^ k - w * x ^ k| ≤ 4 * n * u * w := by
    intro x w hx hw
    have h1 := ((hpow x k).mul hu hu' (r w)).abs hu hu' (by nlinarith)
    change |fl x ^ k * fl w - x ^ k * w| ≤ _ at h1
    rw [mul_comm (fl w), mul_comm w]
    refine h1.trans ?_
    rw [abs_mul, abs_pow, abs_of_pos hw]
    have : |x| ^ k ≤ 1 := pow_le_one₀ (abs_nonneg _) (abs_le.2 ⟨hx.1.le, hx.2.le⟩)
    have a : |x| ^ k * w ≤ 1 * w := mul_le_mul_of_nonneg_right this hw.le
    have b : 2 * ((k + 1 : ℕ) : ℝ) * u ≤ 4 * n * u := mul_le_mul_of_nonneg_right (by linarith) hu
    have c : 0 ≤ 4 * n * u := by positivity
    calc 2 * ((k + 1 : ℕ) : ℝ) * u * (|x| ^ k * w) ≤ 4 * n * u * (1 * w) := mul_le_mul b a (by positivity) c
      _ = _ := by ring
  have key : ∀ (xs ws : List ℝ), (∀ x ∈ xs, -1 < x ∧ x < 1) → (∀ w ∈ ws, 0 < w) →
      |quadrature (xs.map fl) (ws.map fl) (fun x => x ^ k) - quadrature xs ws (fun x => x ^ k)| ≤ 4 * n * u * quadrature xs ws (fun _ => 1) := by
    intro xs
    unfold quadrature
    induction xs with
    | nil => intro ws _ _; simp
    | cons x xs ih =>
      intro ws h1 h2
      cases ws with
      | nil => simp
      | cons w ws =>
        have i := ih ws (fun y hy => h1 y (by simp [hy])) (fun y hy => h2 y (by simp [hy]))
        have t := term x w (h1 x (by simp)) (h2 w (by simp))
        simp only [List.map_cons, List.zipWith_cons_cons, List.sum_cons]
        have := abs_add_le (fl w * fl x ^ k - w * x ^ k) ((List.zipWith (fun x w => w * x ^ k) (List.map fl xs) (List.map fl ws)).sum - (List.zipWith (fun x w => w * x ^ k) xs ws).sum)
        rw [show fl w * fl x ^ k - w * x ^ k + ((List.zipWith (fun x w => w * x ^ k) (List.map fl xs) (List.map fl ws)).sum - (List.zipWith (fun x w => w * x ^ k) xs ws).sum) =
          fl w * fl x ^ k + (List.zipWith (fun x w => w * x ^ k) (List.map fl xs) (List.map fl ws)).sum - (w * x ^ k + (List.zipWith (fun x w => w * x ^ k) xs ws).sum) by ring] at this
        linarith
  have hk1 := key xs ws h.inside h.pos
  have hone := quad_moment h 0 (by omega)
  simp only [pow_zero, integral_pow] at hone
  norm_num at hone
  have one : quadrature xs ws (fun _ => 1) ≤ 5 / 2 := by
    have := (abs_le.1 hone).2
    linarith [(by norm_num : (1 : ℝ) / 10 ^ 75 ≤ 1 / 2)]
  have := mul_le_mul_of_nonneg_left one (by positivity : 0 ≤ 4 * n * u)
  have m := quad_moment h k hk
  have t := abs_sub_le (quadrature (xs.map fl) (ws.map fl) (fun x => x ^ k)) (quadrature xs ws (fun x => x ^ k)) (∫ x in (-1 : ℝ)..1, x ^ k)
  linarith

/-! ### The switch -/

theorem cases_good : ∀ c ∈ cases, good c.1 c.2.1 c.2.2 = true :=
  List.forall_mem_cons.2 ⟨good1, List.forall_mem_cons.2
    ⟨good2, List.forall_mem_cons.2
    ⟨good3, List.forall_mem_cons.2
    ⟨good4, List.forall_mem_cons.2
    ⟨good5, List.forall_mem_cons.2
    ⟨good6, List.forall_mem_cons.2
    ⟨good7, List.forall_mem_cons.2
    ⟨good8, List.forall_mem_cons.2
    ⟨good9, List.forall_mem_cons.2
    ⟨good10, List.forall_mem_cons.2
    ⟨good11, List.forall_mem_cons.2
    ⟨good12, List.forall_mem_cons.2
    ⟨good13, List.forall_mem_cons.2
    ⟨good14, List.forall_mem_cons.2
    ⟨good15, List.forall_mem_cons.2
    ⟨good16, List.forall_mem_cons.2
    ⟨good17, List.forall_mem_cons.2
    ⟨good18, List.forall_mem_cons.2
    ⟨good19, List.forall_mem_cons.2
    ⟨good20, List.forall_mem_cons.2
    ⟨good21, List.forall_mem_cons.2
    ⟨good22, List.forall_mem_cons.2
    ⟨good23, List.forall_mem_cons.2
    ⟨good24, List.forall_mem_cons.2
    ⟨good25, List.forall_mem_cons.2
    ⟨good26, List.forall_mem_cons.2
    ⟨good27, List.forall_mem_cons.2
    ⟨good28, List.forall_mem_cons.2
    ⟨good29, List.forall_mem_cons.2
    ⟨good30, List.forall_mem_cons.2
    ⟨good31, List.forall_mem_cons.2
    ⟨good32, List.forall_mem_cons.2
    ⟨good33, List.forall_mem_cons.2
    ⟨good34, List.forall_mem_cons.2
    ⟨good35, List.forall_mem_cons.2
    ⟨good36, List.forall_mem_cons.2
    ⟨good37, List.forall_mem_cons.2
    ⟨good38, List.forall_mem_cons.2
    ⟨good39, List.forall_mem_cons.2
    ⟨good40, List.forall_mem_cons.2
    ⟨good41, List.forall_mem_cons.2
    ⟨good42, List.forall_mem_cons.2
    ⟨good43, List.forall_mem_cons.2
    ⟨good44, List.forall_mem_cons.2
    ⟨good45, List.forall_mem_cons.2
    ⟨good46, List.forall_mem_cons.2
    ⟨good47, List.forall_mem_cons.2
    ⟨good48, List.forall_mem_cons.2
    ⟨good49, List.forall_mem_cons.2
    ⟨good50, List.forall_mem_cons.2
    ⟨good51, List.forall_mem_cons.2
    ⟨good52, List.forall_mem_cons.2
    ⟨good53, List.forall_mem_cons.2
    ⟨good54, List.forall_mem_cons.2
    ⟨good55, List.forall_mem_cons.2
    ⟨good56, List.forall_mem_cons.2
    ⟨good57, List.forall_mem_cons.2
    ⟨good58, List.forall_mem_cons.2
    ⟨good59, List.forall_mem_cons.2
    ⟨good60, List.forall_mem_cons.2
    ⟨good61, List.forall_mem_cons.2
    ⟨good62, List.forall_mem_cons.2
    ⟨good63, List.forall_mem_cons.2
    ⟨good64, List.forall_mem_cons.2
    ⟨good65, List.forall_mem_cons.2
    ⟨good66, List.forall_mem_cons.2
    ⟨good67, List.forall_mem_cons.2
    ⟨good68, List.forall_mem_cons.2
    ⟨good69, List.forall_mem_cons.2
    ⟨good70, List.forall_mem_cons.2
    ⟨good71, List.forall_mem_cons.2
    ⟨good72, List.forall_mem_cons.2
    ⟨good73, List.forall_mem_cons.2
    ⟨good74, List.forall_mem_cons.2
    ⟨good75, List.forall_mem_cons.2
    ⟨good76, List.forall_mem_cons.2
    ⟨good77, List.forall_mem_cons.2
    ⟨good78, List.forall_mem_cons.2
    ⟨good79, List.forall_mem_cons.2
    ⟨good80, List.forall_mem_cons.2
    ⟨good81, List.forall_mem_cons.2
    ⟨good82, List.forall_mem_cons.2
    ⟨good83, List.forall_mem_cons.2
    ⟨good84, List.forall_mem_cons.2
    ⟨good85, List.forall_mem_cons.2
    ⟨good86, List.forall_mem_cons.2
    ⟨good87, List.forall_mem_cons.2
    ⟨good88, List.forall_mem_cons.2
    ⟨good89, List.forall_mem_cons.2
    ⟨good90, List.forall_mem_cons.2
    ⟨good91, List.forall_mem_cons.2
    ⟨good92, List.forall_mem_cons.2
    ⟨good93, List.forall_mem_cons.2
    ⟨good94, List.forall_mem_cons.2
    ⟨good95, List.forall_mem_cons.2
    ⟨good96, List.forall_mem_cons.2
    ⟨good97, List.forall_mem_cons.2
    ⟨good98, List.forall_mem_cons.2
    ⟨good99, List.forall_mem_cons.2
    ⟨good100, List.forall_mem_cons.2
    ⟨good101, List.forall_mem_cons.2
    ⟨good102, List.forall_mem_cons.2
    ⟨good103, List.forall_mem_cons.2
    ⟨good104, List.forall_mem_cons.2
    ⟨good105, List.forall_mem_cons.2
    ⟨good106, List.forall_mem_cons.2
    ⟨good107, List.forall_mem_cons.2
    ⟨good108, List.forall_mem_cons.2
    ⟨good109, List.forall_mem_cons.2
    ⟨good110, List.forall_mem_cons.2
    ⟨good111, List.forall_mem_cons.2
    ⟨good112, List.forall_mem_cons.2
    ⟨good113, List.forall_mem_cons.2
    ⟨good114, List.forall_mem_cons.2
    ⟨good115, List.forall_mem_cons.2
    ⟨good116, List.forall_mem_cons.2
    ⟨good117, List.forall_mem_cons.2
    ⟨good118, List.forall_mem_cons.2
    ⟨good119, List.forall_mem_cons.2
    ⟨good120, List.forall_mem_cons.2
    ⟨good121, List.forall_mem_cons.2
    ⟨good122, List.forall_mem_cons.2
    ⟨good123, List.forall_mem_cons.2
    ⟨good124, List.forall_mem_cons.2
    ⟨good125, List.forall_mem_cons.2
    ⟨good126, List.forall_mem_cons.2
    ⟨good127, List.forall_mem_cons.2
    ⟨good128, by simp⟩⟩⟩⟩⟩⟩⟩⟩⟩⟩⟩⟩⟩⟩⟩⟩⟩⟩⟩⟩⟩⟩⟩⟩⟩⟩⟩⟩⟩⟩⟩⟩⟩⟩⟩⟩⟩⟩⟩⟩⟩⟩⟩⟩⟩⟩⟩⟩⟩⟩⟩⟩⟩⟩⟩⟩⟩⟩⟩⟩⟩⟩⟩⟩⟩⟩⟩⟩⟩⟩⟩⟩⟩⟩⟩⟩⟩⟩⟩⟩⟩⟩⟩⟩⟩⟩⟩⟩⟩⟩⟩⟩⟩⟩⟩⟩⟩⟩⟩⟩⟩⟩⟩⟩⟩⟩⟩⟩⟩⟩⟩⟩⟩⟩⟩⟩⟩⟩⟩⟩⟩⟩⟩⟩⟩⟩⟩⟩

theorem cases_labels : cases.map (·.1) = List.range' 1 128 := by decide +kernel

theorem find_case (N : ℤ) (h1 : 1 ≤ N) (h2 : N ≤ 128) : ∃ c, cases.find? (fun c => (c.1 : ℤ) = N) = some c ∧ (c.1 : ℤ) = N ∧ good c.1 c.2.1 c.2.2 = true := by
  have hmem : N.toNat ∈ cases.map (·.1) := by
    rw [cases_labels, List.mem_range'_1]; omega
  obtain ⟨c, hc, hcN⟩ := List.mem_map.1 hmem
  have : (cases.find? (fun c => (c.1 : ℤ) = N)).isSome := by
    rw [List.find?_isSome]
    exact ⟨c, hc, by simp; omega⟩
  obtain ⟨d, hd⟩ := Option.isSome_iff_exists.1 this
  refine ⟨d, hd, by simpa using List.find?_some hd, cases_good d (List.mem_of_find?_eq_some hd)⟩

theorem table_of (fl : ℝ → ℝ) (N : ℤ) (h1 : 1 ≤ N) (h2 : N ≤ 128) : ∃ xs ws : List ℝ, Table N.toNat xs ws ∧
    nodesAndWeights fl N = some (xs.map fl, ws.map fl) := by
  obtain ⟨c, hc, hcN, hg⟩ := find_case N h1 h2
  refine ⟨c.2.1.map lit, c.2.2.map (fun a : ℕ => lit a), ?_, ?_⟩
  · have := good_table _ _ _ hg
    rwa [show c.1 = N.toNat by omega] at this
  · unfold nodesAndWeights
    rw [if_pos ⟨h1, h2⟩, hc]
    simp [List.map_map, Function.comp_def]

end Verif.Gauss
