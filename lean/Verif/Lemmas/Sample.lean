import Verif.Lemmas.Domain
import Mathlib.Algebra.BigOperators.Group.List.Basic
import Mathlib.Algebra.Order.BigOperators.Group.List
/-! Proofs about the numbers of domains and the samples. -/
namespace Verif.Domain

/-! ### numbers of domains -/

theorem divisor_spec (n : ℕ) : ∀ t, 1 ≤ t → ∃ d, divisor n t = some d ∧ d ∣ n ∧ 1 ≤ d := by
  intro t
  induction t with
  | zero => omega
  | succ t ih =>
    intro _
    rw [divisor]
    by_cases h : n % (t + 1) = 0
    · exact ⟨t + 1, by simp [h], Nat.dvd_of_mod_eq_zero h, by omega⟩
    · simp only [ne_eq, h, not_false_eq_true, if_true]
      rcases Nat.eq_zero_or_pos t with h0 | h0
      · subst h0
        simp [Nat.mod_one] at h
      · exact ih h0

theorem firstGuess_pos (n d : ℕ) (hn : 1 ≤ n) : 1 ≤ firstGuess n d := by
  unfold firstGuess
  rw [Nat.one_le_floor_iff]
  refine Real.one_le_rpow ?_ (by positivity)
  have : (1 : ℝ) ≤ n := by exact_mod_cast hn
  norm_num
  linarith

theorem factors_spec : ∀ d n, 1 ≤ n → 1 ≤ d → ∃ l, factors d n = some l ∧ l.length = d ∧ l.prod = n ∧ ∀ t ∈ l, 1 ≤ t := by
  intro d
  induction d with
  | zero => omega
  | succ d ih =>
    intro n hn _
    match d with
    | 0 => exact ⟨[n], rfl, rfl, by simp, by simpa using hn⟩
    | d + 1 =>
      obtain ⟨t, h1, h2, h3⟩ := divisor_spec n _ (firstGuess_pos n (d + 2) hn)
      obtain ⟨l, k1, k2, k3, k4⟩ := ih (n / t) (Nat.div_pos (Nat.le_of_dvd hn h2) h3) (by omega)
      refine ⟨t :: l, ?_, by simp [k2], ?_, ?_⟩
      · rw [factors, h1]
        simp only
        rw [k1]
      · rw [List.prod_cons, k3, Nat.mul_div_cancel' h2]
      · intro s hs
        rcases List.mem_cons.mp hs with rfl | hs
        · exact h3
        · exact k4 s hs

/-! ### samples -/

theorem swap_spec {α : Type} (l : List α) (i j : ℕ) (hi : i < l.length) (hj : j < l.length) :
    ∃ l', swap l i j = some l' ∧ l'.length = l.length ∧ l'.Perm l ∧ swap l' i j = some l := by
  have e : swap l i j = some ((l.set j l[i]).set i l[j]) := by
    simp [swap, List.getElem?_eq_getElem hi, List.getElem?_eq_getElem hj]
  have hget : ∀ k, ((l.set j l[i]).set i l[j])[k]? = if k = i then some l[j] else if k = j then some l[i] else l[k]? := by
    intro k
    rw [List.getElem?_set, List.getElem?_set]
    simp only [List.length_set]
    by_cases c1 : k = i
    · subst c1
      simp [hi]
    · rw [if_neg (fun h => c1 h.symm), if_neg c1]
      by_cases c2 : k = j
      · subst c2
        simp [hj]
      · rw [if_neg (fun h => c2 h.symm), if_neg c2]
  refine ⟨_, e, by simp, ?_, ?_⟩
  · rcases Nat.lt_trichotomy i j with h | h | h
    · classical
      have := List.set_set_perm (as := l) (i := j) (j := i) hj hi
      exact this
    · subst h
      simp
    · classical
      have := List.set_set_perm (as := l) (i := j) (j := i) hj hi
      exact this
  · unfold swap
    rw [hget i, hget j]
    simp only [if_true]
    have h2 : (if j = i then some l[j] else some l[i]) = some l[i] := by
      by_cases c : j = i
      · subst c; simp
      · rw [if_neg c]
    rw [h2]
    simp only
    congr 1
    apply List.ext_getElem?
    intro k
    rw [List.getElem?_set, List.getElem?_set]
    simp only [List.length_set]
    by_cases c1 : k = i
    · subst c1
      simp [hi]
    · rw [if_neg (fun h => c1 h.symm)]
      by_cases c2 : k = j
      · subst c2
        simp [hj]
      · rw [if_neg (fun h => c2 h.symm), hget k, if_neg c1, if_neg c2]

theorem uniform_spec (i n : ℕ) (u : ℝ) (h0 : 0 ≤ u) (h1 : u < 1) (hi : i < n) : i ≤ uniform i (n - 1) u ∧ uniform i (n - 1) u < n := by
  unfold uniform
  refine ⟨by omega, ?_⟩
  have hc : ((n - 1 : ℕ) : ℝ) - i + 1 = ((n - i : ℕ) : ℝ) := by
    rw [Nat.cast_sub (by omega), Nat.cast_sub (by omega)]
    push_cast
    ring
  rw [hc]
  have hp : (0 : ℝ) < ((n - i : ℕ) : ℝ) := by exact_mod_cast (by omega : 0 < n - i)
  have : ⌊((n - i : ℕ) : ℝ) * u⌋₊ < n - i := by
    rw [Nat.floor_lt (by positivity)]
    nlinarith
  omega

theorem shuffle_spec {α : Type} (u : ℕ → ℝ) (hu : ∀ i, 0 ≤ u i ∧ u i < 1) : ∀ k i (l : List α), i + k ≤ l.length →
    ∃ l' rec, shuffle u k i l = some (l', rec) ∧ l'.Perm l ∧ unshuffle i rec l' = some l := by
  intro k
  induction k with
  | zero => exact fun i l _ => ⟨l, [], rfl, List.Perm.refl _, rfl⟩
  | succ k ih =>
    intro i l h
    obtain ⟨h1, h2⟩ := uniform_spec i l.length (u i) (hu i).1 (hu i).2 (by omega)
    obtain ⟨l1, e1, k1, k2, k3⟩ := swap_spec l i (uniform i (l.length - 1) (u i)) (by omega) h2
    obtain ⟨l2, rec, e2, k4, k5⟩ := ih (i + 1) l1 (by omega)
    refine ⟨l2, uniform i (l.length - 1) (u i) :: rec, ?_, k4.trans k2, ?_⟩
    · rw [shuffle]
      simp only [e1, e2]
    · rw [unshuffle, k5]
      exact k3

theorem getSample_spec {α : Type} (pos : α → V3) (u : ℕ → ℝ) (hu : ∀ i, 0 ≤ u i ∧ u i < 1) (all target : ℕ) (l : List α) (n : ℕ)
    (hn : sampleNumber l.length all target = some n) : ∃ samples, getSample pos u all target l = some (samples, l) ∧ samples.length = n ∧
      samples.Subperm (l.map pos) := by
  have hle : n ≤ l.length := by
    unfold sampleNumber at hn
    split_ifs at hn with h
    simp only [Option.some.injEq] at hn
    split_ifs at hn <;> omega
  obtain ⟨l', rec, e, hp, hun⟩ := shuffle_spec u hu n 0 l (by omega)
  refine ⟨(l'.take n).map pos, ?_, ?_, ?_⟩
  · unfold getSample
    simp only [hn, e, hun]
  · simp [hp.length_eq, hle]
  · exact (((List.take_sublist n l').map pos).subperm).trans (hp.map pos).subperm

theorem sampleNumber_spec (m all target : ℕ) (h : 1 ≤ all) : ∃ n, sampleNumber m all target = some n ∧ n ≤ m ∧ (n : ℝ) ≤ (m : ℝ) * target / all ∧
    (all ≤ target → n = m) ∧ (target ≤ all → (m : ℝ) * target / all < n + 1) := by
  have hall : (0 : ℝ) < all := by exact_mod_cast h
  have hf : (⌊((m : ℝ) * target) / all⌋₊ : ℝ) ≤ (m : ℝ) * target / all := Nat.floor_le (by positivity)
  have hf' := Nat.lt_floor_add_one (((m : ℝ) * target) / all)
  unfold sampleNumber
  rw [if_neg (by omega)]
  refine ⟨_, rfl, ?_, ?_, ?_, ?_⟩
  · split_ifs <;> omega
  · split_ifs with c
    · exact hf
    · have : (m : ℝ) ≤ ⌊((m : ℝ) * target) / all⌋₊ := by exact_mod_cast not_lt.mp c
      linarith
  · intro ha
    have : m ≤ ⌊((m : ℝ) * target) / all⌋₊ := by
      refine Nat.le_floor ?_
      rw [le_div_iff₀ hall]
      have : (all : ℝ) ≤ target := by exact_mod_cast ha
      exact mul_le_mul_of_nonneg_left this (Nat.cast_nonneg m)
    rw [if_neg (by omega)]
  · intro ha
    split_ifs with c
    · exact hf'
    · have : (m : ℝ) * target / all ≤ m := by
        rw [div_le_iff₀ hall]
        have : (target : ℝ) ≤ all := by exact_mod_cast ha
        exact mul_le_mul_of_nonneg_left this (Nat.cast_nonneg m)
      linarith

end Verif.Domain
