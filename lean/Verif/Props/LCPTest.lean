import Verif.Lemmas.LCPTest
import Mathlib.Tactic.NormNum

/-! C121: what the test of the solvers for complementarity problems reports. -/

namespace Verif

open LCPTest Spec.LCPTest

/-- C121: on any number of ranks the test reports how many entries of `x` and of `A x + b` are negative, and the largest violation. -/
theorem C121_report (x y : List (List Num)) (hx : x.flatten.length < 2 ^ 31) (hy : y.flatten.length < 2 ^ 31) :
    ∃ mx my, testLCP x y = some ((negatives x.flatten, mx), (negatives y.flatten, my)) ∧
      Largest x.flatten mx ∧ Largest y.flatten my := by
  obtain ⟨mx, h1, h2⟩ := report_spec x hx
  obtain ⟨my, h3, h4⟩ := report_spec y hy
  exact ⟨mx, my, by unfold testLCP; rw [h1, h3]; rfl, h2, h4⟩

example : ∃ x y : List (List Num), x.flatten.length < 2 ^ 31 ∧ y.flatten.length < 2 ^ 31 ∧ x.length = 2 ∧
    some (-1) ∈ x.flatten ∧ none ∈ y.flatten :=
  ⟨[[some (-1), some 2], [some 3]], [[some 0, none], [some (-2)]], by simp, by simp, rfl, by simp, by simp⟩

/-- C121: it reports no errors exactly if no entry of `x` or of `A x + b` on any rank is negative. -/
theorem C121_clean (x y : List (List Num)) (hx : x.flatten.length < 2 ^ 31) (hy : y.flatten.length < 2 ^ 31) :
    testLCP x y = some ((0, 0), (0, 0)) ↔
      (∀ l ∈ x, ∀ v : ℝ, some v ∈ l → 0 ≤ v) ∧ (∀ l ∈ y, ∀ v : ℝ, some v ∈ l → 0 ≤ v) := by
  obtain ⟨mx, my, h, h2, h4⟩ := C121_report x y hx hy
  have aux : ∀ (z : List (List Num)) (m : ℝ), Largest z.flatten m →
      ((negatives z.flatten, m) = (0, 0) ↔ ∀ l ∈ z, ∀ v : ℝ, some v ∈ l → 0 ≤ v) := by
    intro z m hm
    constructor
    · intro e l hl v hv
      obtain ⟨_, rfl⟩ := Prod.mk.inj e
      have := hm.1 v (List.mem_flatten.2 ⟨l, hl, hv⟩)
      linarith
    · intro hz
      have hn : ∀ v : ℝ, some v ∈ z.flatten → 0 ≤ v := fun v hv =>
        let ⟨l, hl, hv'⟩ := List.mem_flatten.1 hv
        hz l hl v hv'
      have e1 : negatives z.flatten = 0 := by
        unfold negatives
        rw [List.length_eq_zero_iff, List.filter_eq_nil_iff]
        rintro v hv
        simp only [decide_eq_true_eq, not_exists, not_and]
        rintro r hr rfl
        exact absurd (hn r hv) (not_le.2 hr)
      rcases hm.2.2 with e | ⟨v, hv, hmem, _⟩
      · rw [e1, e]
      · exact absurd (hn v hmem) (not_le.2 hv)
  rw [h, Option.some.injEq, Prod.mk.injEq, aux x mx h2, aux y my h4]

/-- C121: a report without errors does not mean that the problem is solved: complementarity is not tested (even for the
symmetric positive definite problems for which there is exactly one solution). -/
theorem C121_solution_false : ¬ ∀ (n : ℕ) (A : Matrix (Fin n) (Fin n) ℝ) (b x : Fin n → ℝ), 0 < n → n < 2 ^ 31 →
    A.transpose = A → (∀ v : Fin n → ℝ, v ≠ 0 → 0 < ∑ i, v i * A.mulVec v i) →
    testLCP [List.ofFn fun i => some (x i)] [List.ofFn fun i => some ((A.mulVec x + b) i)] = some ((0, 0), (0, 0)) →
    Solves A b x := by
  intro h
  have hc := h 1 1 (fun _ => 0) (fun _ => 1) (by norm_num) (by norm_num) Matrix.transpose_one
    (fun v hv => by
      have h0 : v 0 ≠ 0 := fun e => hv (by funext i; rw [Subsingleton.elim i 0, e]; rfl)
      simp only [Matrix.one_mulVec, Finset.univ_unique, Fin.default_eq_zero, Finset.sum_singleton]
      exact mul_self_pos.2 h0)
    ((C121_clean _ _ (by simp) (by simp)).2 ⟨by simp, by simp⟩)
  have := (hc 0).2.2
  simp at this

/-- C121: nor does it mean that there is a solution at all: for the test, NaN is no error. -/
theorem C121_nan_false : ¬ ∀ x y : List (List Num), x.flatten.length < 2 ^ 31 → y.flatten.length < 2 ^ 31 →
    testLCP x y = some ((0, 0), (0, 0)) → ∀ v ∈ x.flatten, v ≠ none := by
  intro h
  exact h [[none]] [[none]] (by simp) (by simp) ((C121_clean _ _ (by simp) (by simp)).2 ⟨by simp, by simp⟩) none (by simp) rfl

end Verif
