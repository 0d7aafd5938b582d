import Verif.Model.LCPTest
import Verif.Spec.LCPTest
import Mathlib.Tactic.Linarith

namespace Verif.LCPTest

open Spec.LCPTest (negatives Largest)

theorem negatives_append (a b : List Num) : negatives (a ++ b) = negatives a + negatives b := by
  unfold negatives; rw [List.filter_append, List.length_append]

theorem negatives_le (l : List Num) : negatives l ≤ l.length := List.length_filter_le ..

theorem _root_.Verif.Spec.LCPTest.Largest.append {a b : List Num} {m n : ℝ} (ha : Largest a m) (hb : Largest b n) : Largest (a ++ b) (max m n) := by
  obtain ⟨a1, a2, a3⟩ := ha
  obtain ⟨b1, b2, b3⟩ := hb
  refine ⟨fun v hv => ?_, le_max_of_le_left a2, ?_⟩
  · rcases List.mem_append.1 hv with h | h
    · exact (a1 v h).trans (le_max_left _ _)
    · exact (b1 v h).trans (le_max_right _ _)
  · rcases max_choice m n with h | h <;> rw [h]
    · rcases a3 with e | ⟨v, h0, hm, e⟩
      · exact Or.inl e
      · exact Or.inr ⟨v, h0, List.mem_append_left _ hm, e⟩
    · rcases b3 with e | ⟨v, h0, hm, e⟩
      · exact Or.inl e
      · exact Or.inr ⟨v, h0, List.mem_append_right _ hm, e⟩

theorem scan_spec (l done : List Num) (m : ℝ) (hm : Largest done m) (hn : (done ++ l).length < 2 ^ 31) :
    ∃ m', scan l (negatives done, m) = some (negatives (done ++ l), m') ∧ Largest (done ++ l) m' := by
  induction l generalizing done m with
  | nil => exact ⟨m, by rw [List.append_nil]; rfl, by rwa [List.append_nil]⟩
  | cons v l ih =>
    have hstep : ∃ m', look v (negatives done, m) = some (negatives (done ++ [v]), m') ∧ Largest (done ++ [v]) m' := by
      have hle := negatives_le done
      rw [List.length_append, List.length_cons] at hn
      cases v with
      | none =>
        refine ⟨m, ?_, ?_⟩
        · rw [negatives_append]; simp [look, negatives]
        · have := hm.append (b := [none]) (n := 0) ⟨by simp, le_rfl, Or.inl rfl⟩
          rwa [max_eq_left hm.2.1] at this
      | some r =>
        by_cases hr : r < 0
        · refine ⟨max m (-r), ?_, ?_⟩
          · rw [negatives_append]
            have e : negatives [some r] = 1 := by simp [negatives, hr]
            unfold look addInt
            rw [e]
            simp only [hr, if_true]
            rw [if_pos (by omega)]; rfl
          · refine hm.append ⟨fun v hv => ?_, by linarith, Or.inr ⟨r, hr, by simp, rfl⟩⟩
            obtain rfl : v = r := by simpa using hv
            exact le_rfl
        · refine ⟨m, ?_, ?_⟩
          · rw [negatives_append]
            have e : negatives [some r] = 0 := by simp [negatives, le_of_not_gt hr]
            unfold look
            simp only [hr, if_false, e, Nat.add_zero]
          · have := hm.append (b := [some r]) (n := 0) ⟨fun v hv => ?_, le_rfl, Or.inl rfl⟩
            · rwa [max_eq_left hm.2.1] at this
            · obtain rfl : v = r := by simpa using hv
              linarith [le_of_not_gt hr]
    obtain ⟨m1, h1, h2⟩ := hstep
    obtain ⟨m2, h3, h4⟩ := ih (done ++ [v]) m1 h2 (by simpa using hn)
    refine ⟨m2, ?_, by simpa using h4⟩
    show (look v _).bind _ = _
    rw [h1]
    simpa using h3

theorem scan_zero (l : List Num) (hn : l.length < 2 ^ 31) : ∃ m, scan l (0, 0) = some (negatives l, m) ∧ Largest l m := by
  simpa [negatives] using scan_spec l [] 0 ⟨by simp, le_rfl, Or.inl rfl⟩ (by simpa using hn)

theorem report_spec (ranks : List (List Num)) (hn : ranks.flatten.length < 2 ^ 31) :
    ∃ m, report ranks = some (negatives ranks.flatten, m) ∧ Largest ranks.flatten m := by
  have key : ∃ rs, ranks.mapM (fun l => scan l (0, 0)) = some rs ∧ rs.length = ranks.length ∧
      ∃ m, reduce rs = some (negatives ranks.flatten, m) ∧ Largest ranks.flatten m := by
    induction ranks with
    | nil => exact ⟨[], by simp, rfl, 0, by simp [reduce, negatives], by simp, le_rfl, Or.inl rfl⟩
    | cons l t ih =>
      rw [List.flatten_cons, List.length_append] at hn
      obtain ⟨rs, h1, hlen, m, h2, h3⟩ := ih (by omega)
      obtain ⟨m0, h4, h5⟩ := scan_zero l (by omega)
      refine ⟨(negatives l, m0) :: rs, by simp [List.mapM_cons, h4, h1], by simp [hlen], ?_⟩
      rw [List.flatten_cons, negatives_append]
      cases rs with
      | nil =>
        obtain rfl : t = [] := List.eq_nil_of_length_eq_zero hlen.symm
        exact ⟨m0, by simp [reduce, negatives], by simpa using h5⟩
      | cons r rs =>
        refine ⟨max m0 m, ?_, h5.append h3⟩
        have e : reduce ((negatives l, m0) :: r :: rs) = (reduce (r :: rs)).bind fun q =>
            (addInt (negatives l) q.1).map fun n => (n, max m0 q.2) := rfl
        have a := negatives_le l
        have b := negatives_le t.flatten
        rw [e, h2]
        unfold addInt
        simp only [Option.bind_some]
        rw [if_pos (by omega)]; rfl
  obtain ⟨rs, h1, _, m, h2, h3⟩ := key
  refine ⟨m, ?_, h3⟩
  unfold report
  rw [h1]; exact h2

end Verif.LCPTest
