import Verif.Model.DupFilter
import Verif.Spec.DupFilter
import Mathlib.Tactic.SplitIfs
import Mathlib.Tactic.Linarith
import Mathlib.Tactic.Tauto

namespace Verif.DupFilter

open Spec.DupFilter

/-- The lines of an entry of the log. -/
def lines (e : ℕ × Msg) : List Line := (if e.1 > 0 then [⟨e.2.logger, 2, skippedText e.1⟩] else []) ++ [e.2.line]

/-- The sinks when the lines `out` have been sent to them. -/
def view (levels : List ℕ) (out : List Line) : List Sub := levels.map fun l => ⟨l, out.filter fun e => decide (e.level ≥ l)⟩

theorem dist_view (l : Line) (levels : List ℕ) (out : List Line) : dist l (view levels out) = view levels (out ++ [l]) := by
  unfold dist view
  rw [List.map_map]
  refine List.map_congr_left fun v _ => ?_
  simp only [Function.comp_apply, List.filter_append]
  by_cases h : l.level ≥ v <;> simp [h]

theorem filter_iff (f : Filter) (m : Msg) :
    filter f m = true ↔ ¬ Repeats Msg.time Msg.payload f.maxSkip f.lastTime f.lastPayload m := by
  unfold filter Repeats
  simp only [Bool.or_eq_true, decide_eq_true_eq, bne_iff_ne, not_and_or, not_le]
  tauto

theorem run_tells (levels : List ℕ) (msgs ds : List Msg) (f : Filter) (out : List Line) (hf : f.sinks = view levels out)
    (hd : ∀ d ∈ ds, Repeats Msg.time Msg.payload f.maxSkip f.lastTime f.lastPayload d) (hs : f.skip = ds.length)
    (hn : ds.length + msgs.length < 2 ^ 64) :
    ∃ log, Tells Msg.time Msg.payload f.maxSkip f.lastTime f.lastPayload log (ds ++ msgs) ∧
      (run f msgs).sinks = view levels (out ++ log.flatMap lines) := by
  induction msgs generalizing ds f out with
  | nil => exact ⟨[], by rw [List.append_nil]; exact .pending _ _ _ hd, by simpa [run] using hf⟩
  | cons m l ih =>
    rw [List.length_cons] at hn
    have hrun : run f (m :: l) = run (sinkIt f m) l := rfl
    rw [hrun]
    by_cases hm : filter f m = true
    · have hR := (filter_iff f m).1 hm
      have hstep : (sinkIt f m).sinks = view levels (out ++ lines (ds.length, m)) := by
        unfold sinkIt lines
        simp only [hm, Bool.not_true, Bool.false_eq_true, if_false, hs]
        split_ifs with h0
        · rw [hf, dist_view, dist_view, List.append_assoc]
        · rw [hf, dist_view]; rfl
      have hrest : (sinkIt f m).maxSkip = f.maxSkip ∧ (sinkIt f m).lastTime = m.time ∧ (sinkIt f m).lastPayload = m.payload ∧
          (sinkIt f m).skip = 0 := by
        unfold sinkIt
        simp only [hm, Bool.not_true, Bool.false_eq_true, if_false, and_self]
      obtain ⟨e1, e2, e3, e4⟩ := hrest
      obtain ⟨log, h1, h2⟩ := ih [] (sinkIt f m) _ hstep (by simp) (by simpa using e4) (by simp only [List.length_nil]; omega)
      rw [e1, e2, e3, List.nil_append] at h1
      refine ⟨(ds.length, m) :: log, .entry _ _ ds m log l hd hR h1, ?_⟩
      rw [h2, List.flatMap_cons, List.append_assoc]
    · have hR : Repeats Msg.time Msg.payload f.maxSkip f.lastTime f.lastPayload m := by
        by_contra h
        exact hm ((filter_iff f m).2 h)
      have hstep : sinkIt f m = { f with skip := (f.skip + 1) % 2 ^ 64 } := by
        unfold sinkIt
        rw [if_pos (by simpa using hm)]
      rw [hstep]
      obtain ⟨log, h1, h2⟩ := ih (ds ++ [m]) { f with skip := (f.skip + 1) % 2 ^ 64 } out hf
        (fun d hd' => by
          rcases List.mem_append.1 hd' with h | h
          · exact hd d h
          · obtain rfl : d = m := by simpa using h
            exact hR)
        (by
          show (f.skip + 1) % 2 ^ 64 = _
          rw [hs, List.length_append, Nat.mod_eq_of_lt (by omega)]; rfl)
        (by simp only [List.length_append, List.length_cons, List.length_nil]; omega)
      exact ⟨log, by simpa using h1, h2⟩

/-- Where a list splits at the first element without a property. -/
theorem split_unique {α : Type} {p : α → Prop} {ds ds' l l' : List α} {m m' : α} (h : ds ++ m :: l = ds' ++ m' :: l')
    (hd : ∀ d ∈ ds, p d) (hm : ¬ p m) (hd' : ∀ d ∈ ds', p d) (hm' : ¬ p m') : ds = ds' ∧ m = m' ∧ l = l' := by
  induction ds generalizing ds' with
  | nil =>
    cases ds' with
    | nil => simpa using h
    | cons a t =>
      obtain ⟨rfl, _⟩ : m = a ∧ l = t ++ m' :: l' := by simpa using h
      exact absurd (hd' m (by simp)) hm
  | cons a t ih =>
    cases ds' with
    | nil =>
      obtain ⟨rfl, _⟩ : a = m' ∧ t ++ m :: l = l' := by simpa using h
      exact absurd (hd a (by simp)) hm'
    | cons b t' =>
      obtain ⟨rfl, h'⟩ : a = b ∧ t ++ m :: l = t' ++ m' :: l' := by simpa using h
      obtain ⟨rfl, h2⟩ := ih h' (fun d hh => hd d (by simp [hh])) fun d hh => hd' d (by simp [hh])
      exact ⟨rfl, h2⟩

theorem tells_unique {α β : Type} {time : α → ℤ} {text : α → β} {max t : ℤ} {last : β} {log log' : List (ℕ × α)} {msgs : List α}
    (h : Tells time text max t last log msgs) (h' : Tells time text max t last log' msgs) : log = log' := by
  induction h generalizing log' with
  | pending t last ds hd =>
    cases h' with
    | pending => rfl
    | entry _ _ ds' m log msgs hd' hm ht => exact absurd (hd m (by simp)) hm
  | entry t last ds m log msgs hd hm ht ih =>
    generalize he : ds ++ m :: msgs = all at h'
    cases h' with
    | pending _ _ _ hd' =>
      subst he
      exact absurd (hd' m (by simp)) hm
    | entry _ _ ds' m' log' msgs' hd' hm' ht' =>
      obtain ⟨rfl, rfl, rfl⟩ := split_unique he hd hm hd' hm'
      rw [ih ht']

end Verif.DupFilter
