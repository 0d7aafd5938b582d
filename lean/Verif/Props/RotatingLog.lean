import Verif.Lemmas.RotatingLogRun
import Mathlib.Tactic.IntervalCases

/-! C119: what is in the files of a rotating log. -/

namespace Verif

open Text (Str)
open RotatingLog Spec.RotatingLog

/-- C119: the files of a log have different names, and all are in the folder of the first. -/
theorem C119_names (c : Conf) : (∀ i j, c.name i = c.name j → i = j) ∧ ∀ i, folder (c.name i) = folder c.base :=
  ⟨fun _ _ => name_inj c, fun i => calc_folder c.base i⟩

example : (⟨"a.d/log.txt".toList, 10, 3⟩ : Conf).name 2 = "a.d/log.2.txt".toList ∧
    (⟨"a.d/log".toList, 10, 3⟩ : Conf).name 12 = "a.d/log.12".toList ∧
    (⟨"a.d/.log".toList, 10, 3⟩ : Conf).name 1 = "a.d/.log.1".toList := by decide +kernel

/-- C119: whatever attempts to rename or to open a file fail, nothing is written to a file that is not open, no file grows beyond
the limit unless it is a single message or was there before, and no other file is touched. -/
theorem C119_bounded (c : Conf) (rotateOnOpen : Bool) (files : Files) (renames : List Bool) (opens : List Opened) (msgs : List Str)
    (s : Sink) (hs : create c rotateOnOpen files renames opens = some s)
    (hsize : ((files (c.name 0)).getD []).length + msgs.flatten.length < 2 ^ 64) :
    ∃ s', sinkAll c msgs s = some s' ∧
      (∀ j ≤ c.maxFiles, ∀ t, s'.files (c.name j) = some t →
        t.length ≤ c.maxSize ∨ t ∈ msgs ∨ ∃ i ≤ c.maxFiles, files (c.name i) = some t) ∧
      (∀ p, (∀ j ≤ c.maxFiles, p ≠ c.name j) → s'.files p = files p) := by
  obtain ⟨hi, ho⟩ := create_inv hs hsize
  have hi' : Inv c (fun t => t.length ≤ c.maxSize ∨ t ∈ msgs ∨ ∃ i ≤ c.maxFiles, files (c.name i) = some t)
      msgs.flatten.length s := by
    refine ⟨hi.isOpen, hi.closed, hi.room, fun j hj t ht => ?_⟩
    rcases hi.good j hj t ht with rfl | h
    · exact Or.inl (Nat.zero_le _)
    · exact Or.inr (Or.inr h)
  obtain ⟨s', h1, h2, h3⟩ := hi'.sinkAll (fun t ht => Or.inl ht) (fun m hm => Or.inr (Or.inl hm))
  exact ⟨s', h1, h2.good, fun p hp => (h3 p hp).trans (ho p hp)⟩

/-- A run in which a file cannot be renamed, and then the log cannot be opened. -/
example : ((create ⟨['l'], 2, 2⟩ true (fun p => if p = ['l'] then some ['x'] else none) [true, false, false] [.opened, .opened, .refused]).bind
    fun s => sinkAll ⟨['l'], 2, 2⟩ [['a', 'b'], ['c', 'd', 'e'], ['f']] s).isSome = true := by decide +kernel

/-- C119: when nothing fails, the log and its numbered files hold the newest part of what was written before and is written now:
in order, without gaps and without splitting a message.  If the log is not rotated when it is opened, then a file with a
number is full: it and the next file together are beyond the limit.  Missing: that files are full in the other case, which
is false (`C119_reopen_false`). -/
theorem C119_full_partial (c : Conf) (rotateOnOpen : Bool) (files : Files) (old : List (List Str)) (msgs : List Str)
    (hold : ∀ j ≤ c.maxFiles, files (c.name j) = (old[j]?).map List.flatten)
    (hsize : ((files (c.name 0)).getD []).length + msgs.flatten.length < 2 ^ 64) :
    ∃ s s' history, create c rotateOnOpen files [] [] = some s ∧ sinkAll c msgs s = some s' ∧
      (∀ j ≤ c.maxFiles, s'.files (c.name j) = (history[j]?).map List.flatten) ∧
      History c.maxSize old history msgs ∧
      (rotateOnOpen = false → ∀ j a b, j + max 1 old.length < history.length →
        history[j]? = some a → history[j + 1]? = some b → c.maxSize < Spec.RotatingLog.size a + Spec.RotatingLog.size b) := by
  obtain ⟨s, a, T, h1, h2, h3⟩ := create_rel c rotateOnOpen files old hold
  obtain ⟨s', n', a', T', h4, h5, h6⟩ := h3.run h2 hsize
  rw [List.nil_append] at h6
  exact ⟨s, s', a' :: T', h1, h4, h5.files, h6.history, fun he => h6.full (by rw [he]; rfl)⟩

/-- C119: when nothing fails, the log and its numbered files hold the newest part of what was written before and is written now:
in order, without gaps and without splitting a message. -/
theorem C119_history (c : Conf) (rotateOnOpen : Bool) (files : Files) (old : List (List Str)) (msgs : List Str)
    (hold : ∀ j ≤ c.maxFiles, files (c.name j) = (old[j]?).map List.flatten)
    (hsize : ((files (c.name 0)).getD []).length + msgs.flatten.length < 2 ^ 64) :
    ∃ s s' history, create c rotateOnOpen files [] [] = some s ∧ sinkAll c msgs s = some s' ∧
      (∀ j ≤ c.maxFiles, s'.files (c.name j) = (history[j]?).map List.flatten) ∧ History c.maxSize old history msgs :=
  let ⟨s, s', H, h1, h2, h3, h4, _⟩ := C119_full_partial c rotateOnOpen files old msgs hold hsize
  ⟨s, s', H, h1, h2, h3, h4⟩

/-- Two old files, and a third that does not belong to the log. -/
example : ∃ files : Files, (∀ j ≤ 2, files ((⟨['l'], 5, 2⟩ : Conf).name j) =
    (([[['a'], ['b']], [['x', 'y']]] : List (List Str))[j]?).map List.flatten) ∧ files ['z'] = some ['q'] := by
  refine ⟨fun p => if p = ['l'] then some ['a', 'b'] else if p = ['l', '.', '1'] then some ['x', 'y'] else
    if p = ['z'] then some ['q'] else none, ?_, by decide +kernel⟩
  decide +kernel

/-- C119: files are lost too soon when the log cannot be opened: every message that fails moves all files on, although it
is not written.  So it is false that a text disappears only when all numbers are in use. -/
theorem C119_refused_false : ¬ ∀ (c : Conf) (opens : List Opened) (l l' : List Str) (s s1 s2 : Sink),
    create c false (fun _ => none) [] opens = some s → sinkAll c l s = some s1 → sinkAll c l' s1 = some s2 →
    (∀ j ≤ c.maxFiles, ∀ t, s1.files (c.name j) = some t → ∃ i ≤ c.maxFiles, ∃ u, s2.files (c.name i) = some u ∧ t <:+: u) ∨
    (∀ i ≤ c.maxFiles, s2.files (c.name i) ≠ none) := by
  intro h
  let c : Conf := ⟨['l'], 1, 2⟩
  let ops : List Opened := [.opened, .opened, .opened, .refused, .refused]
  have hs : (create c false (fun _ => none) [] ops).isSome = true := by decide +kernel
  obtain ⟨s, hs⟩ := Option.isSome_iff_exists.1 hs
  have run : ∀ l : List Str, ((create c false (fun _ => none) [] ops).bind (sinkAll c l)) = sinkAll c l s := by
    intro l; rw [hs]; rfl
  have h1 : (sinkAll c [['a'], ['b'], ['c']] s).isSome = true := by rw [← run]; decide +kernel
  obtain ⟨s1, h1⟩ := Option.isSome_iff_exists.1 h1
  have run1 : ∀ l : List Str, ((create c false (fun _ => none) [] ops).bind fun s => (sinkAll c [['a'], ['b'], ['c']] s).bind
      (sinkAll c l)) = sinkAll c l s1 := by
    intro l; rw [hs, Option.bind_some, h1]; rfl
  have h2 : (sinkAll c [['d'], ['e']] s1).isSome = true := by rw [← run1]; decide +kernel
  obtain ⟨s2, h2⟩ := Option.isSome_iff_exists.1 h2
  have f1 : (sinkAll c [['a'], ['b'], ['c']] s).map (fun s => s.files (c.name 1)) = some (some ['b']) := by
    rw [← run]; decide +kernel
  have f2 : (sinkAll c [['d'], ['e']] s1).map (fun s => (s.files (c.name 0), s.files (c.name 1), s.files (c.name 2))) =
      some (none, none, some ['c']) := by
    rw [← run1]; decide +kernel
  rw [h1] at f1
  rw [h2] at f2
  simp only [Option.map_some, Option.some.injEq, Prod.mk.injEq] at f1 f2
  rcases h c ops _ _ s s1 s2 hs h1 h2 with hk | hk
  · obtain ⟨i, hi, u, hu, ht⟩ := hk 1 (by decide) _ f1
    have hi' : i ≤ 2 := hi
    interval_cases i
    · rw [f2.1] at hu; exact absurd hu (by simp)
    · rw [f2.2.1] at hu; exact absurd hu (by simp)
    · rw [f2.2.2] at hu
      obtain rfl := Option.some.inj hu
      revert ht; decide
  · exact hk 0 (Nat.zero_le _) f2.1

/-- C119: a log that is rotated when it is opened still counts the characters of the old file: it can be rotated again with
the first message, while it is empty. -/
theorem C119_reopen_false : ¬ ∀ (c : Conf) (files : Files) (msgs : List Str) (s s' : Sink),
    create c true files [] [] = some s → sinkAll c msgs s = some s' → msgs ≠ [] →
    (∀ m ∈ msgs, m ≠ [] ∧ m.length ≤ c.maxSize) → (∀ j ≤ c.maxFiles, files (c.name j) ≠ some []) →
    ∀ j ≤ c.maxFiles, s'.files (c.name j) ≠ some [] := by
  intro h
  let c : Conf := ⟨['l'], 3, 2⟩
  let files : Files := fun p => if p = ['l'] then some ['a', 'b'] else none
  have hs : (create c true files [] []).isSome = true := by decide +kernel
  obtain ⟨s, hs⟩ := Option.isSome_iff_exists.1 hs
  have run : (create c true files [] []).bind (sinkAll c [['c', 'd']]) = sinkAll c [['c', 'd']] s := by rw [hs]; rfl
  have h1 : (sinkAll c [['c', 'd']] s).isSome = true := by rw [← run]; decide +kernel
  obtain ⟨s', h1⟩ := Option.isSome_iff_exists.1 h1
  have f : (sinkAll c [['c', 'd']] s).map (fun s => s.files (c.name 1)) = some (some []) := by rw [← run]; decide +kernel
  rw [h1] at f
  exact h c files _ s s' hs h1 (by simp) (by decide) (by decide +kernel) 1 (by decide) (Option.some.inj f)

end Verif
