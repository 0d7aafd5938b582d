import Verif.Lemmas.DupFilter

/-! C120: what a log without duplicates says. -/

namespace Verif

open Text (Str)
open DupFilter Spec.DupFilter

/-- C120: the sinks behind the filter get, in order, the messages that do not repeat the one before (at most `maxSkip` later), each
after a line with the number of repetitions of the one before, if there were any; a sink gets those of its levels. -/
theorem C120_log (maxSkip : ℤ) (levels : List ℕ) (msgs : List Msg) (hn : msgs.length < 2 ^ 64) :
    ∃ log, Tells Msg.time Msg.payload (1000 * maxSkip) 0 [] log msgs ∧
      (run (start maxSkip levels) msgs).sinks = levels.map fun l =>
        ⟨l, (log.flatMap fun e => (if e.1 > 0 then [⟨e.2.logger, 2, skippedText e.1⟩] else []) ++ [e.2.line]).filter
          fun e => decide (e.level ≥ l)⟩ := by
  obtain ⟨log, h1, h2⟩ := run_tells levels msgs [] (start maxSkip levels) [] rfl (by simp) rfl (by simpa using hn)
  exact ⟨log, h1, h2⟩

/-- C120: and this determines the log. -/
theorem C120_unique (max t : ℤ) (last : Str) (log log' : List (ℕ × Msg)) (msgs : List Msg)
    (h : Tells Msg.time Msg.payload max t last log msgs) (h' : Tells Msg.time Msg.payload max t last log' msgs) : log = log' :=
  tells_unique h h'

/-- Three messages in time and one that is too late, in a sink for all levels and one for errors. -/
example : ((run (start 5 [0, 4]) [⟨10000, [], 2, ['a']⟩, ⟨11000, [], 4, ['a']⟩, ⟨12000, [], 2, ['b']⟩, ⟨17001, [], 4, ['b']⟩]).sinks.map
      Sub.got) =
    [[⟨[], 2, ['a']⟩, ⟨[], 2, skippedText 1⟩, ⟨[], 2, ['b']⟩, ⟨[], 4, ['b']⟩], [⟨[], 4, ['b']⟩]] := by decide +kernel

/-- C120: a message, `n` repetitions of it in time and another message give the message, the number `n` and the other message.
(The comment in spdlog/sinks/dup_filter_sink.h:17-33 has the number 3 for two repetitions.) -/
theorem C120_repeated (maxSkip : ℤ) (m m' : Msg) (ds : List Msg) (hn : ds.length < 2 ^ 63) (hm : m.payload ≠ [])
    (hd : ∀ d ∈ ds, d.payload = m.payload ∧ d.time - m.time ≤ 1000 * maxSkip) (hne : m'.payload ≠ m.payload) :
    ((run (start maxSkip [0]) (m :: ds ++ [m'])).sinks.map Sub.got) =
      [m.line :: ((if ds.length > 0 then [⟨m'.logger, 2, skippedText ds.length⟩] else []) ++ [m'.line])] := by
  obtain ⟨log, h1, h2⟩ := C120_log maxSkip [0] (m :: ds ++ [m']) (by simp only [List.length_append, List.length_cons, List.length_nil]; omega)
  have h3 : Tells Msg.time Msg.payload (1000 * maxSkip) 0 [] [(0, m), (ds.length, m')] (m :: ds ++ [m']) := by
    refine .entry 0 [] [] m _ (ds ++ [m']) (by simp) (fun h => hm h.1) ?_
    exact .entry _ _ ds m' [] [] hd (fun h => hne h.1) (.pending _ _ _ (by simp))
  obtain rfl := tells_unique h1 h3
  rw [h2]
  simp only [List.map_cons, List.map_nil, List.flatMap_cons, List.flatMap_nil, ge_iff_le, Nat.zero_le, decide_true, List.append_nil,
    gt_iff_lt, lt_irrefl, if_false, List.nil_append, List.singleton_append]
  rw [List.filter_eq_self.2 fun _ _ => rfl]

example : ∃ (m m' : Msg) (ds : List Msg), ds.length = 2 ∧ m.payload ≠ [] ∧
    (∀ d ∈ ds, d.payload = m.payload ∧ d.time - m.time ≤ 1000 * 5000000) ∧ m'.payload ≠ m.payload :=
  ⟨⟨100, [], 2, ['H']⟩, ⟨103, [], 2, ['D']⟩, [⟨101, [], 2, ['H']⟩, ⟨102, [], 2, ['H']⟩], rfl, by decide, by decide, by decide⟩

/-- C120: an error can get lost.  It repeats the text of a message of a lower level, and so a sink for errors gets neither. -/
theorem C120_level_false : ¬ ∀ (maxSkip : ℤ) (levels : List ℕ) (msgs : List Msg), msgs.length < 2 ^ 64 →
    ∀ s ∈ (run (start maxSkip levels) msgs).sinks, ∀ m ∈ msgs, m.level ≥ s.level → ∃ l ∈ s.got, l.payload = m.payload := by
  intro h
  have := h 5 [4] [⟨10000, [], 2, ['a']⟩, ⟨11000, [], 4, ['a']⟩] (by decide) ⟨4, []⟩ (by decide +kernel) ⟨11000, [], 4, ['a']⟩
    (by decide) (by decide)
  simpa using this

/-- C120: the lines do not tell what the messages were: a message can look like a number of repetitions. -/
theorem C120_ambiguous_false : ¬ ∀ (maxSkip : ℤ) (levels : List ℕ) (msgs msgs' : List Msg), msgs.length < 2 ^ 64 → msgs'.length < 2 ^ 64 →
    (run (start maxSkip levels) msgs).skip = 0 → (run (start maxSkip levels) msgs').skip = 0 →
    (run (start maxSkip levels) msgs).sinks.map Sub.got = (run (start maxSkip levels) msgs').sinks.map Sub.got →
    0 ∈ levels → msgs.map Msg.payload = msgs'.map Msg.payload := by
  intro h
  have := h 5 [0] [⟨10000, [], 2, ['a']⟩, ⟨11000, [], 2, ['a']⟩, ⟨12000, [], 2, ['b']⟩]
    [⟨10000, [], 2, ['a']⟩, ⟨11000, [], 2, skippedText 1⟩, ⟨12000, [], 2, ['b']⟩] (by decide) (by decide) (by decide +kernel)
    (by decide +kernel) (by decide +kernel) (by decide)
  revert this
  decide +kernel

end Verif
