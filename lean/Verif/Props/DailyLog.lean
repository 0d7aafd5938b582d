import Verif.Lemmas.DailyLimit
/-!
C124: the daily log files of spdlog.
-/
namespace Verif
open Text (Str)
open DailyLog (Conf Msg St run)
open Spec.DailyLog (Valid OnDay SameSpan InOrder FileOf Midnight content InSpan)

/-- C124: if files are not removed, every message is in its file, and nothing else has changed, whatever the time of the change is; if files are truncated, it has to be midnight. -/
theorem C124_files (c : Conf) (hv : Valid c) (hmax : c.maxFiles = 0) (htr : c.truncate = false ∨ Midnight c) (files : ℤ → Option (List Str)) (start : ℤ) (msgs : List Msg)
    (ho : InOrder c start msgs) : ∃ s, run c files start msgs = some s ∧ ∀ d, s.files d = content c files start msgs d := by
  classical
  obtain ⟨s, h1, h2⟩ := DailyLog.run_inv c hv hmax htr files start msgs ho
  refine ⟨s, h1, fun d => ?_⟩
  rw [h2.files d]
  exact DailyLog.content_eq c files start msgs ho.1 d

/-- C124: the file of a message is that of its day, or that of the day before. -/
theorem C124_name (c : Conf) (hv : Valid c) (ts : List ℤ) (t d : ℤ) (ht : t ∈ ts) (h : FileOf c ts t d) : OnDay c d t ∨ OnDay c (d + 1) t :=
  DailyLog.file_day c hv ts t d ht h

/-- C124: if the change is at midnight, it is that of its day. -/
theorem C124_midnight (c : Conf) (hm : Midnight c) (ts : List ℤ) (hs : ts.Pairwise (· ≤ ·)) (t d : ℤ) (ht : t ∈ ts) : FileOf c ts t d ↔ OnDay c d t := by
  rw [DailyLog.fileOf_iff c ts hs t ht, DailyLog.day_home c hm ts t ht, DailyLog.onDay_iff]
  exact eq_comm

/-- C124: with a limit and the change at midnight, of the files of this log exactly the latest ones remain, as many as the limit says, and they hold what they hold without the limit. -/
theorem C124_limit (c : Conf) (hm : Midnight c) (hmax : 0 < c.maxFiles) (files : ℤ → Option (List Str)) (start : ℤ) (msgs : List Msg) (ho : InOrder c start msgs) :
    ∃ (s : St) (H : List ℤ), run c files start msgs = some s ∧ H.Pairwise (· < ·) ∧ (∀ d, d ∈ H ↔ Spec.DailyLog.Known c files start msgs d) ∧
      ∀ d, s.files d = if d ∈ H ∧ c.maxFiles ≤ (H.filter (d < ·)).length then none else content c files start msgs d := by
  classical
  obtain ⟨s, u, H, h1, -, hi, hs, hk⟩ := DailyLog.sim_run c hm hmax files start msgs ho
  refine ⟨s, H, h1, hs.sorted, fun d => ?_, fun d => ?_⟩
  · rw [hk]
    unfold DailyLog.Known Spec.DailyLog.Known
    simp only [DailyLog.onDay_iff]
    constructor
    · rintro (⟨k, h1, h2, h3⟩ | ⟨m, hm, e⟩)
      · exact Or.inr ⟨k, _, rfl, h1, h2, h3⟩
      · exact Or.inl ⟨m, hm, e.symm⟩
    · rintro (⟨m, hm, e⟩ | ⟨k, e, rfl, h1, h2, h3⟩)
      · exact Or.inr ⟨m, hm, e.symm⟩
      · exact Or.inl ⟨k, h1, h2, h3⟩
  · rw [hs.files, hi.files d]
    simp only [DailyLog.mem_take_iff H hs.sorted]
    congr 1
    exact DailyLog.content_eq c files start msgs ho.1 d

/-- C124: times that do not exist are rejected. -/
theorem C124_invalid (c : Conf) (h : ¬ Valid c) (files : ℤ → Option (List Str)) (start : ℤ) (msgs : List Msg) : run c files start msgs = none := by
  unfold run DailyLog.create
  rw [if_pos]
  · rfl
  · unfold Valid at h
    omega

/-- One hour. -/
def oneHour : ℤ := 3600 * 10 ^ 9

/-- Files are changed at two o'clock. -/
def atTwo (truncate : Bool) (maxFiles : ℕ) : Conf := ⟨0, 2, 0, truncate, maxFiles⟩

/-- Two messages of one day, one before and one after two o'clock. -/
def twoMsgs : List Msg := [⟨['a'], oneHour, oneHour⟩, ⟨['b'], 3 * oneHour, 3 * oneHour⟩]

theorem twoMsgs_inOrder (tr : Bool) (n : ℕ) : InOrder (atTwo tr n) 0 twoMsgs := by
  refine ⟨by simp [twoMsgs, oneHour], ?_⟩
  intro m hm
  simp only [twoMsgs, List.mem_cons, List.not_mem_nil, or_false] at hm
  rcases hm with rfl | rfl
  · exact ⟨le_refl _, -1, by norm_num [InSpan, Spec.DailyLog.timeOfDay, atTwo, oneHour], by norm_num [InSpan, Spec.DailyLog.timeOfDay, atTwo, oneHour]⟩
  · exact ⟨le_refl _, 0, by norm_num [InSpan, Spec.DailyLog.timeOfDay, atTwo, oneHour], by norm_num [InSpan, Spec.DailyLog.timeOfDay, atTwo, oneHour]⟩

/-- C124 is false for truncated files if the change is not at midnight: the change is to a file of the same name, and what was written to it before is lost. -/
theorem C124_truncate_false : ∃ (c : Conf) (start : ℤ) (msgs : List Msg) (s : St) (m : Msg), Valid c ∧ c.maxFiles = 0 ∧ InOrder c start msgs ∧
    run c (fun _ => none) start msgs = some s ∧ m ∈ msgs ∧ ∀ d l, s.files d = some l → m.text ∉ l := by
  refine ⟨atTwo true 0, 0, twoMsgs, ⟨Function.update (fun _ => none) 0 (some [['b']]), 0, true, 26 * oneHour, []⟩, ⟨['a'], oneHour, oneHour⟩, ⟨by decide, by decide, by decide, by decide⟩, rfl,
    twoMsgs_inOrder _ _, ?_, by simp [twoMsgs], ?_⟩
  · norm_num [run, DailyLog.create, DailyLog.sinkIt, DailyLog.openFile, DailyLog.write, DailyLog.nextRotation, DailyLog.day, DailyLog.dayLen, atTwo, twoMsgs, oneHour]
  · intro d l h
    simp only [Function.update_apply] at h
    split_ifs at h
    simp only [Option.some.injEq] at h
    subst h
    simp

/-- C124 is false for the limit if the change is not at midnight: the file that has just been opened is removed, and nothing remains, whatever is logged until the next change. -/
theorem C124_removed_false : ∃ (c : Conf) (start next : ℤ) (msgs : List Msg), Valid c ∧ c.maxFiles = 1 ∧ InOrder c start msgs ∧ msgs ≠ [] ∧ start + 24 * oneHour < next ∧
    ∀ more : List Msg, (∀ m ∈ more, m.time < next) → ∃ s, run c (fun _ => none) start (msgs ++ more) = some s ∧ ∀ d, s.files d = none := by
  refine ⟨atTwo false 1, 0, 26 * oneHour, twoMsgs, ⟨by decide, by decide, by decide, by decide⟩, rfl, twoMsgs_inOrder _ _, by simp [twoMsgs], by decide, fun more hm =>
    ⟨⟨fun _ => none, 0, false, 26 * oneHour, [0]⟩, ?_, fun _ => rfl⟩⟩
  have h1 : run (atTwo false 1) (fun _ => none) 0 twoMsgs = some ⟨fun _ => none, 0, false, 26 * oneHour, [0]⟩ := by
    norm_num [run, DailyLog.create, DailyLog.sinkIt, DailyLog.openFile, DailyLog.write, DailyLog.nextRotation, DailyLog.day, DailyLog.dayLen, atTwo, twoMsgs, oneHour, DailyLog.recent,
      DailyLog.deleteOld]
    have h0 : DailyLog.day ⟨0, 2, 0, false, 1⟩ 0 = 0 := by decide
    simp [h0]
  induction more using List.reverseRecOn with
  | nil => rw [List.append_nil]; exact h1
  | append_singleton l m ih =>
    rw [← List.append_assoc, DailyLog.run_append, ih (fun x hx => hm x (List.mem_append_left _ hx)), Option.map_some]
    have hr := hm m (by simp)
    unfold DailyLog.sinkIt
    simp [not_le.2 hr, DailyLog.write]

/-- C124 is false if a message is handled on a later day than that on which it was made, however little later, also if the change is at midnight: all messages of the next day are in
the file of the day before. -/
theorem C124_late_false (delay : ℤ) (h0 : 0 < delay) (h1 : delay ≤ 86400000000000) (more : List Msg) (hm : ∀ m ∈ more, OnDay ⟨0, 0, 0, false, 0⟩ 2 m.time) :
    ∃ late : Msg, OnDay ⟨0, 0, 0, false, 0⟩ 1 late.time ∧ late.now = late.time + delay ∧ ∃ s, run ⟨0, 0, 0, false, 0⟩ (fun _ => none) 0 (late :: more) = some s ∧
      ∀ d, s.files d = if d = 0 then some [] else if d = 1 then some (late.text :: more.map Msg.text) else none := by
  refine ⟨⟨['x'], 172799999999999, 172799999999999 + delay⟩, by norm_num [OnDay], rfl, ?_⟩
  have hn : (172799999999999 + delay) / 86400000000000 = 2 := by omega
  have hcreate : DailyLog.create ⟨0, 0, 0, false, 0⟩ (fun _ => none) 0 = some ⟨Function.update (fun _ => none) 0 (some []), 0, true, 86400000000000, []⟩ := by
    simp [DailyLog.create, DailyLog.openFile, DailyLog.nextRotation, DailyLog.day, DailyLog.dayLen]
  have hfirst : DailyLog.sinkIt ⟨0, 0, 0, false, 0⟩ ⟨Function.update (fun _ => none) 0 (some []), 0, true, 86400000000000, []⟩ ⟨['x'], 172799999999999, 172799999999999 + delay⟩ =
      ⟨Function.update (Function.update (fun _ => none) 0 (some [])) 1 (some [['x']]), 1, true, 259200000000000, []⟩ := by
    simp [DailyLog.sinkIt, DailyLog.openFile, DailyLog.nextRotation, DailyLog.day, DailyLog.dayLen, DailyLog.write, hn]
    omega
  have key : ∀ (l : List Str), more.foldl (DailyLog.sinkIt ⟨0, 0, 0, false, 0⟩)
      ⟨Function.update (Function.update (fun _ => none) 0 (some [])) 1 (some l), 1, true, 259200000000000, []⟩ =
      ⟨Function.update (Function.update (fun _ => none) 0 (some [])) 1 (some (l ++ more.map Msg.text)), 1, true, 259200000000000, []⟩ := by
    clear hfirst
    induction more with
    | nil => intro l; simp
    | cons m rest ih =>
      intro l
      have ht := (hm m (by simp)).2
      have hr : ¬m.time ≥ 259200000000000 := by
        simp only at ht
        omega
      have hstep : DailyLog.sinkIt ⟨0, 0, 0, false, 0⟩ ⟨Function.update (Function.update (fun _ => none) 0 (some [])) 1 (some l), 1, true, 259200000000000, []⟩ m =
          ⟨Function.update (Function.update (fun _ => none) 0 (some [])) 1 (some (l ++ [m.text])), 1, true, 259200000000000, []⟩ := by
        unfold DailyLog.sinkIt
        simp [hr, DailyLog.write]
      rw [List.foldl_cons, hstep, ih (fun x hx => hm x (List.mem_cons_of_mem _ hx))]
      simp
  refine ⟨_, by rw [run, hcreate, Option.map_some, List.foldl_cons, hfirst, key], fun d => ?_⟩
  simp only [Function.update_apply]
  by_cases ha : d = 0
  · subst ha
    simp
  · by_cases hb : d = 1 <;> simp [ha, hb]

/-- A message of the third day. -/
example : ∀ m ∈ [(⟨['y'], 180000000000000, 180000000000000⟩ : Msg)], OnDay ⟨0, 0, 0, false, 0⟩ 2 m.time := by
  simp [OnDay]

/-- C124 is met: the two messages, without truncation. -/
example : ∃ s, run (atTwo false 0) (fun _ => none) 0 twoMsgs = some s ∧ ∀ d, s.files d = content (atTwo false 0) (fun _ => none) 0 twoMsgs d :=
  C124_files _ ⟨by decide, by decide, by decide, by decide⟩ rfl (Or.inl rfl) _ _ _ (twoMsgs_inOrder _ _)

/-- Messages on three days, changes at midnight, and a limit of two files. -/
def threeDays : List Msg := [⟨['a'], oneHour, oneHour⟩, ⟨['b'], 25 * oneHour, 25 * oneHour⟩, ⟨['c'], 49 * oneHour, 49 * oneHour⟩]

/-- C124 is met. -/
example : InOrder ⟨0, 0, 0, true, 2⟩ 0 threeDays ∧ Midnight ⟨0, 0, 0, true, 2⟩ ∧
    (run ⟨0, 0, 0, true, 2⟩ (fun _ => none) 0 threeDays).map (fun s => (s.files 0, s.files 1, s.files 2)) = some (none, some [['b']], some [['c']]) := by
  refine ⟨⟨by simp [threeDays, oneHour], ?_⟩, ⟨rfl, rfl⟩, by decide +kernel⟩
  intro m hm
  simp only [threeDays, List.mem_cons, List.not_mem_nil, or_false] at hm
  rcases hm with rfl | rfl | rfl
  · exact ⟨le_refl _, 0, by norm_num [InSpan, Spec.DailyLog.timeOfDay, oneHour], by norm_num [InSpan, Spec.DailyLog.timeOfDay, oneHour]⟩
  · exact ⟨le_refl _, 1, by norm_num [InSpan, Spec.DailyLog.timeOfDay, oneHour], by norm_num [InSpan, Spec.DailyLog.timeOfDay, oneHour]⟩
  · exact ⟨le_refl _, 2, by norm_num [InSpan, Spec.DailyLog.timeOfDay, oneHour], by norm_num [InSpan, Spec.DailyLog.timeOfDay, oneHour]⟩

end Verif
