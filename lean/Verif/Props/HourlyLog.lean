import Verif.Lemmas.HourlyLog
/-!
C126: the hourly log files.
-/
namespace Verif
open Text (Str)
open HourlyLog (Conf run)
open DailyLog (Msg St)
open Spec.HourlyLog (InHour Sorted Prompt content Known)

/-- **C126**, if files are not removed: every message is in the file of its hour, and nothing else has changed. -/
theorem C126_files (c : Conf) (hmax : c.maxFiles = 0) (files : ℤ → Option (List Str)) (start : ℤ) (msgs : List Msg) (hs : Sorted start msgs) (hp : Prompt c msgs) (h : ℤ) :
    (run c files start msgs).files h = content c files start msgs h := by
  obtain ⟨s, h1, h2⟩ := C124_files (HourlyLog.daily c) ⟨by simp [HourlyLog.daily], by simp [HourlyLog.daily], by simp [HourlyLog.daily], by simp [HourlyLog.daily]⟩ hmax
    (Or.inr (HourlyLog.midnight c)) files (24 * start) (msgs.map HourlyLog.fastM) (HourlyLog.inOrder_eq c start msgs hs hp)
  rw [HourlyLog.run_eq] at h1
  obtain rfl := Option.some.inj h1
  exact (h2 h).trans (HourlyLog.content_eq c files start msgs hs h)

/-- **C126**, with a limit: of the files of this log exactly the latest ones remain, as many as the limit says, and they hold what they hold without the limit. -/
theorem C126_limit (c : Conf) (hmax : 0 < c.maxFiles) (files : ℤ → Option (List Str)) (start : ℤ) (msgs : List Msg) (hs : Sorted start msgs) (hp : Prompt c msgs) :
    ∃ H : List ℤ, H.Pairwise (· < ·) ∧ (∀ h, h ∈ H ↔ Known c files start msgs h) ∧
      ∀ h, (run c files start msgs).files h = if h ∈ H ∧ c.maxFiles ≤ (H.filter (h < ·)).length then none else content c files start msgs h := by
  obtain ⟨s, H, h1, h2, h3, h4⟩ := C124_limit (HourlyLog.daily c) (HourlyLog.midnight c) hmax files (24 * start) (msgs.map HourlyLog.fastM)
    (HourlyLog.inOrder_eq c start msgs hs hp)
  rw [HourlyLog.run_eq] at h1
  obtain rfl := Option.some.inj h1
  refine ⟨H, h2, fun h => (h3 h).trans (HourlyLog.known_eq c files start msgs h), fun h => ?_⟩
  rw [← HourlyLog.content_eq c files start msgs hs h]
  exact h4 h

/-- Messages of three hours; local time is half an hour later than the clock. -/
def threeHours : List Msg := [⟨['a'], 0, 10⟩, ⟨['b'], 3600000000000, 3600000000000⟩, ⟨['c'], 3600000000010, 3600000000010⟩, ⟨['d'], 7200000000000, 7200000000000⟩]

/-- C126 is met, with a limit of two files. -/
example : Sorted 0 threeHours ∧ Prompt ⟨1800000000000, true, 2⟩ threeHours ∧
    ((run ⟨1800000000000, true, 2⟩ (fun _ => none) 0 threeHours).files 0, (run ⟨1800000000000, true, 2⟩ (fun _ => none) 0 threeHours).files 1,
      (run ⟨1800000000000, true, 2⟩ (fun _ => none) 0 threeHours).files 2) = (none, some [['b'], ['c']], some [['d']]) := by
  refine ⟨by simp [Sorted, threeHours], ?_, by decide +kernel⟩
  intro m hm
  simp only [threeHours, List.mem_cons, List.not_mem_nil, or_false] at hm
  rcases hm with rfl | rfl | rfl | rfl
  · exact ⟨by norm_num, 0, by norm_num [InHour], by norm_num [InHour]⟩
  · exact ⟨by norm_num, 1, by norm_num [InHour], by norm_num [InHour]⟩
  · exact ⟨by norm_num, 1, by norm_num [InHour], by norm_num [InHour]⟩
  · exact ⟨by norm_num, 2, by norm_num [InHour], by norm_num [InHour]⟩

/-- **C126** is false if a message is handled in a later hour than that in which it was made, however little later: the next change is computed from the clock, not from the time of
the message, and all messages of the next hour are in the file of the hour before. -/
theorem C126_late_false (delay : ℤ) (h0 : 0 < delay) (h1 : delay ≤ 3600000000000) (more : List Msg)
    (hm : ∀ m ∈ more, InHour ⟨0, false, 0⟩ 2 m.time) : ∃ late : Msg, InHour ⟨0, false, 0⟩ 1 late.time ∧ late.now = late.time + delay ∧
      ∀ h, (run ⟨0, false, 0⟩ (fun _ => none) 0 (late :: more)).files h = if h = 0 then some [] else if h = 1 then some (late.text :: more.map Msg.text) else none := by
  refine ⟨⟨['x'], 7199999999999, 7199999999999 + delay⟩, by norm_num [InHour], rfl, fun h => ?_⟩
  have hn : (7199999999999 + delay) / 3600000000000 = 2 := by omega
  have hfirst : HourlyLog.sinkIt ⟨0, false, 0⟩ (HourlyLog.create ⟨0, false, 0⟩ (fun _ => none) 0) ⟨['x'], 7199999999999, 7199999999999 + delay⟩ =
      ⟨Function.update (Function.update (fun _ => none) 0 (some [])) 1 (some [['x']]), 1, true, 10800000000000, []⟩ := by
    have hl : ¬(2 * 3600000000000 : ℤ) > 7199999999999 + delay := by omega
    simp [HourlyLog.sinkIt, HourlyLog.create, HourlyLog.openFile, HourlyLog.nextRotation, HourlyLog.hour, HourlyLog.hourLen, DailyLog.write, hn]
    omega
  have key : ∀ (l : List Str), more.foldl (HourlyLog.sinkIt ⟨0, false, 0⟩)
      ⟨Function.update (Function.update (fun _ => none) 0 (some [])) 1 (some l), 1, true, 10800000000000, []⟩ =
      ⟨Function.update (Function.update (fun _ => none) 0 (some [])) 1 (some (l ++ more.map Msg.text)), 1, true, 10800000000000, []⟩ := by
    clear hfirst
    induction more with
    | nil => intro l; simp
    | cons m rest ih =>
      intro l
      have ht := (hm m (by simp)).2
      have hr : ¬m.time ≥ 10800000000000 := by
        simp only at ht
        omega
      have hstep : HourlyLog.sinkIt ⟨0, false, 0⟩ ⟨Function.update (Function.update (fun _ => none) 0 (some [])) 1 (some l), 1, true, 10800000000000, []⟩ m =
          ⟨Function.update (Function.update (fun _ => none) 0 (some [])) 1 (some (l ++ [m.text])), 1, true, 10800000000000, []⟩ := by
        unfold HourlyLog.sinkIt
        simp [hr, DailyLog.write]
      rw [List.foldl_cons, hstep, ih (fun x hx => hm x (List.mem_cons_of_mem _ hx))]
      simp
  unfold run
  rw [List.foldl_cons, hfirst, key]
  simp only [Function.update_apply]
  by_cases ha : h = 0
  · subst ha
    simp
  · by_cases hb : h = 1 <;> simp [ha, hb]

/-- A message of the third hour, after a delay of one nanosecond. -/
example : ∀ m ∈ [(⟨['y'], 9000000000000, 9000000000000⟩ : Msg)], InHour ⟨0, false, 0⟩ 2 m.time := by
  simp [InHour]

end Verif
