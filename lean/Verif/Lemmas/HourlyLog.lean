import Verif.Props.DailyLog
import Verif.Spec.HourlyLog
import Mathlib.Tactic.Linarith
/-!
An hourly log is a daily log of a world in which time runs 24 times as fast.
-/
namespace Verif.HourlyLog
open Text (Str)
open DailyLog (Msg St)

/-- The daily log. -/
def daily (c : Conf) : DailyLog.Conf := ⟨24 * c.offset, 0, 0, c.truncate, c.maxFiles⟩

/-- A message, with the times of the daily log. -/
def fastM (m : Msg) : Msg := ⟨m.text, 24 * m.time, 24 * m.now⟩

/-- A state, with the times of the daily log. -/
def fast (s : St) : St := ⟨s.files, s.cur, s.linked, 24 * s.rotation, s.queue⟩

theorem dayLen_eq : DailyLog.dayLen = 24 * hourLen := by decide

theorem day_eq (c : Conf) (t : ℤ) : DailyLog.day (daily c) (24 * t) = hour c t := by
  unfold DailyLog.day hour daily
  rw [dayLen_eq, ← mul_add]
  exact Int.mul_ediv_mul_of_pos _ _ (by norm_num)

theorem next_eq (c : Conf) (t : ℤ) : DailyLog.nextRotation (daily c) (24 * t) = 24 * nextRotation c t := by
  unfold DailyLog.nextRotation nextRotation
  simp only [day_eq]
  have h : hour c t * DailyLog.dayLen + ((daily c).hour * 3600 + (daily c).minute * 60) * 10 ^ 9 - (daily c).offset = 24 * (hour c t * hourLen - c.offset) := by
    rw [dayLen_eq]
    simp only [daily]
    ring
  rw [h, dayLen_eq]
  generalize hour c t * hourLen - c.offset = x
  by_cases hx : x > t
  · rw [if_pos hx, if_pos (by omega)]
  · rw [if_neg hx, if_neg (by omega), mul_add]

theorem recent_eq (c : Conf) (files : ℤ → Option (List Str)) (n : ℕ) (t : ℤ) : DailyLog.recent (daily c) files n (24 * t) = recent c files n t := by
  induction n generalizing t with
  | zero => rfl
  | succ n ih =>
    unfold DailyLog.recent recent
    rw [day_eq, dayLen_eq, ← mul_sub, ih]

theorem create_eq (c : Conf) (files : ℤ → Option (List Str)) (now : ℤ) : DailyLog.create (daily c) files (24 * now) = some (fast (create c files now)) := by
  unfold DailyLog.create create
  rw [if_neg (by simp [daily])]
  simp only [next_eq, recent_eq, day_eq]
  show some (if c.maxFiles > 0 then _ else _) = some (fast (if c.maxFiles > 0 then _ else _))
  split_ifs <;> rfl

theorem deleteOld_eq (c : Conf) (s : St) : DailyLog.deleteOld (daily c) (fast s) = fast (deleteOld c s) := by
  obtain ⟨f, cur, l, r, q⟩ := s
  cases q with
  | nil => rfl
  | cons d q =>
    unfold DailyLog.deleteOld deleteOld
    by_cases h : (d :: q).length = c.maxFiles
    · simp only [fast, daily, h, if_true]
    · simp only [fast, daily, h, if_false]

theorem write_eq (x : Str) (s : St) : DailyLog.write x (fast s) = fast (DailyLog.write x s) := by
  unfold DailyLog.write
  by_cases h : s.linked = true
  · simp only [fast, h, if_true]
  · simp only [fast, h, if_false, Bool.false_eq_true]

theorem sinkIt_eq (c : Conf) (s : St) (m : Msg) : DailyLog.sinkIt (daily c) (fast s) (fastM m) = fast (sinkIt c s m) := by
  unfold DailyLog.sinkIt sinkIt
  have hr : (fastM m).time ≥ (fast s).rotation ↔ m.time ≥ s.rotation := by
    simp only [fastM, fast]
    omega
  simp only [hr]
  by_cases h : m.time ≥ s.rotation
  · have ho : ({ DailyLog.openFile (daily c) (DailyLog.day (daily c) (fastM m).time) (fast s) with rotation := DailyLog.nextRotation (daily c) (fastM m).now } : St) =
        fast { openFile c (hour c m.time) s with rotation := nextRotation c m.now } := by
      simp only [fastM, day_eq, next_eq]
      rfl
    simp only [ho, h, true_and, if_true]
    show (if c.maxFiles > 0 then DailyLog.deleteOld (daily c) (DailyLog.write m.text _) else DailyLog.write m.text _) = _
    rw [write_eq, deleteOld_eq]
    split_ifs <;> rfl
  · simp only [h, false_and, if_false]
    exact write_eq m.text s

theorem run_eq (c : Conf) (files : ℤ → Option (List Str)) (start : ℤ) (msgs : List Msg) :
    DailyLog.run (daily c) files (24 * start) (msgs.map fastM) = some (fast (run c files start msgs)) := by
  unfold DailyLog.run run
  rw [create_eq, Option.map_some]
  congr 1
  generalize create c files start = s
  induction msgs generalizing s with
  | nil => rfl
  | cons m l ih => rw [List.map_cons, List.foldl_cons, List.foldl_cons, sinkIt_eq, ih]

/-! ### the specifications -/

open Spec.HourlyLog (InHour Sorted Prompt)

theorem onDay_eq (c : Conf) (d t : ℤ) : Spec.DailyLog.OnDay (daily c) d (24 * t) ↔ InHour c d t := by
  unfold Spec.DailyLog.OnDay InHour daily
  simp only
  constructor <;> rintro ⟨h1, h2⟩ <;> constructor <;> linarith

theorem inSpan_eq (c : Conf) (d t : ℤ) : Spec.DailyLog.InSpan (daily c) d (24 * t) ↔ InHour c d t := by
  unfold Spec.DailyLog.InSpan InHour Spec.DailyLog.timeOfDay daily
  simp only
  constructor <;> rintro ⟨h1, h2⟩ <;> constructor <;> linarith

theorem times_eq (start : ℤ) (msgs : List Msg) : 24 * start :: (msgs.map fastM).map Msg.time = (start :: msgs.map Msg.time).map (24 * ·) := by
  simp [fastM, Function.comp_def]

theorem pairwise_fast (l : List ℤ) (h : l.Pairwise (· ≤ ·)) : (l.map (24 * ·)).Pairwise (· ≤ ·) := by
  rw [List.pairwise_map]
  exact h.imp fun {a b} hab => by omega

theorem inOrder_eq (c : Conf) (start : ℤ) (msgs : List Msg) (h1 : Sorted start msgs) (h2 : Prompt c msgs) :
    Spec.DailyLog.InOrder (daily c) (24 * start) (msgs.map fastM) := by
  refine ⟨?_, ?_⟩
  · rw [times_eq]
    exact pairwise_fast _ h1
  · intro m hm
    obtain ⟨x, hx, rfl⟩ := List.mem_map.1 hm
    obtain ⟨ha, p, hb, hc⟩ := h2 x hx
    exact ⟨by simp only [fastM]; omega, p, (inSpan_eq c p _).2 hb, (inSpan_eq c p _).2 hc⟩

theorem midnight (c : Conf) : Spec.DailyLog.Midnight (daily c) := ⟨rfl, rfl⟩

theorem content_eq (c : Conf) (files : ℤ → Option (List Str)) (start : ℤ) (msgs : List Msg) (h1 : Sorted start msgs) (d : ℤ) :
    Spec.DailyLog.content (daily c) files (24 * start) (msgs.map fastM) d = Spec.HourlyLog.content c files start msgs d := by
  classical
  have hf : ∀ t ∈ start :: msgs.map Msg.time, Spec.DailyLog.FileOf (daily c) ((start :: msgs.map Msg.time).map (24 * ·)) (24 * t) d ↔ InHour c d t := fun t ht => by
    rw [C124_midnight (daily c) (midnight c) _ (pairwise_fast _ h1) _ _ (List.mem_map.2 ⟨t, ht, rfl⟩), onDay_eq]
  unfold Spec.DailyLog.content Spec.HourlyLog.content
  rw [times_eq]
  refine if_congr ?_ ?_ rfl
  · constructor
    · rintro ⟨t, ht, h⟩
      obtain ⟨u, hu, rfl⟩ := List.mem_map.1 ht
      exact ⟨u, hu, (hf u hu).1 h⟩
    · rintro ⟨u, hu, h⟩
      exact ⟨24 * u, List.mem_map.2 ⟨u, hu, rfl⟩, (hf u hu).2 h⟩
  · show some ((if c.truncate then [] else _) ++ _) = _
    rw [List.filter_map, List.map_map]
    congr 2
    show List.map Msg.text _ = _
    congr 1
    refine List.filter_congr fun m hm => ?_
    simp only [Function.comp_apply, decide_eq_decide]
    exact hf m.time (List.mem_cons_of_mem _ (List.mem_map.2 ⟨m, hm, rfl⟩))

theorem known_eq (c : Conf) (files : ℤ → Option (List Str)) (start : ℤ) (msgs : List Msg) (d : ℤ) :
    Spec.DailyLog.Known (daily c) files (24 * start) (msgs.map fastM) d ↔ Spec.HourlyLog.Known c files start msgs d := by
  unfold Spec.DailyLog.Known Spec.HourlyLog.Known
  simp only [List.mem_map, exists_exists_and_eq_and]
  simp only [fastM, onDay_eq]
  rfl

end Verif.HourlyLog
