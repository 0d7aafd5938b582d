import Verif.Model.DailyLog
/-!
The hourly log files of spdlog (spdlog/sinks/hourly_file_sink.h), with the same simplifications as `Model/DailyLog.lean`: a file is named by its hour, counted from some
hour of local time, since `calc_filename` (30-36) writes the date and the hour into the name.
-/
namespace Verif.HourlyLog
open Text (Str)
open DailyLog (Msg St)

/-- One hour. -/
def hourLen : ℤ := 3600 * 10 ^ 9

/-- The parameters of the constructor (hourly_file_sink.h:49-53, 165-170), and the difference of local time. -/
structure Conf where
  offset : ℤ
  truncate : Bool
  maxFiles : ℕ

/-- hourly_file_sink.h:123-127: the hour in local time. -/
def hour (c : Conf) (t : ℤ) : ℤ := (t + c.offset) / hourLen

/-- hourly_file_sink.h:129-141, `next_rotation_tp_`: minute and second of the local time are set to zero. -/
def nextRotation (c : Conf) (now : ℤ) : ℤ :=
  let rotationTime := hour c now * hourLen - c.offset
  if rotationTime > now then rotationTime else rotationTime + hourLen

/-- spdlog/details/file_helper-inl.h:28-62: `open`. -/
def openFile (c : Conf) (d : ℤ) (s : St) : St :=
  { s with files := Function.update s.files d (some (if c.truncate then [] else (s.files d).getD [])), cur := d, linked := true }

/-- hourly_file_sink.h:107-116: the loop of `init_filenames_q_`, with the number of names that are still looked for. -/
def recent (c : Conf) (files : ℤ → Option (List Str)) : ℕ → ℤ → List ℤ
  | 0, _ => []
  | n + 1, now => if files (hour c now) = none then [] else hour c now :: recent c files n (now - hourLen)

/-- hourly_file_sink.h:49-64: the constructor.  It reads the clock several times; here the readings are the same. -/
def create (c : Conf) (files : ℤ → Option (List Str)) (now : ℤ) : St :=
  let s := openFile c (hour c now) ⟨files, 0, false, 0, []⟩
  let s := { s with rotation := nextRotation c now }
  if c.maxFiles > 0 then { s with queue := (recent c s.files c.maxFiles now).reverse } else s

/-- hourly_file_sink.h:145-163: `delete_old_`. -/
def deleteOld (c : Conf) (s : St) : St :=
  let s' := match s.queue with
    | [] => s
    | d :: q => if s.queue.length = c.maxFiles then { s with files := Function.update s.files d none, linked := s.linked && !(d == s.cur), queue := q } else s
  { s' with queue := s'.queue ++ [s.cur] }

/-- hourly_file_sink.h:73-92: `sink_it_`. -/
def sinkIt (c : Conf) (s : St) (m : Msg) : St :=
  let shouldRotate := m.time ≥ s.rotation
  let s := if shouldRotate then { openFile c (hour c m.time) s with rotation := nextRotation c m.now } else s
  let s := DailyLog.write m.text s
  if shouldRotate ∧ c.maxFiles > 0 then deleteOld c s else s

/-- The constructor, and messages. -/
def run (c : Conf) (files : ℤ → Option (List Str)) (start : ℤ) (msgs : List Msg) : St := msgs.foldl (sinkIt c) (create c files start)

end Verif.HourlyLog
