import Mathlib.Logic.Function.Basic
import Mathlib.Data.Int.Init
import Verif.Model.Text
/-!
The daily log files of spdlog (spdlog/sinks/daily_file_sink.h).

Times are nanoseconds.  Local time differs from that of the clock by a constant (no daylight saving time).  A file is named by its day: `calc_filename` (31-37) writes
year, month and day into the name, so that different days have different names.  Opening, writing and removing do not fail.  A file that is removed while it is open
gets no more text: what is written goes to a file without a name.
-/
namespace Verif.DailyLog
open Text (Str)

/-- 24 hours. -/
def dayLen : ℤ := 86400 * 10 ^ 9

/-- The parameters of the constructor (daily_file_sink.h:67-73, 191-198), and the difference of local time. -/
structure Conf where
  offset : ℤ
  hour : ℤ
  minute : ℤ
  truncate : Bool
  maxFiles : ℕ

/-- A message, formatted (`text`), with its time, and the time at which it is handled (`now`). -/
structure Msg where
  text : Str
  time : ℤ
  now : ℤ

/-- The files by their days, the day of the open file, whether it still has a name, and the members (daily_file_sink.h:191-198).  `filenames_q_` is a list of at most `max_files_`
names; C104 is about `circular_q`. -/
structure St where
  files : ℤ → Option (List Str)
  cur : ℤ
  linked : Bool
  rotation : ℤ
  queue : List ℤ

/-- daily_file_sink.h:148-152: the date in local time. -/
def day (c : Conf) (t : ℤ) : ℤ := (t + c.offset) / dayLen

/-- daily_file_sink.h:154-167: `next_rotation_tp_`. -/
def nextRotation (c : Conf) (now : ℤ) : ℤ :=
  let rotationTime := day c now * dayLen + (c.hour * 3600 + c.minute * 60) * 10 ^ 9 - c.offset
  if rotationTime > now then rotationTime else rotationTime + dayLen

/-- spdlog/details/file_helper-inl.h:28-62: `open`. -/
def openFile (c : Conf) (d : ℤ) (s : St) : St :=
  { s with files := Function.update s.files d (some (if c.truncate then [] else (s.files d).getD [])), cur := d, linked := true }

/-- spdlog/details/file_helper-inl.h:87-95: `write`. -/
def write (text : Str) (s : St) : St :=
  if s.linked then { s with files := Function.update s.files s.cur (some ((s.files s.cur).getD [] ++ [text])) } else s

/-- daily_file_sink.h:132-141: the loop of `init_filenames_q_`, with the number of names that are still looked for. -/
def recent (c : Conf) (files : ℤ → Option (List Str)) : ℕ → ℤ → List ℤ
  | 0, _ => []
  | n + 1, now => if files (day c now) = none then [] else day c now :: recent c files n (now - dayLen)

/-- daily_file_sink.h:67-89: the constructor; `none` if it throws.  It reads the clock several times; here the readings are the same. -/
def create (c : Conf) (files : ℤ → Option (List Str)) (now : ℤ) : Option St :=
  if c.hour < 0 ∨ c.hour > 23 ∨ c.minute < 0 ∨ c.minute > 59 then none
  else
    let s := openFile c (day c now) ⟨files, 0, false, 0, []⟩
    let s := { s with rotation := nextRotation c now }
    some (if c.maxFiles > 0 then { s with queue := (recent c s.files c.maxFiles now).reverse } else s)

/-- daily_file_sink.h:171-189: `delete_old_`. -/
def deleteOld (c : Conf) (s : St) : St :=
  let s' := match s.queue with
    | [] => s
    | d :: q => if s.queue.length = c.maxFiles then { s with files := Function.update s.files d none, linked := s.linked && !(d == s.cur), queue := q } else s
  { s' with queue := s'.queue ++ [s.cur] }

/-- daily_file_sink.h:98-117: `sink_it_`. -/
def sinkIt (c : Conf) (s : St) (m : Msg) : St :=
  let shouldRotate := m.time ≥ s.rotation
  let s := if shouldRotate then { openFile c (day c m.time) s with rotation := nextRotation c m.now } else s
  let s := write m.text s
  if shouldRotate ∧ c.maxFiles > 0 then deleteOld c s else s

/-- The constructor, and messages. -/
def run (c : Conf) (files : ℤ → Option (List Str)) (start : ℤ) (msgs : List Msg) : Option St := (create c files start).map (msgs.foldl (sinkIt c))

end Verif.DailyLog
