import Verif.Model.DailyLog
/-!
Which file a message belongs to.
-/
namespace Verif.Spec.DailyLog
open Text (Str)
open _root_.Verif.DailyLog (Conf Msg)

/-- The time of the day at which files are changed, in nanoseconds. -/
def timeOfDay (c : Conf) : ℤ := (c.hour * 60 + c.minute) * 60000000000

/-- A time of a day. -/
def Valid (c : Conf) : Prop := 0 ≤ c.hour ∧ c.hour ≤ 23 ∧ 0 ≤ c.minute ∧ c.minute ≤ 59

/-- `d` is the day of the local time at `t`. -/
def OnDay (c : Conf) (d t : ℤ) : Prop := d * (24 * 3600000000000) ≤ t + c.offset ∧ t + c.offset < (d + 1) * (24 * 3600000000000)

/-- `p` is the number of the span of 24 hours between two changes of the file, at `t`. -/
def InSpan (c : Conf) (p t : ℤ) : Prop :=
  p * (24 * 3600000000000) + timeOfDay c ≤ t + c.offset ∧ t + c.offset < (p + 1) * (24 * 3600000000000) + timeOfDay c

/-- The two times are in one span. -/
def SameSpan (c : Conf) (t u : ℤ) : Prop := ∃ p, InSpan c p t ∧ InSpan c p u

/-- Messages come in the order of their times, and are handled in the span in which they were made. -/
def InOrder (c : Conf) (start : ℤ) (msgs : List Msg) : Prop :=
  (start :: msgs.map Msg.time).Pairwise (· ≤ ·) ∧ ∀ m ∈ msgs, m.time ≤ m.now ∧ SameSpan c m.time m.now

/-- `d` is the file for the time `t`: the day of the earliest of the times `ts` that is in the span of `t`. -/
def FileOf (c : Conf) (ts : List ℤ) (t d : ℤ) : Prop := ∃ x ∈ ts, SameSpan c x t ∧ (∀ y ∈ ts, SameSpan c y t → x ≤ y) ∧ OnDay c d x

/-- Files are changed at midnight. -/
def Midnight (c : Conf) : Prop := c.hour = 0 ∧ c.minute = 0

open Classical in
/-- What the file of day `d` should hold: the messages it is the file for, in their order, behind what it held before unless that is to be thrown away.  Other files
are as before. -/
noncomputable def content (c : Conf) (files : ℤ → Option (List Str)) (start : ℤ) (msgs : List Msg) (d : ℤ) : Option (List Str) :=
  if ∃ t ∈ start :: msgs.map Msg.time, FileOf c (start :: msgs.map Msg.time) t d then
    some ((if c.truncate then [] else (files d).getD []) ++ (msgs.filter fun m => FileOf c (start :: msgs.map Msg.time) m.time d).map Msg.text)
  else files d

/-- The days of the files of this log: those of the messages, that on which the log was opened, and the days before it, one after the other, as long as there are files, at most
`maxFiles` of them. -/
def Known (c : Conf) (files : ℤ → Option (List Str)) (start : ℤ) (msgs : List Msg) (d : ℤ) : Prop :=
  (∃ m ∈ msgs, OnDay c d m.time) ∨ ∃ (k : ℕ) (e : ℤ), OnDay c e start ∧ k < c.maxFiles ∧ d = e - k ∧ ∀ j : ℕ, 0 < j → j ≤ k → files (e - j) ≠ none

end Verif.Spec.DailyLog
