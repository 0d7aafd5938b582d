import Verif.Model.HourlyLog
/-!
Which hour a message belongs to.
-/
namespace Verif.Spec.HourlyLog
open Text (Str)
open _root_.Verif.HourlyLog (Conf)
open _root_.Verif.DailyLog (Msg)

/-- `h` is the hour of the local time at `t` (in nanoseconds). -/
def InHour (c : Conf) (h t : ℤ) : Prop := h * 3600000000000 ≤ t + c.offset ∧ t + c.offset < (h + 1) * 3600000000000

/-- Messages come in the order of their times. -/
def Sorted (start : ℤ) (msgs : List Msg) : Prop := (start :: msgs.map Msg.time).Pairwise (· ≤ ·)

/-- Messages are handled in the hour in which they were made. -/
def Prompt (c : Conf) (msgs : List Msg) : Prop := ∀ m ∈ msgs, m.time ≤ m.now ∧ ∃ h, InHour c h m.time ∧ InHour c h m.now

open Classical in
/-- What the file of the hour `h` should hold: the messages of the hour, in their order, behind what it held before unless that is to be thrown away.  Files of hours
without messages are as before. -/
noncomputable def content (c : Conf) (files : ℤ → Option (List Str)) (start : ℤ) (msgs : List Msg) (h : ℤ) : Option (List Str) :=
  if ∃ t ∈ start :: msgs.map Msg.time, InHour c h t then
    some ((if c.truncate then [] else (files h).getD []) ++ (msgs.filter fun m => InHour c h m.time).map Msg.text)
  else files h

/-- The hours of the files of this log: those of the messages, that in which the log was opened, and the hours before it, one after the other, as long as there are files, at most
`maxFiles` of them. -/
def Known (c : Conf) (files : ℤ → Option (List Str)) (start : ℤ) (msgs : List Msg) (h : ℤ) : Prop :=
  (∃ m ∈ msgs, InHour c h m.time) ∨ ∃ (k : ℕ) (e : ℤ), InHour c e start ∧ k < c.maxFiles ∧ h = e - k ∧ ∀ j : ℕ, 0 < j → j ≤ k → files (e - j) ≠ none

end Verif.Spec.HourlyLog
