import Verif.Model.Text

/-!
What a log without duplicates says.  A message has a time, a text and whatever else belongs to it.
-/

namespace Verif.Spec.DupFilter

variable {α β : Type} (time : α → ℤ) (text : α → β)

/-- `d` repeats the text `last`, at most `max` after the time `t`. -/
def Repeats (max t : ℤ) (last : β) (d : α) : Prop := text d = last ∧ time d - t ≤ max

/-- `Tells max t last log msgs`: after a message `last` at the time `t`, the messages `msgs` give the entries `log`.  An entry is a
message that does not repeat the one of the entry before, and the number of the messages between them, which did repeat it.
Messages at the end that repeat the last one are not in the log. -/
inductive Tells (max : ℤ) : ℤ → β → List (ℕ × α) → List α → Prop
  | pending (t last ds) : (∀ d ∈ ds, Repeats time text max t last d) → Tells max t last [] ds
  | entry (t last ds m log msgs) : (∀ d ∈ ds, Repeats time text max t last d) → ¬ Repeats time text max t last m →
      Tells max (time m) (text m) log msgs → Tells max t last ((ds.length, m) :: log) (ds ++ m :: msgs)

end Verif.Spec.DupFilter
