import Verif.Model.Registry
import Verif.Model.Text

/-!
What a list of levels asks for.
-/

namespace Verif.LoadLevels.Spec

open Text (Str)
open Registry (Level)

/-- Blanks, line ends and tabs. -/
def Blank (s : Str) : Prop := ∀ c ∈ s, c = ' ' ∨ c = '\n' ∨ c = '\r' ∨ c = '\t'

/-- `w` with blanks on both sides is `s`; it does not begin or end with one itself. -/
def Padded (s w : Str) : Prop :=
  ∃ a b, s = a ++ w ++ b ∧ Blank a ∧ Blank b ∧ (∀ c u, w = c :: u → ¬Blank [c]) ∧ ∀ c u, w = u ++ [c] → ¬Blank [c]

/-- The words for the levels. -/
def words : List (String × Level) :=
  [("trace", 0), ("debug", 1), ("info", 2), ("warning", 3), ("warn", 3), ("error", 4), ("err", 4), ("critical", 5), ("off", 6)]

/-- `w` is a word for the level, in small or capital letters. -/
def Means (w : Str) (l : Level) : Prop := ∃ word, (word, l) ∈ words ∧ w.map Char.toLower = word.toList

/-- What the text means as the word for a level, if it is one. -/
def Level? (w : Str) : Option Level → Prop
  | some l => Means w l
  | none => ∀ l, ¬Means w l

/-- What an item of the list asks for: `name = level`, or a level without a name, which is the empty name then. -/
def Reads (item name : Str) (l : Option Level) : Prop :=
  ∃ w, Level? w l ∧
    ((∃ k v, item = k ++ '=' :: v ∧ '=' ∉ k ∧ Padded k name ∧ Padded v w) ∨ ('=' ∉ item ∧ name = [] ∧ Padded item w))

/-- The items of a list that is separated by commas, without the empty ones, and what each of them asks for. -/
def Asks (input : Str) (es : List (Str × Option Level)) : Prop :=
  ∃ items : List Str, (∀ t ∈ items, ',' ∉ t) ∧ input = List.intercalate [','] items ∧
    List.Forall₂ (fun t e => Reads t e.1 e.2) (items.filter (· ≠ [])) es

/-- The level for a name is the one of the last item with that name. -/
def levelOf (es : List (Str × Option Level)) (name : Str) : Option Level :=
  (es.reverse.find? fun e => e.1 == name).bind (·.2)

end Verif.LoadLevels.Spec
