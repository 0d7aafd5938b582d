import Verif.Model.Text

/-! What is said about the files of a rotating log. -/

namespace Verif.Spec.RotatingLog

open Text (Str)

/-- The folder of a path: everything up to its last `/`. -/
def folder (path : Str) : Str := (path.reverse.dropWhile (· ≠ '/')).reverse

/-- The length of the messages of one file. -/
def size (chunk : List Str) : ℕ := chunk.flatten.length

/-- `history` says what was written, file by file, newest first: in this order of the messages, and no file is larger than `max`
unless it holds a single message or is one of the `old` files. -/
structure History (max : ℕ) (old history : List (List Str)) (msgs : List Str) : Prop where
  complete : history.reverse.flatten = old.reverse.flatten ++ msgs
  small : ∀ chunk ∈ history, size chunk ≤ max ∨ chunk.length ≤ 1 ∨ chunk ∈ old

end Verif.Spec.RotatingLog
