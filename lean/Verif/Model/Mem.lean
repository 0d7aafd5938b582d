import Mathlib.Data.Nat.Notation
/-!
Arrays written by several threads.  An array is a list, a write is a pair (index, value); a write outside the array
is undefined behaviour and gives `none`.
-/
namespace Verif.Mem

/-- Perform writes one after the other. -/
def writeAll {α : Type} (a : List α) : List (ℕ × α) → Option (List α)
  | [] => some a
  | (i, v) :: ws => if i < a.length then writeAll (a.set i v) ws else none

end Verif.Mem
