import Mathlib.Data.List.Basic

/-! A queue of bounded length that forgets the oldest item. -/

namespace Verif.Spec.CircularQ

/-- What a caller does. -/
inductive Op (α : Type) where
  | push (a : α)
  | pop

/-- The items held, the number of lost items, and the items that were popped; `none` if an empty queue is popped. -/
def run {α : Type} (cap : ℕ) : List (Op α) → List α → ℕ → Option (List α × ℕ × List α)
  | [], l, lost => some (l, lost, [])
  | .push a :: ops, l, lost =>
    if l.length < cap then run cap ops (l ++ [a]) lost else run cap ops ((l ++ [a]).drop 1) (lost + 1)
  | .pop :: _, [], _ => none
  | .pop :: ops, a :: l, lost => (run cap ops l lost).map fun r => (r.1, r.2.1, a :: r.2.2)

end Verif.Spec.CircularQ
