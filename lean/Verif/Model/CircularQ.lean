import Mathlib.Data.List.Basic

/-!
`spdlog::details::circular_q` (spdlog/details/circular_q.h) and `backtracer` (spdlog/details/backtracer-inl.h).

`size_t` is modelled by `Nat` (indices stay below the length of the vector; the counter of overruns would wrap
only after 2^64 losses).  Undefined behaviour (an index out of range, `% 0`) is `none`.
-/

namespace Verif.CircularQ

/-- The members (spdlog/details/circular_q.h:15-19). -/
structure CQ (α : Type) where
  maxItems : ℕ
  head : ℕ
  tail : ℕ
  overrun : ℕ
  v : List α

variable {α : Type}

/-- `circular_q() = default` (spdlog/details/circular_q.h:25). -/
def disabled : CQ α := ⟨0, 0, 0, 0, []⟩

/-- `circular_q(size_t max_items)` (spdlog/details/circular_q.h:27-30). -/
def new [Inhabited α] (n : ℕ) : CQ α := ⟨n + 1, 0, 0, 0, List.replicate (n + 1) default⟩

/-- `push_back` (spdlog/details/circular_q.h:49-62). -/
def push (q : CQ α) (a : α) : Option (CQ α) :=
  if 0 < q.maxItems then
    if q.tail < q.v.length then
      let q1 := { q with v := q.v.set q.tail a, tail := (q.tail + 1) % q.maxItems }
      if q1.tail = q1.head then some { q1 with head := (q1.head + 1) % q1.maxItems, overrun := q1.overrun + 1 }
      else some q1
    else none
  else some q

/-- `front` (spdlog/details/circular_q.h:66-74). -/
def front (q : CQ α) : Option α := q.v[q.head]?

/-- `size` (spdlog/details/circular_q.h:77-87). -/
def size (q : CQ α) : ℕ := if q.head ≤ q.tail then q.tail - q.head else q.maxItems - (q.head - q.tail)

/-- `at` (spdlog/details/circular_q.h:91-95); the assertion and `% 0` are `none`. -/
def at' (q : CQ α) (i : ℕ) : Option α :=
  if i < size q then
    if q.maxItems = 0 then none else q.v[(q.head + i) % q.maxItems]?
  else none

/-- `pop_front` (spdlog/details/circular_q.h:99-102). -/
def pop (q : CQ α) : Option (CQ α) := if q.maxItems = 0 then none else some { q with head := (q.head + 1) % q.maxItems }

/-- `empty` (spdlog/details/circular_q.h:104-107). -/
def empty (q : CQ α) : Bool := decide (q.tail = q.head)

/-- `full` (spdlog/details/circular_q.h:109-117). -/
def full (q : CQ α) : Bool := if 0 < q.maxItems then decide ((q.tail + 1) % q.maxItems = q.head) else false

/-- `copy_moveable` (spdlog/details/circular_q.h:126-138): the new object and what is left of the other one (whose
vector is empty after the move). -/
def move (q : CQ α) : CQ α × CQ α := (q, ⟨0, 0, 0, 0, []⟩)

/-- Many `push_back`. -/
def pushAll (q : CQ α) : List α → Option (CQ α)
  | [] => some q
  | a :: l => (push q a).bind fun q' => pushAll q' l

/-- The loop of `foreach_pop` (spdlog/details/backtracer-inl.h:58-67): the messages that `fun` is applied to, and the queue
afterwards.  `fuel` bounds the number of rounds of the `while`; `none` if it does not suffice or in case of undefined behaviour. -/
def foreachPop : ℕ → CQ α → Option (List α × CQ α)
  | 0, q => if empty q then some ([], q) else none
  | fuel + 1, q =>
    if empty q then some ([], q)
    else (front q).bind fun a => (pop q).bind fun q' => (foreachPop fuel q').map fun r => (a :: r.1, r.2)

end Verif.CircularQ
