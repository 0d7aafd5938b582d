import Verif.Model.MemPool
/-! What the arrays of the memory pool are for: each of them holds its elements.  Nothing here refers to segments or buffers, except where `Safe` excludes calls. -/
namespace Verif.MemPool

variable {β : Type}

/-- The array `o` as its user sees it: `sizeof(T)` and the bytes of its elements, read through `data_`. -/
def view (m : M β) (o : ℕ) : Option (ℕ × List (Option β)) :=
  match m.arr o with
  | none => none
  | some r =>
    match read r.data (r.width * r.size) m with
    | .error _ => none
    | .ok l => some (r.width, l)

/-- The array a call is made on. -/
def Op.target : Op β → ℕ
  | .construct o _ _ _ => o
  | .resize o _ => o
  | .set o _ _ => o
  | .pushBack o _ => o
  | .pushBackNoCheck o _ => o
  | .clearSize o => o
  | .reserveAtLeast o _ => o
  | .reserveEmpty o _ => o
  | .reserve o _ => o
  | .freeArr o => o
  | .destroy o => o

/-- The emergency buffers in use. -/
def inUse (m : M β) : ℕ := (m.emerg.filter fun e => e.used).length

/-- The memory of an array may be given back: it has some (or `freeMem(-1)` does what it should), and it is not an emergency buffer (or `freeMem` treats them as it
should). -/
def MayFree (intended : Bool) (r : Arr) : Prop := intended = false → r.data ≠ none ∧ r.id < limit

/-- An array may be moved to larger memory: as before, and outside of parallel regions it is not in an emergency buffer. -/
def MayMove (intended par : Bool) (r : Arr) : Prop := MayFree intended r ∧ (par = false → r.id < limit)

/-- The calls the theorems are about, in the state `m`: the array exists (or does not, for a constructor), indices are in range, and what `MayFree` and `MayMove` exclude does
not happen.  `unifyMem` does not check the number of segments: it must not be called with more than 10000 segments and buffers in use. -/
def Safe (intended par : Bool) (m : M β) (op : Op β) : Prop :=
  (par = false → m.nseg + inUse m ≤ limit) ∧
  match op with
  | .construct o w cap size => m.arr o = none ∧ 1 ≤ w ∧ size ≤ cap
  | .resize o n => ∃ r, m.arr o = some r ∧ grown n < 2 ^ 31 ∧ (r.data ≠ none → r.capacity < n → MayMove intended par r)
  | .set o i v => ∃ r, m.arr o = some r ∧ i < r.size ∧ v.length = r.width
  | .pushBack o v => ∃ r, m.arr o = some r ∧ v.length = r.width ∧ grown (r.size + 1) < 2 ^ 31 ∧ (r.data ≠ none → r.capacity < r.size + 1 → MayMove intended par r)
  | .pushBackNoCheck o v => ∃ r, m.arr o = some r ∧ v.length = r.width ∧ r.size < r.capacity
  | .clearSize o => ∃ r, m.arr o = some r
  | .reserveAtLeast o n => ∃ r, m.arr o = some r ∧ grown n < 2 ^ 31 ∧ (r.capacity ≤ n → MayMove intended par r)
  | .reserveEmpty o n => ∃ r, m.arr o = some r ∧ grown (n + r.size) < 2 ^ 31 ∧ (r.capacity ≤ n + r.size → MayMove intended par r)
  | .reserve o n => ∃ r, m.arr o = some r ∧ n ≤ r.capacity
  | .freeArr o => ∃ r, m.arr o = some r ∧ (r.data ≠ none → MayFree intended r)
  | .destroy o => ∃ r, m.arr o = some r ∧ MayFree intended r

/-- The limits at which the program ends with a message: 2^30 elements, 10000 segments. -/
def Fits (m : M β) (op : Op β) : Prop :=
  m.nseg + inUse m + 1 < limit ∧
  match op with
  | .construct _ _ cap _ => cap < capLimit
  | .resize o n => ∀ r, m.arr o = some r → max (grown n) r.capacityOrg < capLimit
  | .pushBack o _ => ∀ r, m.arr o = some r → max (grown (r.size + 1)) r.capacityOrg < capLimit
  | .reserveAtLeast _ n => grown n < capLimit
  | .reserveEmpty o n => ∀ r, m.arr o = some r → grown (n + r.size) < capLimit
  | _ => True

/-- What a call does to its array: `m` before, `m'` after. -/
def Effect (m m' : M β) : Op β → Prop
  | .construct o w _ size => ∃ l, view m' o = some (w, l) ∧ l.length = w * size
  | .resize o n => ∀ w l, view m o = some (w, l) → ∃ l', view m' o = some (w, l') ∧ l'.length = w * n ∧ l'.take l.length = l.take (w * n)
  | .set o i v => ∀ w l, view m o = some (w, l) → view m' o = some (w, l.take (w * i) ++ v ++ l.drop (w * i + w))
  | .pushBack o v => ∀ w l, view m o = some (w, l) → view m' o = some (w, l ++ v)
  | .pushBackNoCheck o v => ∀ w l, view m o = some (w, l) → view m' o = some (w, l ++ v)
  | .clearSize o => ∀ w l, view m o = some (w, l) → view m' o = some (w, [])
  | .reserveAtLeast o n => view m' o = view m o ∧ ∀ r, m'.arr o = some r → n < r.capacity
  | .reserveEmpty o n => view m' o = view m o ∧ ∀ r, m'.arr o = some r → n + r.size < r.capacity
  | .reserve o n => view m' o = view m o ∧ ∀ r, m'.arr o = some r → n ≤ r.capacity
  | .freeArr o => ∀ w l, view m o = some (w, l) → view m' o = some (w, [])
  | .destroy o => view m' o = none

/-- The states of a program that makes only safe calls. -/
inductive Reach (intended : Bool) (cap : ℕ) : M β → Prop
  | start : Reach intended cap (initial cap)
  | call {m m' : M β} {par : Bool} {op : Op β} : Reach intended cap m → Safe intended par m op → step intended par m op = .ok m' → Reach intended cap m'

/-- The memory of an array: the block, and the offsets from `lo` to below `hi`. -/
def Region (m : M β) (o b lo hi : ℕ) : Prop := ∃ r, m.arr o = some r ∧ r.data = some (b, lo) ∧ hi = lo + r.width * r.capacity

/-- Every array has the memory for its capacity, within a living block, and no two arrays share a byte. -/
structure Placed (m : M β) : Prop where
  full : ∀ o r, m.arr o = some r → r.size ≤ r.capacity ∧ (r.data = none → r.capacity = 0) ∧ ∃ l, view m o = some (r.width, l) ∧ l.length = r.width * r.size
  inside : ∀ o b lo hi, Region m o b lo hi → ∃ l, m.heap b = some l ∧ hi ≤ l.length
  apart : ∀ o p b lo hi lo' hi', o ≠ p → Region m o b lo hi → Region m p b lo' hi' → hi ≤ lo' ∨ hi' ≤ lo

end Verif.MemPool
