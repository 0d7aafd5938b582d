import Mathlib.Data.List.Basic
import Mathlib.Data.Nat.Notation
/-!
Model of `FDPS/sort.hpp`: `RadixSort<U64, 8>::lsdSort` (lines 54-126), the sort of the tree particles by Morton key.

Keys are natural numbers (`U64` values are the ones below `2^64`).  Every OpenMP `for` is modelled by an assignment of
iterations to threads and an order in which the iterations happen; both are arbitrary here, the properties say which
ones are needed.
-/
namespace Verif.Radix

/-- `NBIT` (sort.hpp:17) -/
def nbit : ℕ := 8

/-- `mask_` (sort.hpp:36-37): the lowest `NBIT` bits. -/
def mask : ℕ := 2 ^ nbit - 1

/-- sort.hpp:80,107: `(key >> shift) & mask_` -/
def digit (shift key : ℕ) : ℕ := (key >>> shift) &&& mask

/-- `bucket_size_` and `prefix_sum_` (sort.hpp:22-23): one row of counters per thread, one column per bucket. -/
abbrev Table := ℕ → ℕ → ℕ

/-- `table[th][b]++` -/
def Table.inc (t : Table) (th b : ℕ) : Table := fun i j => if i = th ∧ j = b then t i j + 1 else t i j

/-- sort.hpp:72-74: each thread of the team clears its own row; the other rows keep what they had. -/
def clearRows (team : ℕ) (bs : Table) : Table := fun th b => if th < team then 0 else bs th b

/-- sort.hpp:78-82: the iterations in the given order, iteration `i` by thread `own i`. -/
def countLoop (own dig : ℕ → ℕ) (bs : Table) (order : List ℕ) : Table :=
  order.foldl (fun t i => t.inc (own i) (dig i)) bs

/-- sort.hpp:87-97: the prefix sums, bucket by bucket and within a bucket thread by thread (`nt` is `n_thread_`). -/
def prefixSum (nt : ℕ) (bs : Table) : ℕ → ℕ → ℕ
  | 0, 0 => 0
  | b, th + 1 => prefixSum nt bs b th + bs th b
  | b + 1, 0 => prefixSum nt bs b (nt - 1) + bs (nt - 1) b
termination_by b th => (b, th)

/-- sort.hpp:102-110: the iterations in the given order; iteration `i`, run by thread `own i`, copies `val[i]` to the
slot given by the counter and increments the counter.  `none`: a read or write outside the arrays. -/
def scatter {α : Type} (own dig : ℕ → ℕ) (val : List α) : List ℕ → Table → List α → Option (List α)
  | [], _, buf => some buf
  | i :: is, p, buf =>
    match val[i]? with
    | none => none
    | some v =>
      if p (own i) (dig i) < buf.length then
        scatter own dig val is (p.inc (own i) (dig i)) (buf.set (p (own i) (dig i)) v)
      else none

/-- How the runtime executes one parallel region: the size of the team, the thread of every iteration of the two
`omp for` loops, and the order in which the iterations happen.  `old` is what the counters hold before. -/
structure Sched where
  team : ℕ
  own1 : ℕ → ℕ
  own2 : ℕ → ℕ
  order1 : List ℕ
  order2 : List ℕ
  old : Table

/-- One pass of the loop of sort.hpp:66-117, without the swap: the new contents of `val_buf`. -/
def pass {α : Type} (nt : ℕ) (s : Sched) (key : α → ℕ) (shift : ℕ) (val buf : List α) : Option (List α) :=
  let dig := fun i => match val[i]? with
    | some v => digit shift (key v)
    | none => 0
  let bs := countLoop s.own1 dig (clearRows s.team s.old) s.order1
  scatter s.own2 dig val s.order2 (fun th b => prefixSum nt bs b th) buf

/-- The two arrays passed to `lsdSort` and the direction of the pointers: `flip = false` when `val` points to the
first one. -/
structure Arrays (α : Type) where
  first : List α
  second : List α
  flip : Bool

/-- What `val` points to. -/
def Arrays.val {α : Type} (a : Arrays α) : List α := if a.flip then a.second else a.first
/-- What `val_buf` points to. -/
def Arrays.buf {α : Type} (a : Arrays α) : List α := if a.flip then a.first else a.second
/-- Overwrite what `val_buf` points to. -/
def Arrays.setBuf {α : Type} (a : Arrays α) (l : List α) : Arrays α :=
  if a.flip then { a with first := l } else { a with second := l }
/-- sort.hpp:114-116: swap the pointers. -/
def Arrays.swap {α : Type} (a : Arrays α) : Arrays α := { a with flip := !a.flip }

/-- sort.hpp:62-63: the number of passes for a key of `bits` bits. -/
def numLoops (bits : ℕ) : ℕ := if bits % nbit ≠ 0 then bits / nbit + 1 else bits / nbit

/-- sort.hpp:66-117: passes `loop`, `loop + 1`, …, `nLoop - 1`; no swap after the last one. -/
def loops {α : Type} (nt : ℕ) (s : ℕ → Sched) (key : α → ℕ) : ℕ → ℕ → Arrays α → Option (Arrays α)
  | 0, _, a => some a
  | k + 1, loop, a =>
    match pass nt (s loop) key (loop * nbit) a.val a.buf with
    | none => none
    | some out =>
      if k = 0 then some (a.setBuf out)
      else loops nt s key k (loop + 1) (a.setBuf out).swap

/-- sort.hpp:54-126: the contents of the array `val` after `lsdSort(val, val_buf, 0, n - 1)`.  `s` is the execution of
every pass.  For an odd number of passes the result is copied back (lines 118-125). -/
def lsdSort {α : Type} (bits nt : ℕ) (s : ℕ → Sched) (key : α → ℕ) (val buf : List α) : Option (List α) :=
  match loops nt s key (numLoops bits) 0 ⟨val, buf, false⟩ with
  | none => none
  | some a => if numLoops bits % 2 = 1 then some a.buf else some a.first

end Verif.Radix
