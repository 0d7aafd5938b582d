import Mathlib.Data.List.Basic
import Mathlib.Data.Nat.Notation
import Mathlib.Data.Int.Notation
/-!
Model of `Util/TRngPool.hpp` (lines 64-131).

The TRNG engine enters through its documented contract: seeding selects one infinite sequence of words; an engine
reads this sequence from some position with some stride; `split(s, n)` turns the engine into the `n`-th of the
`s` subsequences obtained by dealing out the words one by one (leapfrogging).
-/
namespace Verif.Rng

/-- An engine: the seed of its sequence, the position of the next word, the stride. -/
structure Engine where
  seed : ℤ
  next : ℕ
  stride : ℕ
deriving DecidableEq, Repr

/-- `engine.seed(s)` (TRngPool.hpp:81). -/
def Engine.ofSeed (s : ℤ) : Engine := ⟨s, 0, 1⟩

/-- `engine.split(s, n)`; TRNG throws when `s < 1` or `n >= s`. -/
def Engine.split (e : Engine) (s n : ℕ) : Option Engine :=
  if 0 < s ∧ n < s then some ⟨e.seed, e.next + n * e.stride, e.stride * s⟩ else none

/-- One raw word: its position in the sequence of the seed, and the engine afterwards. -/
def Engine.draw (e : Engine) : ℕ × Engine := (e.next, { e with next := e.next + e.stride })

/-- TRngPool.hpp:64-96: the constructor on rank `myRank` with `nThreads` threads.  The OpenMP loop writes
disjoint elements. -/
def pool (seed : ℤ) (nProcs nThreads myRank : ℕ) : Option (List Engine) := do
  let rngEngine := Engine.ofSeed seed
  let rngEngine ← if nProcs > 1 then rngEngine.split nProcs myRank else some rngEngine
  (List.range nThreads).mapM (fun i => rngEngine.split nThreads i)

/-- The pools of all ranks. -/
def pools (seed : ℤ) (nProcs nThreads : ℕ) : Option (List (List Engine)) :=
  (List.range nProcs).mapM (fun r => pool seed nProcs nThreads r)

/-- TRngPool.hpp:109-131: one word drawn on thread `t` of rank `r`: seed and position of the word, and the pools
afterwards.  `none`: the thread number is outside the pool (out-of-bounds access). -/
def drawAt (w : List (List Engine)) (r t : ℕ) : Option ((ℤ × ℕ) × List (List Engine)) := do
  let p ← w[r]?
  let e ← p[t]?
  some ((e.seed, e.draw.1), w.set r (p.set t e.draw.2))

/-- A history of draws (on whatever ranks and threads, in whatever order); returns the words drawn, each as
(rank, thread, seed, position). -/
def runDraws (w : List (List Engine)) : List (ℕ × ℕ) → Option (List (ℕ × ℕ × ℤ × ℕ))
  | [] => some []
  | (r, t) :: ops => do
    let (x, w') ← drawAt w r t
    let rest ← runDraws w' ops
    some ((r, t, x.1, x.2) :: rest)

end Verif.Rng
