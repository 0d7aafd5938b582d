import Verif.Model.V3
import Verif.Model.Mem
import Mathlib.Data.Matrix.Basic
/-!
Model of `Constraint/ConstraintBlock.hpp` lines 30-121 and `Constraint/ConstraintCollector.cpp` lines 17-74 and 237-461.

A pool is the list over threads of the queues of blocks.  Real numbers are exact.  A loop that is distributed over
threads and writes to a shared array is given as the list of its writes; `order` is the order in which they happen,
any rearrangement of the writes of all threads (this includes every interleaving).
-/
namespace Verif.Collector
open Verif.Mem

/-- ConstraintBlock.hpp:30-50 -/
structure Block where
  delta0 : ℝ
  gamma : ℝ
  gammaLB : ℝ
  gidI : ℤ
  gidJ : ℤ
  globalIndexI : ℤ
  globalIndexJ : ℤ
  oneSide : Bool
  bilateral : Bool
  kappa : ℝ
  normI : V3
  normJ : V3
  posI : V3
  posJ : V3
  labI : V3
  labJ : V3
  stress : Fin 9 → ℝ

abbrev Mat3 := Matrix (Fin 3) (Fin 3) ℝ

/-- Position `i * 3 + j` in the row-major array of nine. -/
def rowMajor (i j : Fin 3) : Fin 9 := ⟨i * 3 + j, by omega⟩

/-- ConstraintBlock.hpp:91-97 `setStress(const Emat3&)`: the two loops write every one of the nine places once. -/
def Block.setStress (b : Block) (s : Mat3) : Block :=
  { b with stress := fun k => s ⟨k / 3, by omega⟩ ⟨k % 3, by omega⟩ }

/-- ConstraintBlock.hpp:107-113 `getStress(Emat3&)`. -/
def Block.getStress (b : Block) : Mat3 := fun i j => b.stress (rowMajor i j)

/-- ConstraintBlock.hpp:115-123 `reverseIJ`. -/
def Block.reverseIJ (b : Block) : Block :=
  { b with
    gidI := b.gidJ, gidJ := b.gidI
    globalIndexI := b.globalIndexJ, globalIndexJ := b.globalIndexI
    normI := b.normJ, normJ := b.normI
    posI := b.posJ, posJ := b.posI
    labI := b.labJ, labJ := b.labI }

abbrev Pool := List (List Block)

/-- ConstraintCollector.cpp:30-36 -/
def getLocalNumberOfConstraints (pool : Pool) : ℕ := pool.foldl (fun sum q => sum + q.length) 0

/-- ConstraintCollector.cpp:19-28 `clear` with `totalThreads` threads: every queue emptied, then `resize`. -/
def clear (pool : Pool) (totalThreads : ℕ) : Pool :=
  let p := pool.map (fun _ => ([] : List Block))
  p.take totalThreads ++ List.replicate (totalThreads - p.length) []

/-- ConstraintCollector.cpp:433-435: the loop that fills `cQueIndex` from `cQueIndex[0] = 0`. -/
def queIndexFrom (acc : ℕ) : List ℕ → List ℕ
  | [] => [acc]
  | s :: rest => acc :: queIndexFrom (s + acc) rest

/-- ConstraintCollector.cpp:425-437 `buildConIndex`: `(cQueSize, cQueIndex)`.  The callers pass fresh vectors, so
`resize` leaves `cQueIndex[0] = 0`. -/
def buildConIndex (pool : Pool) : List ℕ × List ℕ :=
  let sizes := pool.map List.length
  (sizes, queIndexFrom 0 sizes)

/-! ### stress sum -/

/-- ConstraintCollector.cpp:49-66: sums of one queue, `(uni, bi)`. -/
noncomputable def queueStress (withOneSide : Bool) (q : List Block) : Mat3 × Mat3 :=
  q.foldl (fun acc b =>
    if b.oneSide && !withOneSide then acc
    else if b.bilateral then (acc.1, acc.2 + b.getStress)
    else (acc.1 + b.getStress, acc.2)) (0, 0)

/-- ConstraintCollector.cpp:38-74 `sumLocalConstraintStress`: `(uniStress, biStress)`.  `order`: the queues in the
order in which the threads enter the critical section (a rearrangement of `0 .. poolSize-1`). -/
noncomputable def sumLocalConstraintStress (pool : Pool) (withOneSide : Bool) (order : List ℕ) : Mat3 × Mat3 :=
  order.foldl (fun acc i =>
    let s := queueStress withOneSide (pool.getD i [])
    (acc.1 + s.1, acc.2 + s.2)) (0, 0)

/-! ### matrix -/

/-- Entry of the sparse matrix: column and value. -/
abbrev Entry := ℤ × ℝ

/-- ConstraintCollector.cpp:302-320 and 323-341: the six entries of a body with global index `g`, normal `n` and
constraint position `p`. -/
def sideEntries (g : ℤ) (n p : V3) : List Entry :=
  [(6 * g, n.x), (6 * g + 1, n.y), (6 * g + 2, n.z),
   (6 * g + 3, n.z * p.y - n.y * p.z),
   (6 * g + 4, n.x * p.z - n.z * p.x),
   (6 * g + 5, n.y * p.x - n.x * p.y)]

/-- Writes of consecutive entries starting from place `kk`. -/
def writesAt (kk : ℕ) (es : List Entry) : List (ℕ × Entry) :=
  es.mapIdx (fun i e => (kk + i, e))

/-- ConstraintCollector.cpp:299-343: the writes of the thread that processes a queue, from place `kk`.  The arrays
`columnIndices` and `values` are written at the same places and are kept as one array of pairs. -/
def fillQueue (kk : ℕ) : List Block → List (ℕ × Entry)
  | [] => []
  | b :: rest =>
    writesAt kk (sideEntries b.globalIndexI b.normI b.posI) ++
    (if b.oneSide then fillQueue (kk + 6) rest
     else writesAt (kk + 6) (sideEntries b.globalIndexJ b.normJ b.posJ) ++ fillQueue (kk + 6 + 6) rest)

/-- ConstraintCollector.cpp:271 -/
def blockNNZ (b : Block) : ℕ := if b.oneSide then 6 else 12

/-- ConstraintCollector.cpp:267-274 for one queue: `rowPointers` entries appended, and the running count. -/
def countQueue (count : ℕ) : List Block → List ℕ × ℕ
  | [] => ([], count)
  | b :: rest =>
    let r := countQueue (count + blockNNZ b) rest
    ((count + blockNNZ b) :: r.1, r.2)

/-- ConstraintCollector.cpp:264-276: `rowPointers` entries after the first, and `colIndexPool` entries after the
first.  (`rowPointers[k]` and `colIndexCount` run in step, one number here.) -/
def countPool (count : ℕ) : Pool → List ℕ × List ℕ
  | [] => ([], [])
  | q :: rest =>
    let r := countQueue count q
    let s := countPool r.2 rest
    (r.1 ++ s.1, r.2 :: s.2)

/-- ConstraintCollector.cpp:288-345: the writes of all threads, thread after thread. -/
def matrixWrites (pool : Pool) : List (ℕ × Entry) :=
  ((((0 :: (countPool 0 pool).2).zip pool).map (fun p => fillQueue p.1 p.2))).flatten

/-- `std::unique` on a sorted range. -/
def unique : List ℤ → List ℤ
  | [] => []
  | [a] => [a]
  | a :: b :: l => if a = b then unique (b :: l) else a :: unique (b :: l)

/-- ConstraintCollector.cpp:349-374: the column map: own range, plus the columns with entries outside of it, sorted,
without repetition. -/
def colMapOf (mobMin mobMax : ℤ) (cols : List ℤ) : List ℤ :=
  let own := (List.range (mobMax - mobMin + 1).toNat).map (fun i : ℕ => mobMin + (i : ℤ))
  let outside := cols.filter (fun c => c < mobMin || mobMax < c)
  unique ((own ++ outside).mergeSort (fun a b => decide (a ≤ b)))

/-- The matrix handed to Tpetra: row pointers, entries with local column numbers, column map. -/
structure Crs where
  rowPtr : List ℕ
  entries : List (ℕ × ℝ)
  colMap : List ℤ

/-- Largest `int`. -/
def intMax : ℤ := 2 ^ 31 - 1

/-- The products and sums `6 * globalIndex + k` stay inside `int`. -/
def indexFits (g : ℤ) : Bool := -(2 ^ 31) ≤ 6 * g && 6 * g + 5 ≤ intMax

/-- Index arithmetic of a block stays inside `int`; the index of body J is not used for one-sided blocks. -/
def blockFits (b : Block) : Bool := indexFits b.globalIndexI && (b.oneSide || indexFits b.globalIndexJ)

/-- ConstraintCollector.cpp:237-388: the matrix `D^T` of one rank whose part of the mobility map is
`mobMin .. mobMax`.  `order`: the writes `matrixWrites pool` in the order in which they happen.  `none`: `int` overflow, a write outside an array,
one of the two consistency checks (`std::exit`), a negative vector size, or a column missing in the column map. -/
noncomputable def buildMatrix (pool : Pool) (mobMin mobMax : ℤ) (order : List (ℕ × Entry)) : Option Crs := do
  let (_cQueSize, cQueIndex) := buildConIndex pool
  let localGammaSize ← cQueIndex.getLast?
  let (rows, starts) := countPool 0 pool
  let rowPtr := 0 :: rows
  let colIndexPool := 0 :: starts
  let nnz ← rowPtr.getLast?
  let colIndexCount ← colIndexPool.getLast?
  if !(pool.flatten.all blockFits) || intMax < (nnz : ℤ) then none
  else if rows.length ≠ localGammaSize then none
  else do
    let arr ← writeAll (List.replicate nnz ((0 : ℤ), (0 : ℝ))) order
    if mobMax - mobMin + 1 < 0 then none
    else if nnz ≠ colIndexCount then none
    else do
      let colMap := colMapOf mobMin mobMax (arr.map Prod.fst)
      let entries ← arr.mapM (fun e => (colMap.idxOf? e.1).map (fun c => (c, e.2)))
      some ⟨rowPtr, entries, colMap⟩

/-- Tpetra's reading of the three arrays: row `r` has the entries from `rowPtr[r]` up to `rowPtr[r+1]`, local column
numbers stand for the members of the column map. -/
def Crs.row (A : Crs) (r : ℕ) : Option (List Entry) := do
  let s ← A.rowPtr[r]?
  let e ← A.rowPtr[r + 1]?
  ((A.entries.drop s).take (e - s)).mapM (fun p => (A.colMap[p.1]?).map (fun c => (c, p.2)))

/-- All rows of the matrix. -/
def Crs.rows (A : Crs) : Option (List (List Entry)) := (List.range (A.rowPtr.length - 1)).mapM A.row

/-- Contract of `CrsMatrix::apply`: local part of `D^T x`; `x` is the global vector. -/
noncomputable def applyRows (rows : List (List Entry)) (x : ℤ → ℝ) : List ℝ :=
  rows.map (fun es => (es.map (fun e => e.2 * x e.1)).sum)

/-- Contract of `RowMatrixTransposer` followed by `apply`: entry `c` of `D gamma`, the part of one rank. -/
noncomputable def applyTransposed (rows : List (List Entry)) (gamma : List ℝ) (c : ℤ) : ℝ :=
  ((rows.zip gamma).map (fun p => ((p.1.filter (fun e => e.1 = c)).map (fun e => e.2 * p.2)).sum)).sum

/-! ### vectors -/

/-- Local entries of `delta0`, `gammaGuess`, `invKappa`, `biFlag` at one place. -/
structure VecEntry where
  delta0 : ℝ
  gammaGuess : ℝ
  invKappa : ℝ
  biFlag : ℝ

/-- ConstraintCollector.cpp:392-395: vectors are created filled with zeros. -/
noncomputable def VecEntry.zero : VecEntry := ⟨0, 0, 0, 0⟩

/-- ConstraintCollector.cpp:413-419: what is written for a block (the last two are only written for bilateral
constraints and stay zero otherwise). -/
noncomputable def vecEntry (b : Block) : VecEntry :=
  if b.bilateral then ⟨b.delta0, b.gamma, if 0 < b.kappa then 1 / b.kappa else 0, 1⟩
  else ⟨b.delta0, b.gamma, 0, 0⟩

/-- ConstraintCollector.cpp:406-421: writes of the thread that processes a queue with base `cIndexBase`. -/
noncomputable def vecWrites (cIndexBase : ℕ) (q : List Block) : List (ℕ × VecEntry) :=
  q.mapIdx (fun j b => (cIndexBase + j, vecEntry b))

/-- ConstraintCollector.cpp:404-421: the writes of all threads, thread after thread. -/
noncomputable def vectorWrites (pool : Pool) : List (ℕ × VecEntry) :=
  (((buildConIndex pool).2.zip pool).map (fun p => vecWrites p.1 p.2)).flatten

/-- ConstraintCollector.cpp:391-421: the four vectors of one rank; `order`: the writes
`vectorWrites pool` in the order in which they happen. -/
noncomputable def buildVectors (pool : Pool) (order : List (ℕ × VecEntry)) : Option (List VecEntry) := do
  let (_cQueSize, cQueIndex) := buildConIndex pool
  let localGammaSize ← cQueIndex.getLast?
  writeAll (List.replicate localGammaSize VecEntry.zero) order

/-! ### write-back -/

/-- ConstraintCollector.cpp:453-456: one block. -/
def Block.writeGamma (b : Block) (g : ℝ) : Block :=
  { b with gamma := g, stress := fun k => b.stress k * g }

/-- ConstraintCollector.cpp:439-461 `writeBackGamma`; `none`: read outside of the local vector.  Blocks are disjoint,
so the threads do not interact. -/
noncomputable def writeBackGamma (pool : Pool) (gamma : List ℝ) : Option Pool :=
  let (_cQueSize, cQueIndex) := buildConIndex pool
  (cQueIndex.zip pool).mapM (fun p =>
    (p.2.zipIdx).mapM (fun bj => (gamma[p.1 + bj.2]?).map bj.1.writeGamma))

end Verif.Collector
