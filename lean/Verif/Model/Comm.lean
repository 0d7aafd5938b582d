import Verif.Model.Sort
import Mathlib.Algebra.Order.Ring.Int
/-!
Model of `MPI/CommMPI.hpp`: `CommMPI::exchangeAllToAllV` (lines 109-165), executed collectively by all ranks.

The global state is one entry per rank.  `MPI_Alltoall` and `MPI_Alltoallv` enter through their contract.
-/
namespace Verif.Comm

/-- CommMPI.hpp:128-133: one `sendCounts[dest]++`; `none` for a destination outside `0..nProcs-1` (the
assertion of line 130; an out-of-bounds write without assertions). -/
def countOne (counts : List ℕ) (dest : ℤ) : Option (List ℕ) :=
  if 0 ≤ dest ∧ dest.toNat < counts.length then some (counts.modify dest.toNat (· + 1)) else none

/-- CommMPI.hpp:77-93 and 127-133: counters cleared, then the counting loop.  The increments are atomic and
commute (lemma `countLoop_perm`), so running the iterations in list order loses no behaviour. -/
def countLoop (nProcs : ℕ) (dests : List ℤ) : Option (List ℕ) :=
  dests.foldlM countOne (List.replicate nProcs 0)

/-- CommMPI.hpp:142-152: displacements by `std::partial_sum` behind a leading entry (`nProcs + 1` entries). -/
def displsFrom (start : ℕ) : List ℕ → List ℕ
  | [] => [start]
  | c :: cs => start :: displsFrom (start + c) cs

/-- CommMPI.hpp:144-145, 149-150: the leading entry is 0.  (`int` sums; overflow at 2^31 items is not modelled.) -/
def displs (counts : List ℕ) : List ℕ := displsFrom 0 counts

/-- `std::vector::resize(n)`: keep a prefix of the old content, fill up with default values. -/
def resize {α : Type} [Inhabited α] (old : List α) (n : ℕ) : List α := (old ++ List.replicate n default).take n

/-- Copy `seg` into `buf` at offset `off`; `none` when it does not fit. -/
def copyInto {α : Type} (buf : List α) (off : ℕ) (seg : List α) : Option (List α) :=
  if off + seg.length ≤ buf.length then some (buf.take off ++ seg ++ buf.drop (off + seg.length)) else none

/-- A sub-array `[off, off + n)`; `none` when it exceeds the array. -/
def subArray {α : Type} (v : List α) (off n : ℕ) : Option (List α) :=
  if off + n ≤ v.length then some ((v.drop off).take n) else none

/-- What one rank passes to `MPI_Alltoallv` as its send side. -/
structure SendSide (α : Type) where
  data : List α
  counts : List ℕ
  displs : List ℕ

/-- CommMPI.hpp:116-133, 142-147: the send side of one rank: sort by destination, count, displacements. -/
def sendSide {α : Type} (nProcs : ℕ) (dest : List ℤ) (data : List α) : Option (SendSide α) := do
  let (tags, sorted) ← TagSort.sortDataWithTag dest data
  let counts ← countLoop nProcs tags
  some ⟨sorted, counts, displs counts⟩

/-- MPI contract: the segments rank `r` receives from ranks `0, 1, ...`, in this order. -/
def segmentsFor {α : Type} (sides : List (SendSide α)) (r : ℕ) : Option (List (List α)) :=
  sides.mapM (fun s => do
    let d ← s.displs[r]?
    let c ← s.counts[r]?
    subArray s.data d c)

/-- Copy segments to their displacements one after the other (`MPI_Alltoallv` on the receive side,
and the `std::fill` loop of lines 159-164). -/
def placeAll {α : Type} (buf : List α) : List (ℕ × List α) → Option (List α)
  | [] => some buf
  | (off, seg) :: rest => do
    let b ← copyInto buf off seg
    placeAll b rest

/-- CommMPI.hpp:135, 148-164: the receive side of rank `r`: counts from `MPI_Alltoall`, displacements,
resize, `MPI_Alltoallv`, source ranks.  Result: `recvSrcRank`, `recvData`. -/
def recvSide {α : Type} [Inhabited α] (sides : List (SendSide α)) (r : ℕ) (oldSrc : List ℕ) (oldData : List α) :
    Option (List ℕ × List α) := do
  let recvCounts ← sides.mapM (fun s => s.counts[r]?)
  let recvDispls := displs recvCounts
  let total ← recvDispls.getLast?
  let segs ← segmentsFor sides r
  let data ← placeAll (resize oldData total) (recvDispls.zip segs)
  let src ← placeAll (resize oldSrc total)
    (recvDispls.zip ((List.range sides.length).zip recvCounts |>.map (fun p => List.replicate p.2 p.1)))
  some (src, data)

/-- CommMPI.hpp:109-165: `exchangeAllToAllV` called by all ranks with `(sendDestRank, sendData)` and the old
contents `(recvSrcRank, recvData)`; the result is the new `(recvSrcRank, recvData)` of every rank.  `none`: an
assertion or memory error on some rank. -/
def exchange {α : Type} [Inhabited α] (ins : List (List ℤ × List α)) (olds : ℕ → List ℕ × List α) :
    Option (List (List ℕ × List α)) := do
  let sides ← ins.mapM (fun p => sendSide ins.length p.1 p.2)
  (List.range ins.length).mapM (fun r => recvSide sides r (olds r).1 (olds r).2)

end Verif.Comm
