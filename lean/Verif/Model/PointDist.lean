import Verif.Model.Comm
import Mathlib.Data.Real.Archimedean
import Mathlib.Algebra.Order.Floor.Ring
/-!
Model of `Util/PointDistribution.cpp`: `distributePts` (lines 167-204), `collectPts` (206-255),
`collectPtsAll` (257-266).  The global state is the list of the vectors held by ranks `0, 1, ...`.
MPI collectives enter through their contract.
-/
namespace Verif.PointDist

/-- Largest `int`. -/
def intMax : ℕ := 2 ^ 31 - 1

/-- PointDistribution.cpp:193 and 195: `dimension * floor(k * nPts / static_cast<double>(nProcs))`.  The product
`k * nPts` is an `int` product: `none` when it overflows.  `fl` rounds a real number to a `double`. -/
noncomputable def index (fl : ℝ → ℝ) (nProcs dimension nPts k : ℕ) : Option ℕ :=
  if k * nPts ≤ intMax then some (dimension * ⌊fl (((k * nPts : ℕ) : ℝ) / (nProcs : ℝ))⌋.toNat) else none

/-- PointDistribution.cpp:173-203 on one rank; `root` is what rank 0 passed, `mine` what this rank passed.
`none`: division by zero, `int` overflow, or an invalid iterator range. -/
noncomputable def distributeRank {α : Type} (fl : ℝ → ℝ) (nProcs dimension : ℕ) (root mine : List α) (rank : ℕ) :
    Option (List α) :=
  if nProcs = 1 then some mine
  else if root.length > intMax then none
  else if dimension = 0 then none
  else do
    let nPts := root.length / dimension
    let low ← index fl nProcs dimension nPts rank
    let high ← index fl nProcs dimension nPts (rank + 1)
    let high := if rank = nProcs - 1 then root.length else high
    if low ≤ high ∧ high ≤ root.length then some ((root.drop low).take (high - low)) else none

/-- PointDistribution.cpp:167-204, all ranks.  `none` if any rank fails. -/
noncomputable def distributePts {α : Type} (fl : ℝ → ℝ) (dimension : ℕ) (locals : List (List α)) :
    Option (List (List α)) := do
  let root ← locals[0]?
  locals.zipIdx.mapM (fun p => distributeRank fl locals.length dimension root p.1 p.2)

/-- PointDistribution.cpp:206-255, all ranks: rank 0 receives the parts at the displacements, the other ranks
end up empty.  `none`: the total does not fit an `int`. -/
def collectPts {α : Type} [Inhabited α] (locals : List (List α)) : Option (List (List α)) :=
  if locals.length = 1 then some locals
  else
    let recvSize := locals.map List.length
    if recvSize.sum > intMax then none
    else do
      let buf ← Comm.placeAll (List.replicate recvSize.sum default) ((Comm.displs recvSize).zip locals)
      some (buf :: List.replicate (locals.length - 1) [])

/-- PointDistribution.cpp:257-266, all ranks: collect, then broadcast size and content from rank 0. -/
def collectPtsAll {α : Type} [Inhabited α] (locals : List (List α)) : Option (List (List α)) := do
  let collected ← collectPts locals
  let root ← collected[0]?
  if root.length > intMax then none
  else some (collected.map (fun _ => root))

end Verif.PointDist
