import Verif.Model.Comm
import Mathlib.Data.Real.Basic
/-!
Model of `Trilinos/TpetraUtil.cpp` (map and vector helpers, lines 39-105) and of
`SylinderSystem::updateSylinderMap` (`Sylinder/SylinderSystem.cpp` lines 868-880).

A distributed map is the list over ranks of the global indices a rank owns, in local order.  A distributed vector
is the list over ranks of the local values.
-/
namespace Verif.TpetraUtil

/-- Global indices per rank. -/
abbrev DMap := List (List ℕ)

/-- TpetraUtil.cpp:39-41.  Contract of the Tpetra constructor with a local size: rank `r` owns the `n_r`
consecutive indices after those of the lower ranks, starting from 0. -/
def mapFromLocalSize (sizes : List ℕ) : DMap :=
  ((Comm.displs sizes).zip sizes).map (fun p => List.range' p.1 p.2)

/-- Number of global elements of a map. -/
def globalSize (m : DMap) : ℕ := (m.map List.length).sum

/-- `isContiguous()` of a zero-based map: every rank owns consecutive indices and ranks follow each other. -/
def isContiguous (m : DMap) : Bool := m == mapFromLocalSize (m.map List.length)

/-- TpetraUtil.cpp:60-65 on one rank. -/
def twoBlockLocal (gid1 gid2 : List ℕ) (globalSize1 : ℕ) : List ℕ :=
  gid1 ++ gid2.map (· + globalSize1)

/-- TpetraUtil.cpp:48-71.  `none`: one of the maps is not contiguous (exception).  Both maps live on the same
communicator (same number of ranks), which the `zip` relies on. -/
def mapFromTwoBlock (m1 m2 : DMap) : Option DMap :=
  if isContiguous m1 && isContiguous m2 then
    some ((m1.zip m2).map (fun p => twoBlockLocal p.1 p.2 (globalSize m1)))
  else none

/-- TpetraUtil.cpp:73-83: zero vector on the two-block map, then both parts copied through offset views
(`update(1.0, v, 0.0)` overwrites). -/
def vecFromTwoBlock (m1 : DMap) (v1 : List (List ℝ)) (m2 : DMap) (v2 : List (List ℝ)) :
    Option (DMap × List (List ℝ)) := do
  let m ← mapFromTwoBlock m1 m2
  let vs ← ((m.zip m1).zip (v1.zip v2)).mapM (fun p => do
    let zero := List.replicate p.1.1.length (0 : ℝ)
    let a ← Comm.copyInto zero 0 p.2.1
    Comm.copyInto a p.1.2.length p.2.2)
  some (m, vs)

/-- SylinderSystem.cpp:868-880 on one rank: the new `globalIndex` of the local bodies.  `minGlobalIndex` is
`getMinGlobalIndex()`, the first index of the rank; on a rank without bodies its value is irrelevant (`0` here). -/
def localGlobalIndices (nLocal : ℕ) (mine : List ℕ) : List ℕ :=
  let globalIndexBase := mine.headD 0
  (List.range nLocal).map (fun i => i + globalIndexBase)

/-- SylinderSystem.cpp:868-880 on all ranks: `sizes` bodies per rank; result: global indices of the bodies per
rank, and the mobility map (six degrees of freedom per body). -/
def updateSylinderMap (sizes : List ℕ) : DMap × DMap :=
  let sylinderMap := mapFromLocalSize sizes
  let mobilityMap := mapFromLocalSize (sizes.map (· * 6))
  ((sizes.zip sylinderMap).map (fun p => localGlobalIndices p.1 p.2), mobilityMap)

end Verif.TpetraUtil
