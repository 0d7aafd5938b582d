import Verif.Model.Snapshot
/-!
Model of ids and links: `Sylinder/SylinderSystem.cpp` lines 1161-1173 (`getMaxGid`), 1311-1350 (`addNewSylinder`), 1352-1368
(`addNewLink`), 377-404 (`setLinkMapFromFile`).

A state of all ranks is a list with one entry per rank.  `std::shuffle` is a function `shuffle`; what is assumed of it (the
result is a permutation) is said in the theorems.  The unordered multimaps are lists of pairs; their order has no meaning.
-/
namespace Verif.Ids

/-- SylinderSystem.cpp:1162-1166: the greatest id on a rank, at least zero. -/
def maxGidLocal (bodies : List Sylinder) : ℤ := bodies.foldl (fun m s => max m s.gid) 0

/-- SylinderSystem.cpp:1168-1169: the reduction over all ranks. -/
def maxGidGlobal (ranks : List (List Sylinder)) : ℤ := (ranks.map maxGidLocal).foldl max 0

/-- SylinderSystem.cpp:1327: `partial_sum` of the counts behind a zero. -/
def displ (counts : List ℕ) : List ℕ := counts.scanl (· + ·) 0

/-- SylinderSystem.cpp:1329-1330: `iota` from the first new id. -/
def iota (first : ℤ) (n : ℕ) : List ℤ := (List.range n).map fun i : ℕ => first + (i : ℤ)

/-- SylinderSystem.cpp:1340-1341: `MPI_Scatterv`: the part of the root's list from `displ[r]` on, of length `count[r]`; `none` if it
reaches beyond the list. -/
def scatterv (all : List ℤ) (counts displs : List ℕ) : Option (List (List ℤ)) :=
  (List.range counts.length).mapM fun r =>
    counts[r]?.bind fun c => displs[r]?.bind fun d => if d + c ≤ all.length then some ((all.drop d).take c) else none

/-- SylinderSystem.cpp:1344-1348: the bodies get their ids and go to the end of the container. -/
def place (bodies new : List Sylinder) (ids : List ℤ) : List Sylinder := bodies ++ List.zipWith (fun s g => { s with gid := g }) new ids

/-- SylinderSystem.cpp:1311-1350 on all ranks; an `int` overflow is `none`. -/
def addNewSylinder (shuffle : List ℤ → List ℤ) (ranks new : List (List Sylinder)) : Option (List (List Sylinder) × List (List ℤ)) :=
  let counts := new.map List.length
  let d := displ counts
  let total := d.getLastD 0
  let m := maxGidGlobal ranks
  if m + (total : ℤ) ≤ Output.intMax then
    (scatterv (shuffle (iota (m + 1) total)) counts d).map fun ids =>
      ((List.zipWith (fun (b : List Sylinder) (x : List Sylinder × List ℤ) => place b x.1 x.2) ranks (List.zip new ids)), ids)
  else none

/-- Additions one after the other, each with its own shuffle. -/
def additions (ranks : List (List Sylinder)) : List ((List ℤ → List ℤ) × List (List Sylinder)) → Option (List (List Sylinder))
  | [] => some ranks
  | (shuffle, new) :: rest => (addNewSylinder shuffle ranks new).bind fun r => additions r.1 rest

/-! ### links -/

/-- SylinderSystem.hpp:46-47: the two maps of a rank. -/
structure Links where
  map : List (ℤ × ℤ) := []
  rev : List (ℤ × ℤ) := []

/-- SylinderSystem.cpp:1364-1367: links go into both maps. -/
def Links.emplace (s : Links) (ls : List (ℤ × ℤ)) : Links := ⟨s.map ++ ls, s.rev ++ ls.map Prod.swap⟩

/-- SylinderSystem.cpp:1352-1368 on all ranks: every rank gets the links of all ranks, in the order of the ranks. -/
def addNewLink (new : List (List (ℤ × ℤ))) (ranks : List Links) : List Links := ranks.map fun s => s.emplace new.flatten

/-- SylinderSystem.cpp:377-404 on all ranks, each reading the same file: the map is cleared, the reverse map is not. -/
def setLinkMapFromFile (text : Text.Str) (ranks : List Links) : Option (List Links) :=
  (Snapshot.readLinks text).map fun ls => ranks.map fun s => ({ s with map := [] } : Links).emplace ls

/-- A change of the links. -/
inductive LinkOp where
  | add (new : List (List (ℤ × ℤ)))
  | read (text : Text.Str)

/-- One change. -/
def LinkOp.run (ranks : List Links) : LinkOp → Option (List Links)
  | .add new => some (addNewLink new ranks)
  | .read text => setLinkMapFromFile text ranks

/-- A history of changes. -/
def linkHistory (ranks : List Links) : List LinkOp → Option (List Links)
  | [] => some ranks
  | op :: rest => (op.run ranks).bind fun r => linkHistory r rest

end Verif.Ids
