import Verif.Model.Sylinder
import Verif.Model.Collector
import Mathlib.Data.Fin.VecNotation
/-!
Model of what `SylinderSystem` computes about all bodies: `Sylinder/SylinderSystem.cpp` lines 177-188 (`setTreeSylinder`), 569-610
(`setDomainInfo`), 1175-1212 (`calcBoundingBox`), 1225-1262 (`calcConStress`), 1264-1309 (`calcOrderParameter`); of the root domain in
`FDPS/domain_info.hpp` lines 146-160, 1163-1212 and `FDPS/particle_system.hpp` lines 798-844 (`adjustPositionIntoRootDomain`); and of
`MPI/MixPairInteraction.hpp` lines 283-297 (`updateTree`).

A state of all ranks is a list with one entry per rank.  Exact real arithmetic.
-/
namespace Verif.Stats
open V3

/-! ### bounding box -/

/-- `std::numeric_limits<double>::max()`. -/
noncomputable def doubleMax : ℝ := (2 - 1 / 2 ^ 52) * 2 ^ 1023

/-- `std::numeric_limits<double>::min()`: the smallest positive normal number. -/
noncomputable def doubleMin : ℝ := 1 / 2 ^ 1022

/-- Corners of a box. -/
structure Box where
  low : V3
  high : V3

/-- SylinderSystem.cpp:1184-1195: one body. -/
noncomputable def boxStep (b : Box) (s : Sylinder) : Box :=
  let pm := s.pos - (s.length * 0.5) • s.direction
  let pp := s.pos + (s.length * 0.5) • s.direction
  ⟨⟨min (min b.low.x pm.x) pp.x, min (min b.low.y pm.y) pp.y, min (min b.low.z pm.z) pp.z⟩,
   ⟨max (max b.high.x pm.x) pp.x, max (max b.high.y pm.y) pp.y, max (max b.high.z pm.z) pp.z⟩⟩

/-- SylinderSystem.cpp:1178-1202: the box of a rank. -/
noncomputable def localBox (bodies : List Sylinder) : Box :=
  bodies.foldl boxStep ⟨⟨doubleMax, doubleMax, doubleMax⟩, ⟨doubleMin, doubleMin, doubleMin⟩⟩

/-- SylinderSystem.cpp:1209-1210: `reduceAll` with minimum and maximum over the ranks. -/
noncomputable def globalBox : List (List Sylinder) → Option Box
  | [] => none
  | r :: rest => some ((rest.map localBox).foldl (fun a b =>
      ⟨⟨min a.low.x b.low.x, min a.low.y b.low.y, min a.low.z b.low.z⟩,
       ⟨max a.high.x b.high.x, max a.high.y b.high.y, max a.high.z b.high.z⟩⟩) (localBox r))

/-! ### order parameter -/

/-- SylinderSystem.cpp:1278-1292: what a body adds to the twelve sums `px, py, pz, Qxx, Qxy, …, Qzz`. -/
noncomputable def orderTerm (s : Sylinder) : Fin 12 → ℝ :=
  let d := s.direction
  let third : ℝ := 1 / 3.0
  ![d.x, d.y, d.z,
    d.x * d.x - 1 * third, d.x * d.y - 0 * third, d.x * d.z - 0 * third,
    d.y * d.x - 0 * third, d.y * d.y - 1 * third, d.y * d.z - 0 * third,
    d.z * d.x - 0 * third, d.z * d.y - 0 * third, d.z * d.z - 1 * third]

/-- SylinderSystem.cpp:1275-1293: `reduction(+)` on a rank.  `parts`: the bodies each thread has, in the order in which the threads add
their sums. -/
noncomputable def orderLocal (parts : List (List Sylinder)) : Fin 12 → ℝ :=
  (parts.map fun p => p.foldl (fun acc s => acc + orderTerm s) 0).foldl (· + ·) 0

/-- SylinderSystem.cpp:1264-1309: the twelve numbers reported; for each rank the bodies of its threads.  Without any body the division is by zero:
`none`. -/
noncomputable def calcOrderParameter (ranks : List (List (List Sylinder))) : Option (Fin 12 → ℝ) :=
  let nGlobal := (ranks.map fun parts => (parts.map List.length).sum).sum
  let pQ := (ranks.map orderLocal).foldl (· + ·) 0
  if nGlobal = 0 then none else some fun i => pQ i * (1.0 / (nGlobal : ℝ))

/-! ### stress -/

/-- SylinderSystem.cpp:1225-1262: `(ColXF, BiXF)`.  Per rank: the pool of constraints and the order of its queues in the critical section.
`nGlobal` is `sylinderMapRcp->getGlobalNumElements()`.  A zero product with `KBT` is a division by zero: `none`. -/
noncomputable def calcConStress (nGlobal : ℕ) (KBT : ℝ) (ranks : List (Collector.Pool × List ℕ)) : Option (Collector.Mat3 × Collector.Mat3) :=
  if (nGlobal : ℝ) * KBT = 0 then none
  else
    let scaleFactor := 1 / ((nGlobal : ℝ) * KBT)
    let loc := ranks.map fun r =>
      let s := Collector.sumLocalConstraintStress r.1 false r.2
      (scaleFactor • s.1, scaleFactor • s.2)
    some (loc.foldl (fun acc s => (acc.1 + s.1, acc.2 + s.2)) (0, 0))

/-! ### trees -/

/-- SylinderSystem.hpp:42-43, MixPairInteraction.hpp:176-177: the capacity of the tree, if there is one, and the number of bodies it was made for. -/
structure Tree where
  capacity : Option ℤ
  number : ℤ

/-- SylinderSystem.cpp:78, 170; MixPairInteraction.hpp:196-199: before the first call. -/
def Tree.start : Tree := ⟨none, 0⟩

/-- `INT_MAX`. -/
def intMax : ℤ := 2147483647

/-- SylinderSystem.cpp:177-188: the tree afterwards and whether it is new.  `2 * nGlobal` beyond `int` is `none`; the comparison
`nGlobal > 1.5 * number` is exact, both sides being doubles with few digits. -/
def setTree (t : Tree) (nGlobal : ℤ) : Option (Tree × Bool) :=
  if 2 * nGlobal > 3 * t.number ∨ t.capacity = none then
    if 2 * nGlobal ≤ intMax then some (⟨some (2 * nGlobal), nGlobal⟩, true) else none
  else some (t, false)

/-- MixPairInteraction.hpp:283-297 on all ranks: the tree is made anew where all ranks agree. -/
def updateTree (ts : List Tree) (nGlobal : ℤ) : Option (List (Tree × Bool)) :=
  let newTree := ts.all fun t => t.capacity.isNone || decide (2 * nGlobal > 3 * t.number)
  ts.mapM fun t =>
    if newTree then (if 2 * nGlobal ≤ intMax then some (⟨some (2 * nGlobal), nGlobal⟩, true) else none) else some (t, false)

/-- `setTreeSylinder` on all ranks. -/
def setTrees (ts : List Tree) (nGlobal : ℤ) : Option (List (Tree × Bool)) := ts.mapM fun t => setTree t nGlobal

/-- A history of body counts, one before each use of the tree. -/
def treeHistory (update : List Tree → ℤ → Option (List (Tree × Bool))) (ts : List Tree) : List ℤ → Option (List (List (Tree × Bool)))
  | [] => some []
  | n :: rest => (update ts n).bind fun r => (treeHistory update (r.map Prod.fst) rest).map fun h => r :: h

/-! ### root domain -/

/-- FDPS/ps_defs.hpp:331-342. -/
inductive BC where
  | open | x | y | z | xy | xz | yz | xyz
  deriving DecidableEq

/-- FDPS/domain_info.hpp:146-160: what is modelled of `DomainInfo`. -/
structure Domain where
  bc : BC
  periodic : Fin 3 → Bool
  low : Fin 3 → ℝ
  high : Fin 3 → ℝ

/-- FDPS/ps_defs.hpp:173: `std::numeric_limits<float>::max() * 0.0625`. -/
noncomputable def largeFloat : ℝ := (2 - 1 / 2 ^ 23) * 2 ^ 127 * 0.0625

/-- FDPS/domain_info.hpp:146-160. -/
noncomputable def Domain.start : Domain := ⟨.open, fun _ => false, fun _ => -largeFloat, fun _ => largeFloat⟩

/-- Sets axes to periodic. -/
def Domain.set (d : Domain) (axes : List (Fin 3)) : Domain :=
  { d with periodic := fun k => if k ∈ axes then true else d.periodic k }

/-- FDPS/domain_info.hpp:1163-1184. -/
def Domain.setBoundaryCondition (d : Domain) (bc : BC) : Domain :=
  let d := { d with bc := bc }
  match bc with
  | .x => d.set [0]
  | .y => d.set [1]
  | .z => d.set [2]
  | .xy => d.set [0, 1]
  | .xz => d.set [0, 2]
  | .yz => d.set [1, 2]
  | .xyz => d.set [0, 1, 2]
  | .open => d

open Classical in
/-- FDPS/domain_info.hpp:1191-1212; `none` is the abort. -/
noncomputable def Domain.setPosRootDomain (d : Domain) (low high : Fin 3 → ℝ) : Option Domain :=
  if ∃ k, high k < low k then none
  else some { d with
    low := fun k => if d.periodic k = false then d.low k else if low k < high k then low k else d.low k
    high := fun k => if d.periodic k = false then d.high k else if low k < high k then high k else d.high k }

/-- SylinderSystem.cpp:570-600: the flag and the switch. -/
def choose (pbc : Fin 3 → Bool) : Option BC :=
  let pbcX := if pbc 0 then 1 else 0
  let pbcY := if pbc 1 then 1 else 0
  let pbcZ := if pbc 2 then 1 else 0
  match 100 * pbcX + 10 * pbcY + pbcZ with
  | 0 => some .open
  | 1 => some .z
  | 10 => some .y
  | 100 => some .x
  | 11 => some .yz
  | 101 => some .xz
  | 110 => some .xy
  | 111 => some .xyz
  | _ => none

/-- SylinderSystem.cpp:575-600: the case chosen, if any. -/
def Domain.switch (d : Domain) : Option BC → Domain
  | some bc => d.setBoundaryCondition bc
  | none => d

/-- SylinderSystem.cpp:569-610. -/
noncomputable def setDomainInfo (d : Domain) (pbc : Fin 3 → Bool) (boxLow boxHigh : Fin 3 → ℝ) : Option Domain :=
  (d.switch (choose pbc)).setPosRootDomain boxLow boxHigh

end Verif.Stats
