import Verif.Model.DCP
import Verif.Model.Collector
import Verif.Model.Sylinder
import Mathlib.Data.Fin.VecNotation
import Mathlib.Algebra.BigOperators.Fin
/-!
Model of `Sylinder/SylinderNear.hpp`: the tree particle (lines 40-125) and the collision kernel (lines 160-513).  Exact
real arithmetic; a division by zero is the outcome `none`.  `ForceNear` (only set to zero, never read) is left out.
-/
namespace Verif.Near
open Verif.V3 Verif.Collector

/-- SylinderNear.hpp:40-52 -/
structure EP where
  gid : ℤ
  globalIndex : ℤ
  rank : ℤ
  radius : ℝ
  length : ℝ
  radiusCollision : ℝ
  lengthCollision : ℝ
  colBuf : ℝ
  pos : V3
  direction : V3

/-- SylinderNear.hpp:74-90 `copyFromFP` -/
noncomputable def EP.copyFromFP (fp : Sylinder) : EP :=
  { gid := fp.gid, globalIndex := fp.globalIndex, rank := fp.rank, colBuf := fp.colBuf
    radius := fp.radius, length := fp.length, radiusCollision := fp.radiusCollision
    lengthCollision := fp.lengthCollision, pos := fp.pos, direction := fp.orientation.rot ⟨0, 0, 1⟩ }

/-- SylinderNear.hpp:108-110 -/
noncomputable def EP.getRSearch (e : EP) : ℝ :=
  max (e.length + 2 * e.radius) (e.lengthCollision + 2 * e.lengthCollision) * (1 + e.colBuf)

/-- SylinderNear.hpp:238 -/
noncomputable def isSphere (sy : EP) : Bool := decide (sy.lengthCollision < 2 * sy.radiusCollision)

/-! ### stress -/

/-- Component of a vector. -/
def comp (v : V3) : Fin 3 → ℝ := ![v.x, v.y, v.z]

/-- SylinderNear.hpp:488-495: entries `(0,0)` and `(2,2)` of the diagonal matrix `NI` (`(1,1)` is equal to `(0,0)`). -/
noncomputable def initializeSyN (r h rho : ℝ) : ℝ × ℝ :=
  let beta := h / 2 / r
  let f := fun x : ℝ => x * rho * r * r * r * r * r * Real.pi
  (f (1 / 30 * (15 * beta + 8)), f (1 / 15 * (10 * beta * beta * beta + 20 * beta * beta + 15 * beta + 4)))

/-- SylinderNear.hpp:505-512: entries `(0,0)` and `(2,2)` of the diagonal matrix `GAMMAI`. -/
noncomputable def initializeSyGA (r h rho : ℝ) : ℝ × ℝ :=
  let beta := h / 2 / r
  let f := fun x : ℝ => x * Real.pi * r * r * r * r * r * rho
  (f (1 / 30 * (20 * beta * beta * beta + 40 * beta * beta + 45 * beta + 16)), f (1 / 15 * (15 * beta + 8)))

/-- SylinderNear.hpp:441-442, 449-450: `a I + (b - a) d dᵀ`. -/
noncomputable def axisMat (a b : ℝ) (d : V3) : Mat3 :=
  fun i j => a * (if i = j then 1 else 0) + (b - a) * (comp d i * comp d j)

/-- SylinderNear.hpp:453, 454: `c * fᵀ`. -/
noncomputable def outer (c f : V3) : Mat3 := fun i j => comp c i * comp f j

/-- SylinderNear.hpp:459-461 -/
def levi : Fin 3 → Fin 3 → Fin 3 → ℝ :=
  ![![![0, 0, 0], ![0, 0, 1], ![0, -1, 0]],
    ![![0, 0, -1], ![0, 0, 0], ![1, 0, 0]],
    ![![0, 1, 0], ![-1, 0, 0], ![0, 0, 0]]]

/-- SylinderNear.hpp:463-475 for one of the bodies: the five loops add one product each to `SG(i, j)`. -/
noncomputable def sgTerm (N InvGAMMA : Mat3) (x : V3) : Mat3 :=
  fun i j => ∑ k : Fin 3, ∑ l : Fin 3, ∑ r : Fin 3, N i l * levi j k l * InvGAMMA k r * comp x r

/-- SylinderNear.hpp:426-478 `collideStress`; `none`: a radius or an entry of `GAMMA` that is divided by is zero. -/
noncomputable def collideStress (dirI dirJ centerI centerJ : V3) (hI hJ rI rJ rho : ℝ) (Ploc Qloc : V3) : Option Mat3 :=
  if rI = 0 ∨ rJ = 0 then none
  else
    let nI := initializeSyN rI hI rho
    let gI := initializeSyGA rI hI rho
    let nJ := initializeSyN rJ hJ rho
    let gJ := initializeSyGA rJ hJ rho
    let NI := axisMat nI.1 nI.2 dirI
    let NJ := axisMat nJ.1 nJ.2 dirJ
    if gI.1 = 0 ∨ gI.2 = 0 ∨ gJ.1 = 0 ∨ gJ.2 = 0 then none
    else
      let InvGAMMAI := axisMat (1 / gI.1) (1 / gI.2) dirI
      let InvGAMMAJ := axisMat (1 / gJ.1) (1 / gJ.2) dirJ
      let F1 := (Qloc - Ploc).normalized
      let rIf := outer centerI (-F1)
      let rJf := outer centerJ F1
      let xICf := cross (Ploc - centerI) (-F1)
      let xJCf := cross (Qloc - centerJ) F1
      some (rIf + rJf + sgTerm NI InvGAMMAI xICf + sgTerm NJ InvGAMMAJ xJCf)

/-! ### contacts -/

/-- SylinderNear.hpp:268-283, 323-338, 384-399 with ConstraintBlock.hpp:76-89: the block of a contact (before the
stress is set). -/
noncomputable def contact (sep : ℝ) (I J : EP) (Ploc Qloc : V3) : Block :=
  let normI := (Ploc - Qloc).normalized
  { delta0 := sep, gamma := if sep < 0 then -sep else 0, gammaLB := 0
    gidI := I.gid, gidJ := J.gid, globalIndexI := I.globalIndex, globalIndexJ := J.globalIndex
    oneSide := false, bilateral := false, kappa := 0
    normI := normI, normJ := -normI, posI := Ploc - I.pos, posJ := Qloc - J.pos, labI := Ploc, labJ := Qloc
    stress := fun _ => 0 }

/-- SylinderNear.hpp:250-290; `some none`: no collision. -/
noncomputable def sp_sp (spI spJ : EP) : Option (Option Block) :=
  let centerI := spI.pos
  let centerJ := spJ.pos
  let radI := spI.lengthCollision * 0.5 + spI.radiusCollision
  let radJ := spJ.lengthCollision * 0.5 + spJ.radiusCollision
  let rIJ := centerJ - centerI
  let sep := rIJ.norm - (radI + radJ)
  if sep < radI * spI.colBuf + radJ * spJ.colBuf then do
    let stress ← collideStress ⟨0, 0, 1⟩ ⟨0, 0, 1⟩ centerI centerJ 0 0 radI radJ 1 centerI centerJ
    some (some ((contact sep spI spJ centerI centerJ).setStress stress))
  else some none

/-- SylinderNear.hpp:303-350 -/
noncomputable def sp_sy (spI syJ : EP) (reverseIJ : Bool) : Option (Option Block) :=
  let centerI := spI.pos
  let radI := spI.lengthCollision * 0.5 + spI.radiusCollision
  let centerJ := syJ.pos
  let directionJ := syJ.direction
  let Qm := centerJ - (0.5 * syJ.lengthCollision) • directionJ
  let Qp := centerJ + (0.5 * syJ.lengthCollision) • directionJ
  let Ploc := centerI
  let (distMin, Qloc) := DCP.distPointSeg centerI Qm Qp
  let sep := distMin - (radI + syJ.radiusCollision)
  if sep < radI * spI.colBuf + syJ.radiusCollision * syJ.colBuf then do
    let block := contact sep spI syJ Ploc Qloc
    let block := if reverseIJ then block.reverseIJ else block
    let stress ← collideStress ⟨0, 0, 1⟩ directionJ centerI centerJ 0 syJ.lengthCollision radI syJ.radiusCollision 1 Ploc Qloc
    some (some (block.setStress stress))
  else some none

/-- SylinderNear.hpp:362-408 -/
noncomputable def sy_sy (syI syJ : EP) : Option (Option Block) :=
  let centerI := syI.pos
  let directionI := syI.direction
  let Pm := centerI - (0.5 * syI.lengthCollision) • directionI
  let Pp := centerI + (0.5 * syI.lengthCollision) • directionI
  let centerJ := syJ.pos
  let directionJ := syJ.direction
  let Qm := centerJ - (0.5 * syJ.lengthCollision) • directionJ
  let Qp := centerJ + (0.5 * syJ.lengthCollision) • directionJ
  (DCP.query DCP.dblEps Pm Pp Qm Qp).bind fun q =>
    let sep := q.distance - (syI.radiusCollision + syJ.radiusCollision)
    if sep < syI.radiusCollision * syI.colBuf + syJ.radiusCollision * syJ.colBuf then do
      let stress ← collideStress directionI directionJ centerI centerJ syI.lengthCollision syJ.lengthCollision
        syI.radiusCollision syJ.radiusCollision 1 q.Ploc q.Qloc
      some (some ((contact sep syI syJ q.Ploc q.Qloc).setStress stress))
    else some none

/-- SylinderNear.hpp:206-215 and 219-230: which of the three functions handles the pair. -/
noncomputable def collide (syI syJ : EP) : Option (Option Block) :=
  if isSphere syI then
    if isSphere syJ then sp_sp syI syJ else sp_sy syI syJ false
  else
    if isSphere syJ then sp_sy syJ syI true else sy_sy syI syJ

/-- SylinderNear.hpp:203-218 (217-232): the loop over the sources for one target, appending to the queue. -/
noncomputable def sources (syI : EP) (que : List Block) : List EP → Option (List Block)
  | [] => some que
  | syJ :: rest =>
    if syI.gid ≥ syJ.gid then sources syI que rest
    else (collide syI syJ).bind fun c =>
      match c with
      | some b => sources syI (que ++ [b]) rest
      | none => sources syI que rest

/-- SylinderNear.hpp:194-236 `operator()` acting on the queue of the calling thread. -/
noncomputable def operator (ep_j : List EP) (que : List Block) : List EP → Option (List Block)
  | [] => some que
  | syI :: rest => (sources syI que ep_j).bind fun que => operator ep_j que rest

/-- A call made by FDPS: thread, targets, sources. -/
structure Call where
  thread : ℕ
  targets : List EP
  sources : List EP

/-- All calls of the walk over the tree.  Every thread uses only its own queue, so that only the order of the calls of
one thread matters; an invalid thread number is `none`. -/
noncomputable def collect (pool : Pool) : List Call → Option Pool
  | [] => some pool
  | c :: rest =>
    match pool[c.thread]? with
    | none => none
    | some que => (operator c.sources que c.targets).bind fun que => collect (pool.set c.thread que) rest

end Verif.Near
