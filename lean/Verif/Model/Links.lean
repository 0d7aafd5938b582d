import Verif.Model.Near
import Verif.Model.GeoUtil
import Verif.Model.Ids
/-!
Model of the data directory `Trilinos/ZDD.hpp` lines 105-148, of `buildSylinderNearDataDirectory` and of the links as constraints:
`Sylinder/SylinderSystem.cpp` lines 1370-1481.

Zoltan itself is not in `/repo`.  What is assumed of it: the directory holds at most one datum for an id; `Update` puts each given
pair in, replacing what the directory holds under the id, and takes nothing out; `Find` gives what is held under the id and returns a
warning if an id is not held, leaving in the result what the theorems treat as arbitrary.
-/
namespace Verif.Links
open V3 Near Collector

/-! ### data directory -/

/-- What the directory holds. -/
def Dir (D : Type) := ℤ → Option D

/-- ZDD.hpp:61-82: a new directory. -/
def Dir.empty {D : Type} : Dir D := fun _ => none

/-- One pair. -/
def Dir.put {D : Type} (dir : Dir D) (p : ℤ × D) : Dir D := fun g => if g = p.1 then some p.2 else dir g

/-- ZDD.hpp:105-131 `buildIndex`, collective: `order` has the pairs `(gidOnLocal[i], dataOnLocal[i])` of all ranks in the order in which they are
processed. -/
def Dir.buildIndex {D : Type} (dir : Dir D) (order : List (ℤ × D)) : Dir D := order.foldl Dir.put dir

/-- ZDD.hpp:138-148 `find` on a rank: the new `dataToFind` and whether the status is `ZOLTAN_OK`.  `blank` is a default constructed datum, `junk` what is left
for an id that is not held. -/
def Dir.find {D : Type} (dir : Dir D) (blank : D) (junk : ℕ → D) (gidToFind : List ℤ) (dataToFind : List D) : List D × Bool :=
  let buf := if dataToFind.length < gidToFind.length then dataToFind ++ List.replicate (gidToFind.length - dataToFind.length) blank else dataToFind
  (gidToFind.mapIdx (fun i g => (dir g).getD (junk i)) ++ buf.drop gidToFind.length, gidToFind.all fun g => (dir g).isSome)

/-- SylinderSystem.cpp:1370-1383: what a rank puts in. -/
noncomputable def published (bodies : List Sylinder) : List (ℤ × EP) := bodies.map fun s => (s.gid, EP.copyFromFP s)

/-! ### constraints -/

/-- What is used of the configuration. -/
structure Cfg where
  pbc : Fin 3 → Bool
  low : Fin 3 → ℝ
  high : Fin 3 → ℝ
  linkGap : ℝ
  linkKappa : ℝ

/-- SylinderSystem.cpp:1408-1413: `equal_range`: the second ids of the links of a body, in some order. -/
def nexts (linkMap : List (ℤ × ℤ)) (gid : ℤ) : List ℤ := (linkMap.filter fun l => l.1 = gid).map Prod.snd

/-- SylinderSystem.cpp:1400-1415: `gidToFind`. -/
def gidToFind (linkMap : List (ℤ × ℤ)) (bodies : List Sylinder) : List ℤ := bodies.flatMap fun s => nexts linkMap s.gid

/-- SylinderSystem.cpp:1400-1415: `gidDisp` from the displacement `d` on. -/
def gidDisp (linkMap : List (ℤ × ℤ)) (d : ℕ) : List Sylinder → List ℕ
  | [] => [d]
  | s :: rest => d :: gidDisp linkMap (d + (nexts linkMap s.gid).length) rest

/-- SylinderSystem.cpp:1432-1448: the loops over the axes end, the check passes, and `centerJ` is left. -/
def Image (cfg : Cfg) (centerI posJ centerJ : V3) : Prop :=
  ∀ k : Fin 3, if cfg.pbc k then
      ∃ trg, GeoUtil.FindPBCImageNear id (cfg.low k) (cfg.high k) (Near.comp posJ k) (Near.comp centerI k) (Near.comp centerJ k) trg ∧
        ¬ |trg - Near.comp centerJ k| > 0.5 * (cfg.high k - cfg.low k)
    else Near.comp centerJ k = Near.comp posJ k

/-- SylinderSystem.cpp:1449-1477: the block of a link, given the image of the second centre. -/
noncomputable def block (cfg : Cfg) (syI : Sylinder) (syJ : EP) (centerJ : V3) : Option Block :=
  let centerI := syI.pos
  let directionI := syI.direction
  let Pp := centerI + (0.5 * syI.length) • directionI
  let directionJ := syJ.direction
  let Qm := centerJ - (0.5 * syJ.length) • directionJ
  let Ploc := Pp
  let Qloc := Qm
  let rvec := Qloc - Ploc
  let rnorm := rvec.norm
  let delta0 := rnorm - syI.radius - syJ.radius - cfg.linkGap
  let gamma := if delta0 < 0 then -delta0 else 0
  let normI := (Ploc - Qloc).normalized
  let b : Block := { delta0 := delta0, gamma := gamma, gammaLB := 0, gidI := syI.gid, gidJ := syJ.gid
                     globalIndexI := syI.globalIndex, globalIndexJ := syJ.globalIndex, oneSide := false, bilateral := true, kappa := cfg.linkKappa
                     normI := normI, normJ := -normI, posI := Ploc - centerI, posJ := Qloc - centerJ, labI := Ploc, labJ := Qloc, stress := fun _ => 0 }
  (collideStress directionI directionJ centerI centerJ syI.length syJ.length syI.radius syJ.radius 1 Ploc Qloc).map b.setStress

/-- SylinderSystem.cpp:1429-1478: the body of the inner loop ends and leaves `b`. -/
def LinkBlock (cfg : Cfg) (syI : Sylinder) (syJ : EP) (b : Block) : Prop :=
  ∃ centerJ, Image cfg syI.pos syJ.pos centerJ ∧ block cfg syI syJ centerJ = some b

/-- SylinderSystem.cpp:1424-1479: the blocks of body `i`, in order; the indices `j` run from `gidDisp[i]` to `gidDisp[i + 1]`. -/
def BodyBlocks (cfg : Cfg) (disp : List ℕ) (data : List EP) (i : ℕ) (syI : Sylinder) (bs : List Block) : Prop :=
  ∃ lb ub, disp[i]? = some lb ∧ disp[i + 1]? = some ub ∧
    List.Forall₂ (fun j b => ∃ syJ, data[j]? = some syJ ∧ LinkBlock cfg syI syJ b) ((List.range (ub - lb)).map fun n => lb + n) bs

/-- SylinderSystem.cpp:1385-1481: with the data found, bodies `i` done by the threads `thread i`; the call ends and leaves `pool'`.  Each thread does its
bodies in order. -/
def Collect (cfg : Cfg) (linkMap : List (ℤ × ℤ)) (bodies : List Sylinder) (data : List EP) (thread : ℕ → ℕ) (pool pool' : Pool) : Prop :=
  ∃ blocks : List (List Block), blocks.length = bodies.length ∧
    (∀ (i : ℕ) (s : Sylinder) (bs : List Block), bodies[i]? = some s → blocks[i]? = some bs → BodyBlocks cfg (gidDisp linkMap 0 bodies) data i s bs) ∧
    pool' = pool.mapIdx fun t q => q ++ (blocks.zipIdx.filter fun p => thread p.2 = t).flatMap Prod.fst

end Verif.Links
