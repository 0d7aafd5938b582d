import Verif.Model.Boundary
import Verif.Model.Collector
import Verif.Model.Sylinder
/-!
Model of `SylinderSystem::collectBoundaryCollision` (`Sylinder/SylinderSystem.cpp` lines 1092-1149).  Exact real
arithmetic.
-/
namespace Verif.BoundaryCol
open Verif.V3 Verif.Boundary Verif.Collector

/-- Pointer to one of the classes derived from `Boundary` (Boundary.hpp). -/
inductive Bound where
  | sphere (b : SphereShell)
  | wall (b : Wall)
  | tube (b : Tube)

/-- The virtual function `project`; `none`: the result is NaN. -/
noncomputable def Bound.project : Bound → V3 → Option (V3 × V3)
  | .sphere b, q => b.project q
  | .wall b, q => some (b.project q)
  | .tube b, q => some (b.project q)

/-- SylinderSystem.cpp:1119-1127 with ConstraintBlock.hpp:76-89. -/
noncomputable def oneSided (sy : Sylinder) (delta0 : ℝ) (n posI query proj : V3) : Block :=
  { delta0, gamma := 0, gammaLB := 0, gidI := sy.gid, gidJ := sy.gid, globalIndexI := sy.globalIndex
    globalIndexJ := sy.globalIndex, oneSide := true, bilateral := false, kappa := 0, normI := n, normJ := n
    posI := posI, posJ := posI, labI := query, labJ := proj, stress := fun _ => 0 }

/-- SylinderSystem.cpp:1107-1129 `checkEnd`: the blocks appended.  With a NaN from `project` both comparisons are false.
`none`: a block with a NaN normal (`1 / deltanorm` with `deltanorm = 0`) is appended. -/
noncomputable def checkEnd (b : Bound) (colBuf : ℝ) (sy : Sylinder) (query : V3) (radius : ℝ) : Option (List Block) :=
  match b.project query with
  | none => some []
  | some (proj, delta) =>
    let deltanorm := delta.norm
    let n := (1 / deltanorm) • delta
    let posI := query - sy.pos
    if dot (query - proj) delta < 0 then
      if deltanorm = 0 then none else some [oneSided sy (-deltanorm - radius) n posI query proj]
    else if deltanorm < (1 + colBuf * 2) * sy.radiusCollision then
      if deltanorm = 0 then none else some [oneSided sy (deltanorm - radius) n posI query proj]
    else some []

/-- SylinderSystem.cpp:1104-1143: the blocks appended for one body and one boundary. -/
noncomputable def bodyBlocks (b : Bound) (colBuf : ℝ) (sy : Sylinder) : Option (List Block) :=
  if sy.isSphere true then
    let radius := sy.lengthCollision * 0.5 + sy.radiusCollision
    checkEnd b colBuf sy sy.pos radius
  else
    let direction := sy.orientation.rot ⟨0, 0, 1⟩
    let length := sy.lengthCollision
    let Qm := sy.pos - (length * 0.5) • direction
    let Qp := sy.pos + (length * 0.5) • direction
    (checkEnd b colBuf sy Qm sy.radiusCollision).bind fun l1 =>
      (checkEnd b colBuf sy Qp sy.radiusCollision).bind fun l2 => some (l1 ++ l2)

/-- SylinderSystem.cpp:1098-1145, the loop over the bodies for one boundary: pairs of the thread and the body it
processes, in any order (`schedule`); every thread appends to its own queue. -/
noncomputable def overBodies (b : Bound) (colBuf : ℝ) (pool : Pool) : List (ℕ × Sylinder) → Option Pool
  | [] => some pool
  | (th, sy) :: rest =>
    match pool[th]? with
    | none => none
    | some que => (bodyBlocks b colBuf sy).bind fun l => overBodies b colBuf (pool.set th (que ++ l)) rest

/-- SylinderSystem.cpp:1092-1149: for every boundary the distribution of the bodies over the threads. -/
noncomputable def collectBoundaryCollision (colBuf : ℝ) (pool : Pool) : List (Bound × List (ℕ × Sylinder)) → Option Pool
  | [] => some pool
  | (b, schedule) :: rest => (overBodies b colBuf pool schedule).bind fun pool => collectBoundaryCollision colBuf pool rest

end Verif.BoundaryCol
