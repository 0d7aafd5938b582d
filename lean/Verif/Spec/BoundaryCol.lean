import Verif.Model.BoundaryCol
/-! Signed distances from boundaries and shapes of bodies. -/
namespace Verif.Spec.BoundaryCol
open Verif.V3 Verif.Boundary Verif.BoundaryCol

/-- Distance from the line through `c` with unit direction `a`. -/
noncomputable def axisDist (c a q : V3) : ℝ := norm ((q - c) - (dot (q - c) a) • a)

/-- Signed distance of a point from a boundary, positive on the allowed side. -/
noncomputable def sd : Bound → V3 → ℝ
  | .sphere b, q => if b.inside then b.radius - norm (q - b.center) else norm (q - b.center) - b.radius
  | .wall b, q => dot (q - b.center) b.norm
  | .tube b, q => if b.inside then b.radius - axisDist b.center b.axis q else axisDist b.center b.axis q - b.radius

/-- Radii positive, normals and axes of length one (as the constructors of Boundary.cpp make them). -/
def ValidBound : Bound → Prop
  | .sphere b => 0 < b.radius
  | .wall b => norm b.norm = 1
  | .tube b => 0 < b.radius ∧ norm b.axis = 1

/-- Points where the nearest point of the boundary is not unique. -/
def Singular : Bound → V3 → Prop
  | .sphere b, q => q = b.center
  | .wall _, _ => False
  | .tube b, q => axisDist b.center b.axis q = 0

/-- The allowed side is convex. -/
def Convex : Bound → Prop
  | .sphere b => b.inside = true
  | .wall _ => True
  | .tube b => b.inside = true

/-- A short body is treated as a sphere. -/
def Sphere (s : Sylinder) : Prop := s.lengthCollision < 2 * s.radiusCollision

/-- Points of the body's axis. -/
def Core (s : Sylinder) (p : V3) : Prop :=
  (Sphere s ∧ p = s.pos) ∨ (¬ Sphere s ∧ ∃ x : ℝ, |x| ≤ s.lengthCollision / 2 ∧ p = s.pos + x • s.direction)

/-- Ends of the axis (the centre of a sphere). -/
def End (s : Sylinder) (p : V3) : Prop :=
  (Sphere s ∧ p = s.pos) ∨ (¬ Sphere s ∧ (p = s.pos - (s.lengthCollision / 2) • s.direction ∨
    p = s.pos + (s.lengthCollision / 2) • s.direction))

noncomputable def Rad (s : Sylinder) : ℝ :=
  open Classical in if Sphere s then s.lengthCollision / 2 + s.radiusCollision else s.radiusCollision

/-- Some point of the body is beyond the boundary. -/
def Penetrates (b : Bound) (s : Sylinder) : Prop := ∃ p x, Core s p ∧ norm (x - p) ≤ Rad s ∧ sd b x < 0

/-- Smallest signed distance of the body's surface from the boundary. -/
def Separation (b : Bound) (s : Sylinder) (d : ℝ) : Prop :=
  (∃ p, Core s p ∧ d = sd b p - Rad s) ∧ ∀ p, Core s p → d ≤ sd b p - Rad s

/-- A block as it should be for one end `p`. -/
structure Good (b : Bound) (s : Sylinder) (p : V3) (blk : Collector.Block) : Prop where
  oneSide : blk.oneSide = true
  unilateral : blk.bilateral = false
  gid : blk.gidI = s.gid ∧ blk.gidJ = s.gid ∧ blk.globalIndexI = s.globalIndex ∧ blk.globalIndexJ = s.globalIndex
  unit : norm blk.normI = 1
  lab : blk.labI = p ∧ s.pos + blk.posI = p
  surface : sd b blk.labJ = 0
  normal : p - blk.labJ = sd b p • blk.normI
  value : blk.delta0 = sd b p - Rad s
  guess : blk.gamma = 0 ∧ blk.gammaLB = 0

end Verif.Spec.BoundaryCol
