import Verif.Model.Near
/-! Shapes and separations of bodies (independent of how they are computed). -/
namespace Verif.Spec.Near
open Verif.V3 Verif.Near

/-- A short body is treated as a sphere. -/
def Sphere (b : EP) : Prop := b.lengthCollision < 2 * b.radiusCollision

/-- Points of the body's axis: the centre of a sphere, or the segment along the direction. -/
def Core (b : EP) (p : V3) : Prop :=
  (Sphere b ∧ p = b.pos) ∨ (¬ Sphere b ∧ ∃ x : ℝ, |x| ≤ b.lengthCollision / 2 ∧ p = b.pos + x • b.direction)

/-- Radius around the axis; a sphere encloses the whole body. -/
noncomputable def Rad (b : EP) : ℝ :=
  open Classical in if Sphere b then b.lengthCollision / 2 + b.radiusCollision else b.radiusCollision

/-- `d` is the separation of the surfaces of two bodies (negative when they overlap). -/
def Separation (a b : EP) (d : ℝ) : Prop :=
  (∃ p q, Core a p ∧ Core b q ∧ d = norm (p - q) - (Rad a + Rad b)) ∧
  ∀ p q, Core a p → Core b q → d ≤ norm (p - q) - (Rad a + Rad b)

/-- Distance below which contacts are recorded. -/
noncomputable def bufferOf (a b : EP) : ℝ := Rad a * a.colBuf + Rad b * b.colBuf

/-- The surfaces are closer than the buffer distance. -/
def Close (a b : EP) : Prop := ∃ d, Separation a b d ∧ d < bufferOf a b

/-- A body as it occurs: positive radius, no negative length, unit direction. -/
structure Valid (b : EP) : Prop where
  radius : 0 < b.radiusCollision
  length : 0 ≤ b.lengthCollision
  direction : norm b.direction = 1

end Verif.Spec.Near

namespace Verif.Spec.Near
open Verif.V3 Verif.Near Verif.Collector

/-- Is a block about bodies with these two ids (in any order). -/
def About (x y : ℤ) (b : Block) : Prop := (b.gidI = x ∧ b.gidJ = y) ∨ (b.gidI = y ∧ b.gidJ = x)

instance (x y : ℤ) (b : Block) : Decidable (About x y b) := by unfold About; infer_instance

/-- What the particle library (FDPS, symmetric search, no periodic images) promises about its calls: every body is a
target exactly once; the sources of a call are bodies, each at most once; and they include all bodies within the
larger of the two search radii of a target. -/
structure Offers (bodies : List EP) (calls : List Call) : Prop where
  targets : (calls.flatMap (·.targets)).Perm bodies
  once : ∀ c ∈ calls, c.sources.Nodup
  known : ∀ c ∈ calls, ∀ s ∈ c.sources, s ∈ bodies
  near : ∀ c ∈ calls, ∀ t ∈ c.targets, ∀ b ∈ bodies, norm (t.pos - b.pos) ≤ max t.getRSearch b.getRSearch → b ∈ c.sources

/-- Either the collision length is not below the collision radius, or the collision shape is not larger than the body. -/
def SizeOK (e : EP) : Prop :=
  e.radiusCollision ≤ e.lengthCollision ∨ e.lengthCollision + 2 * e.radiusCollision ≤ e.length + 2 * e.radius

end Verif.Spec.Near
