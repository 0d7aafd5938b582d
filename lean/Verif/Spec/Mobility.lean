import Verif.Model.Sylinder
import Verif.Spec.Equatn
/-! Vectors with six numbers for each body, and Stokes drag. -/
namespace Verif.Spec.Mobility
open Verif.V3

/-- Linear and angular part of every body, one after the other. -/
def flat6 (xs : List (V3 × V3)) : List ℝ :=
  xs.flatMap fun p => [p.1.x, p.1.y, p.1.z, p.2.x, p.2.y, p.2.z]

/-- The six numbers of body `i`. -/
def at6 (v : List ℝ) (i : ℕ) : V3 × V3 :=
  (⟨v.getD (6 * i) 0, v.getD (6 * i + 1) 0, v.getD (6 * i + 2) 0⟩, ⟨v.getD (6 * i + 3) 0, v.getD (6 * i + 4) 0, v.getD (6 * i + 5) 0⟩)

/-- Motion in the plane `z = const`: no velocity along z and no rotation out of the plane. -/
def InPlane (x : V3 × V3) : Prop := x.1.z = 0 ∧ x.2.x = 0 ∧ x.2.y = 0

/-- Inner product of two vectors of the same size. -/
def dotL (x y : List ℝ) : ℝ := (List.zipWith (· * ·) x y).sum

/-- Force and torque needed to move a body with axis `d` at a velocity and an angular velocity against the drag. -/
noncomputable def drag (para perp rot : ℝ) (d : V3) (v : V3 × V3) : V3 × V3 :=
  (para • (dot d v.1 • d) + perp • (v.1 - dot d v.1 • d), rot • v.2)

/-- Bodies with physical sizes. -/
structure Valid (s : Sylinder) : Prop where
  radius : 0 < s.radius
  length : 0 ≤ s.length
  unit : Verif.Spec.UnitQuat s.orientation

/-- What no step changes of a body. -/
structure SameBody (t s : Sylinder) : Prop where
  gid : t.gid = s.gid
  group : t.group = s.group
  isImmovable : t.isImmovable = s.isImmovable
  radius : t.radius = s.radius
  length : t.length = s.length
  radiusCollision : t.radiusCollision = s.radiusCollision
  lengthCollision : t.lengthCollision = s.lengthCollision
  colBuf : t.colBuf = s.colBuf

end Verif.Spec.Mobility
