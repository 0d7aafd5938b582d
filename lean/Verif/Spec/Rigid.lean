import Verif.Spec.Layout
import Verif.Model.BoundaryCol
import Mathlib.LinearAlgebra.Matrix.Determinant.Basic
/-! Configurations that are turned or mirrored and displaced as a whole. -/
namespace Verif.Spec.Rigid
open Verif.Collector Verif.Sim Verif.V3

/-- The matrix of a rotation, or of a rotation and a reflection: lengths and angles are kept. -/
structure Orth (R : Mat3) : Prop where
  orth : R.transpose * R = 1

/-- The matrix of a rotation. -/
structure Rotation (R : Mat3) : Prop extends Orth R where
  det : R.det = 1

/-- The matrix of a reflection, possibly followed by a rotation. -/
structure Reflection (R : Mat3) : Prop extends Orth R where
  det : R.det = -1

/-- The vector `x`, turned. -/
def turn (R : Mat3) (x : V3) : V3 :=
  ⟨R 0 0 * x.x + R 0 1 * x.y + R 0 2 * x.z, R 1 0 * x.x + R 1 1 * x.y + R 1 2 * x.z, R 2 0 * x.x + R 2 1 * x.y + R 2 2 * x.z⟩

/-- The torque or angular velocity `x`, turned: with a reflection the sense of rotation changes too. -/
noncomputable def spin (R : Mat3) (x : V3) : V3 := R.det • turn R x

/-- The bodies of `L'` are those of `L`, in any order, all turned (or mirrored) by `R` and displaced by `v`. -/
def Moved (R : Mat3) (v : V3) (L L' : List Sylinder) : Prop :=
  ∃ M : List Sylinder, M.Perm L' ∧ List.Forall₂ (fun a b : Sylinder => kind b = kind a ∧ b.direction = turn R a.direction ∧ b.pos = turn R a.pos + v) L M

/-- A constraint, turned and displaced: the separation, the multiplier, the ids and the stiffness are the same, the normals and the points relative to the centres turn, the
points in space turn and are displaced, the stress turns as a tensor. -/
noncomputable def carryBlock (R : Mat3) (v : V3) (b : Block) : Block :=
  { b with normI := turn R b.normI, normJ := turn R b.normJ, posI := turn R b.posI, posJ := turn R b.posJ, labI := turn R b.labI + v, labJ := turn R b.labJ + v,
           stress := (b.setStress (R * b.getStress * R.transpose)).stress }

/-- The boundary `b'` is `b`, turned and displaced: it says of a moved point what `b` says of the point. -/
def Carried (R : Mat3) (v : V3) (b b' : BoundaryCol.Bound) : Prop :=
  ∀ p, b'.project (turn R p + v) = (b.project p).map fun r => (turn R r.1 + v, turn R r.2)

/-- Two programs simulate the same, with the boundaries of one turned and displaced. -/
structure Turned (R : Mat3) (v : V3) (C D : Sim.Cfg) : Prop where
  physics : Spec.Layout.SamePhysics C { D with bounds := C.bounds }
  bounds : ∃ M : List BoundaryCol.Bound, M.Perm D.bounds ∧ List.Forall₂ (Carried R v) C.bounds M

end Verif.Spec.Rigid
