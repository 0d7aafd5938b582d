import Verif.Model.Snapshot
import Verif.Spec.Equatn
/-! Specification for snapshots and restarts. -/
namespace Verif.Spec.Snapshot
open Verif.Text

/-- What is assumed of printing with eight digits and reading back: the text has no white space in it, and reads back as
the number `r8 x`. -/
structure FmtOk (F : Verif.Snapshot.Fmt) (r8 : ℝ → ℝ) : Prop where
  scan : ∀ x s, (∀ c t, s = c :: t → isSpace c = true) → F.scan (' ' :: (F.print x ++ s)) = some (r8 x, s)
  line : ∀ x, '\n' ∉ F.print x
  lineF : ∀ x, '\n' ∉ F.printF x

/-- An `int`. -/
def Int32 (z : ℤ) : Prop := -2 ^ 31 ≤ z ∧ z < 2 ^ 31

/-- What is assumed of the axis found by the singular value decomposition, for opposite vectors. -/
def SvdOk (svd : V3 → V3 → V3) : Prop := ∀ v : V3, V3.norm v = 1 → V3.norm (svd v (-v)) = 1 ∧ V3.dot (svd v (-v)) v = 0

/-- A direction that is not nearly, but may be exactly, opposite to z. -/
def Regular (d : V3) : Prop := -1 + 1 / 10 ^ 12 ≤ d.z ∨ d = ⟨0, 0, -1⟩

/-- The same body, up to a rotation about its axis. -/
structure Same (u s : Sylinder) : Prop where
  gid : u.gid = s.gid
  group : u.group = s.group
  isImmovable : u.isImmovable = s.isImmovable
  radius : u.radius = s.radius
  length : u.length = s.length
  pos : u.pos = s.pos
  direction : u.direction = s.direction
  unit : UnitQuat u.orientation

end Verif.Spec.Snapshot
