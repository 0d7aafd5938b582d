import Verif.Model.FloatStep
import Verif.Spec.Equatn

/-! Exact motion, and what is assumed about the arithmetic of the machine. -/

namespace Verif.Spec.FloatStep

open Verif.FloatStep

/-- Every operation has a relative error of at most `u` (`2^-53` for doubles); sine and cosine have
an error of at most `2 u`. -/
structure Accurate (A : Arith) (u : ℝ) : Prop where
  fl : ∀ x, |A.fl x - x| ≤ u * |x|
  sin : ∀ x, |A.sin x - Real.sin x| ≤ 2 * u
  cos : ∀ x, |A.cos x - Real.cos x| ≤ 2 * u

/-- The turn by the angle `|omega| dt` about `omega`. -/
noncomputable def exactTurn (omega : V3) (dt : ℝ) : Quat :=
  if omega.norm = 0 then ⟨1, 0, 0, 0⟩
  else
    let a := omega.norm * dt / 2
    ⟨Real.cos a, Real.sin a * (omega.x / omega.norm), Real.sin a * (omega.y / omega.norm),
      Real.sin a * (omega.z / omega.norm)⟩

/-- The orientation after steps without any error. -/
noncomputable def exactOrientation (q : Quat) (moves : List Move) : Quat :=
  moves.foldl (fun q m => hamilton (exactTurn m.omega m.dt) q) q

/-- The position after steps without any error. -/
noncomputable def exactPosition (p : V3) (moves : List Move) : V3 :=
  moves.foldl (fun p m => p + m.dt • m.vel) p

/-- The distance of two quaternions. -/
noncomputable def qdist (p q : Quat) : ℝ :=
  Real.sqrt ((p.w - q.w) ^ 2 + (p.x - q.x) ^ 2 + (p.y - q.y) ^ 2 + (p.z - q.z) ^ 2)

/-- The length of a quaternion. -/
noncomputable def qnorm (q : Quat) : ℝ := Real.sqrt (q.w ^ 2 + q.x ^ 2 + q.y ^ 2 + q.z ^ 2)

/-- The largest turns that a machine may leave out in these steps: `rotateEquatn` ignores angular
velocities below `2^-23`. -/
noncomputable def slack (moves : List Move) : ℝ :=
  (moves.map fun m => if m.omega.norm < 2 / 2 ^ 23 then m.omega.norm * |m.dt| else 0).sum

end Verif.Spec.FloatStep
