import Verif.Spec.Momentum
import Verif.Spec.Motion
/-! Work of the forces of a step and energy of the springs. -/
namespace Verif.Spec.Work
open Verif.RunStep Verif.Collector Verif.Spec.Motion

/-- Power of the forces with which the bodies end a step. -/
noncomputable def totalPower (bodies : List Sylinder) : ℝ := (bodies.map fun u => power (u.force, u.torque) (u.vel, u.omega)).sum

/-- Power of given forces. -/
noncomputable def givenPower (bodies : List Sylinder) (given : List (V3 × V3)) : ℝ :=
  (List.zipWith (fun u G => power G (u.vel, u.omega)) bodies given).sum

open Classical in
/-- Elastic energy of a constraint whose separation, less its rest length, is `δ`: that of a spring of stiffness `kappa`.  Contacts and rigid links (`kappa ≤ 0`) have
none. -/
noncomputable def elastic (b : Block) (δ : ℝ) : ℝ := if b.bilateral = true ∧ 0 < b.kappa then b.kappa / 2 * δ ^ 2 else 0

open Classical in
/-- What an approximate solution with tolerance `tol`, and multipliers below `small` taken as zero, can add to the energy: `δ` is the separation before, `δ'` after, `g`
the multiplier. -/
noncomputable def slack (dt tol small : ℝ) (b : Block) (δ' g : ℝ) : ℝ :=
  if b.bilateral = true ∧ 0 < b.kappa then b.kappa / 2 * (dt * tol) ^ 2 else |g| * (dt * tol) - g * b.delta0 + small * max δ' 0

end Verif.Spec.Work
