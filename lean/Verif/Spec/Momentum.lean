import Verif.Model.RunStep
import Verif.Spec.Mobility
import Verif.Spec.Collector
/-! Total force and torque of a step. -/
namespace Verif.Spec.Momentum
open Verif.V3 Verif.RunStep Verif.Collector Verif.Mobility Verif.Spec.Mobility

/-- The forces and torques that were given (`setForceNonBrown`) for the bodies of all ranks, zero if none were given. -/
noncomputable def given (ranks : List RankIn) : List (V3 × V3) :=
  ranks.flatMap fun rk => (List.range rk.bodies.length).map fun i => at6 (rk.force.getD []) i

/-- The bodies of all ranks at the end of the solve, before they are moved, with all forces on them. -/
def loaded (out : Out) : List Sylinder := out.steps.flatMap StepOut.summed

/-- Moment about `c` of a force `f` and a torque `t` on a body at `p`. -/
noncomputable def moment (c p f t : V3) : V3 := t + cross (p - c) f

/-- The constraints of all ranks when the solve starts. -/
def constraints (ranks : List RankIn) : List Block := ranks.flatMap fun r => r.pool.flatten

end Verif.Spec.Momentum
