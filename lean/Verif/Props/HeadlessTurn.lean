import Verif.Lemmas.Headless
import Verif.Lemmas.Turn
/-!
C118, turns and Brownian motion of rods that are turned over.
-/
namespace Verif
open V3 Mobility Sim Spec.Resume Headless

theorem Headless.turned_neg (q : Quat) (v : V3) : Spec.turned q (-v) = -Spec.turned q v := by
  unfold Spec.turned
  ext <;> simp [Spec.hamilton, Spec.pureQuat, Spec.conj, Quat.vec] <;> ring

theorem Headless.outer_neg (v : V3) : outer (-v) = outer v := by
  ext i j
  fin_cases i <;> fin_cases j <;> simp [outer]

/-- The direction after a turn. -/
theorem Headless.rotate_over {s s' : Sylinder} (hu : Spec.UnitQuat s.orientation) (hu' : Spec.UnitQuat s'.orientation) (hd : s'.direction = -s.direction) (omega : V3) (dt : ℝ) :
    (Equatn.rotateEquatn s'.orientation omega dt).rot ⟨0, 0, 1⟩ = -(Equatn.rotateEquatn s.orientation omega dt).rot ⟨0, 0, 1⟩ := by
  rw [Equatn.rotate_turned _ hu', Equatn.rotate_turned _ hu]
  have e : s'.orientation.rot ⟨0, 0, 1⟩ = -s.orientation.rot ⟨0, 0, 1⟩ := hd
  rw [e, turned_neg]

/-- C118, turns.  Two bodies at the same place with opposite directions that move at the same velocity and turn at the same angular velocity are at the same place with opposite directions after the
step. -/
theorem C118_turn (dt : ℝ) (s s' : Sylinder) (hu : Spec.UnitQuat s.orientation) (hu' : Spec.UnitQuat s'.orientation) (hp : s'.pos = s.pos) (hd : s'.direction = -s.direction)
    (hv : s'.vel = s.vel) (hw : s'.omega = s.omega) :
    (s'.stepEuler dt).pos = (s.stepEuler dt).pos ∧ (s'.stepEuler dt).direction = -(s.stepEuler dt).direction := by
  constructor
  · show s'.pos + dt • s'.vel = s.pos + dt • s.vel
    rw [hp, hv]
  · show (Equatn.rotateEquatn s'.orientation s'.omega dt).rot ⟨0, 0, 1⟩ = -(Equatn.rotateEquatn s.orientation s.omega dt).rot ⟨0, 0, 1⟩
    rw [hw]
    exact rotate_over hu hu' hd _ _

/-- C118, Brownian motion.  With the same random numbers, a body that is turned over has the same Brownian velocity and angular velocity. -/
theorem C118_thermal (mu dt kBT : ℝ) (W : Draws) (s s' : Sylinder) (hu : Spec.UnitQuat s.orientation) (hu' : Spec.UnitQuat s'.orientation) (hk : kind s' = kind s)
    (hd : s'.direction = -s.direction) :
    (brownBody mu dt kBT W s').map (fun t => (t.velBrown, t.omegaBrown)) = (brownBody mu dt kBT W s).map fun t => (t.velBrown, t.omegaBrown) := by
  simp only [kind, Prod.mk.injEq] at hk
  obtain ⟨-, -, k1, k2, k3⟩ := hk
  have hdrag : dragInv s' mu = dragInv s mu := by
    unfold dragInv Sylinder.calcDragCoeff Sylinder.isSphere
    simp only [k1, k2, k3, Bool.false_eq_true, if_false]
  have hq : s'.orientation.rot ⟨0, 0, 1⟩ = -s.orientation.rot ⟨0, 0, 1⟩ := hd
  unfold brownBody
  by_cases h0 : dt = 0
  · rw [if_pos h0, if_pos h0]
  · rw [if_neg h0, if_neg h0, hdrag]
    dsimp only
    rw [rotate_over hu hu' hd, hq]
    simp only [outer_neg, Option.map_map]
    rfl

/-- The hypotheses of `C118_turn` and `C118_thermal` can be met: a rod, and the same upside down, that move and turn. -/
example : ∃ s s' : Sylinder, Spec.UnitQuat s.orientation ∧ Spec.UnitQuat s'.orientation ∧ s'.pos = s.pos ∧ s'.direction = -s.direction ∧ s'.vel = s.vel ∧ s'.omega = s.omega ∧
    kind s' = kind s ∧ s.omega = ⟨1, 2, 3⟩ ∧ s.length = 4 ∧ ∃ t, brownBody 1 1 1 ⟨⟨1, 0, 0⟩, ⟨0, 1, 0⟩, ⟨0, 0, 1⟩, ⟨1, 1, 1⟩⟩ s = some t := by
  have hu : Spec.UnitQuat (⟨1, 0, 0, 0⟩ : Quat) := by norm_num [Spec.UnitQuat]
  obtain ⟨s, hs⟩ : ∃ s : Sylinder, s = { Sylinder.make 0 1 1 4 4 0 ⟨1, 0, 0, 0⟩ with vel := ⟨4, 0, 0⟩, omega := ⟨1, 2, 3⟩ } := ⟨_, rfl⟩
  have h1 : Spec.UnitQuat s.orientation := by rw [hs]; exact hu
  have h2 : Spec.UnitQuat (upset s).orientation := by rw [hs]; norm_num [upset, Spec.UnitQuat, Sylinder.make]
  obtain ⟨p, e, r, -, -, -, -, h⟩ := dragInv_pos s (by rw [hs]; norm_num [Sylinder.make]) (by rw [hs]; norm_num [Sylinder.make]) 1 one_pos (by rw [hs]; rfl)
  refine ⟨s, upset s, h1, h2, rfl, upset_direction h1, rfl, rfl, rfl, by rw [hs], by rw [hs]; rfl, ?_⟩
  unfold brownBody
  rw [if_neg one_ne_zero, h]
  exact ⟨_, rfl⟩

end Verif
