import Verif.Lemmas.UnitsBrown
/-!
C117, turns of bodies in other units.
-/
namespace Verif
open V3 Spec.Units Units

theorem Units.norm_smul {c : ℝ} (hc : 0 < c) (v : V3) : (c • v).norm = c * v.norm := by
  unfold V3.norm
  rw [show V3.normSq (c • v) = c * c * V3.normSq v by simp [V3.normSq, V3.dot]; ring, Real.sqrt_mul (mul_pos hc hc).le, Real.sqrt_mul_self hc.le]

/-- C117, turns.  A body with the angular velocity `ω` that makes a step of `τ dt` turns like one with `τ ω` that makes a step of `dt`, and it moves alike, if both angular velocities are above the
threshold of `2⁻²³` or both are below.

Partial: bodies do not turn at all if the number of the angular velocity is below the threshold, whatever the unit of time is, hence the claim without the condition is false (`C117_turn_false`). -/
theorem C117_turn_partial (τ dt : ℝ) (hτ : 0 < τ) (s s' : Sylinder) (hp : s.pos = s'.pos) (ho : s.orientation = s'.orientation) (hv : s.vel = τ • s'.vel) (hw : s.omega = τ • s'.omega)
    (hb : Equatn.fltEps ≤ s.omega.norm ↔ Equatn.fltEps ≤ s'.omega.norm) :
    (s.stepEuler dt).pos = (s'.stepEuler (τ * dt)).pos ∧ (s.stepEuler dt).orientation = (s'.stepEuler (τ * dt)).orientation := by
  have h1 : (s.stepEuler dt).orientation = Equatn.rotateEquatn s.orientation s.omega dt := rfl
  have h2 : (s'.stepEuler (τ * dt)).orientation = Equatn.rotateEquatn s'.orientation s'.omega (τ * dt) := rfl
  have h3 : (s.stepEuler dt).pos = s.pos + dt • s.vel := rfl
  have h4 : (s'.stepEuler (τ * dt)).pos = s'.pos + (τ * dt) • s'.vel := rfl
  rw [h1, h2, h3, h4, hp, hv]
  constructor
  · ext <;> simp <;> ring
  · rw [ho]
    unfold Equatn.rotateEquatn
    dsimp only
    by_cases hlt : s.omega.norm < Equatn.fltEps
    · rw [if_pos hlt, if_pos (not_le.1 fun h => absurd (hb.2 h) (not_le.2 hlt))]
    · have hle := not_lt.1 hlt
      rw [if_neg hlt, if_neg (not_lt.2 (hb.1 hle))]
      have hpos : 0 < s'.omega.norm := lt_of_lt_of_le (by unfold Equatn.fltEps; norm_num) (hb.1 hle)
      have hn : s.omega.norm = τ * s'.omega.norm := by rw [hw, norm_smul hτ]
      rw [hn, show τ * s'.omega.norm * dt / 2 = s'.omega.norm * (τ * dt) / 2 by ring, hw]
      congr 1
      have hd : V3.dot ⟨s'.orientation.x, s'.orientation.y, s'.orientation.z⟩ (τ • s'.omega) = τ * V3.dot ⟨s'.orientation.x, s'.orientation.y, s'.orientation.z⟩ s'.omega := by
        simp [V3.dot]; ring
      rw [hd]
      generalize Real.sin _ = a
      generalize Real.cos _ = b
      generalize s'.omega.norm = n at *
      congr 1
      · field_simp
      · simp [V3.cross]; field_simp
      · simp [V3.cross]; field_simp
      · simp [V3.cross]; field_simp

/-- The hypotheses of `C117_turn_partial` can be met, with a body that turns. -/
example : ∃ s s' : Sylinder, s.pos = s'.pos ∧ s.orientation = s'.orientation ∧ s.vel = (2 : ℝ) • s'.vel ∧ s.omega = (2 : ℝ) • s'.omega ∧
    (Equatn.fltEps ≤ s.omega.norm ↔ Equatn.fltEps ≤ s'.omega.norm) ∧ Equatn.fltEps ≤ s.omega.norm := by
  have hn : ∀ w : ℝ, 0 < w → V3.norm ⟨w, 0, 0⟩ = w := by
    intro w hw
    unfold V3.norm V3.normSq V3.dot
    simp only [mul_zero, add_zero]
    exact Real.sqrt_mul_self hw.le
  have h1 : Equatn.fltEps ≤ V3.norm ⟨2, 0, 0⟩ := by rw [hn 2 (by norm_num)]; unfold Equatn.fltEps; norm_num
  have h2 : Equatn.fltEps ≤ V3.norm ⟨1, 0, 0⟩ := by rw [hn 1 (by norm_num)]; unfold Equatn.fltEps; norm_num
  refine ⟨{ Sylinder.make 0 1 1 4 4 with vel := ⟨4, 0, 0⟩, omega := ⟨2, 0, 0⟩ }, { Sylinder.make 0 1 1 4 4 with vel := ⟨2, 0, 0⟩, omega := ⟨1, 0, 0⟩ }, rfl, rfl, ?_, ?_, ⟨fun _ => h2, fun _ => h1⟩, h1⟩
  · ext <;> norm_num
  · ext <;> norm_num

/-- C117 is false for slow turns: a rod turns by half a turn in one step of `2²² π` units of time, and it does not turn at all in the same time if the unit is four times as short. -/
theorem C117_turn_false : ∃ (τ dt : ℝ) (s s' : Sylinder), 0 < τ ∧ 0 < dt ∧ Spec.Mobility.Valid s ∧ s.pos = s'.pos ∧ s.orientation = s'.orientation ∧ s.vel = τ • s'.vel ∧ s.omega = τ • s'.omega ∧
    (s'.stepEuler (τ * dt)).orientation = s'.orientation ∧ (s.stepEuler dt).direction = -s.direction := by
  have hf : Equatn.fltEps = 1 / 2 ^ 23 := rfl
  have hn : ∀ w : ℝ, 0 < w → V3.norm ⟨w, 0, 0⟩ = w := by
    intro w hw
    unfold V3.norm V3.normSq V3.dot
    simp only [mul_zero, add_zero]
    exact Real.sqrt_mul_self hw.le
  refine ⟨4, Real.pi * 2 ^ 22, { Sylinder.make 0 1 1 4 4 with omega := ⟨1 / 2 ^ 22, 0, 0⟩ }, { Sylinder.make 0 1 1 4 4 with omega := ⟨1 / 2 ^ 24, 0, 0⟩ }, by norm_num,
    mul_pos Real.pi_pos (by norm_num), ⟨by norm_num [Sylinder.make], by norm_num [Sylinder.make], by norm_num [Sylinder.make, Spec.UnitQuat]⟩, rfl, rfl, ?_, ?_, ?_, ?_⟩
  · ext <;> simp [Sylinder.make]
  · ext <;> norm_num
  · show Equatn.rotateEquatn ⟨1, 0, 0, 0⟩ ⟨1 / 2 ^ 24, 0, 0⟩ (4 * (Real.pi * 2 ^ 22)) = ⟨1, 0, 0, 0⟩
    unfold Equatn.rotateEquatn
    rw [hn _ (by norm_num), if_pos (by rw [hf]; norm_num)]
  · show (Equatn.rotateEquatn ⟨1, 0, 0, 0⟩ ⟨1 / 2 ^ 22, 0, 0⟩ (Real.pi * 2 ^ 22)).rot ⟨0, 0, 1⟩ = -(Quat.rot ⟨1, 0, 0, 0⟩ ⟨0, 0, 1⟩)
    rw [turned _ _ (by rw [hf]; norm_num) (by norm_num), show (1 : ℝ) / 2 ^ 22 * (Real.pi * 2 ^ 22) / 2 = Real.pi / 2 by ring, Real.sin_pi_div_two, Real.cos_pi_div_two]
    ext <;> norm_num [Quat.rot, Quat.vec, V3.cross]

end Verif
