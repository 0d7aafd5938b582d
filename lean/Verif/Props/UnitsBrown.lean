import Verif.Lemmas.UnitsBrown
import Mathlib.Analysis.Complex.ExponentialBounds
import Mathlib.Analysis.Real.Pi.Bounds
/-!
C117, Brownian motion in other units.
-/
namespace Verif
open V3 Mobility Spec.Mobility Spec.Units Units

/-- C117, Brownian motion.  With the same random numbers, viscosity `φ τ μ`, time step `τ dt` and thermal energy `φ kT` in place of `μ`, `dt` and `kT`, the Brownian angular velocity is `1 / τ` times as large
for every body, and the velocity is for spheres and immovable bodies.

Partial: for rods the velocity has a term, the random finite difference, that turns the rod by an angle of `dt / 10`, whatever the unit of time is; without it the velocity of rods is `1 / τ` times as large
as well.  With it the claim is false (`C117_thermal_false`). -/
theorem C117_thermal_partial (φ τ mu dt kBT : ℝ) (hφ : 0 < φ) (hτ : 0 < τ) (hmu : 0 < mu) (hdt : 0 < dt) (W : Draws) (s : Sylinder) (hv : Valid s) :
    ∃ t t', brownBody mu dt kBT W s = some t ∧ brownBody (φ * τ * mu) (τ * dt) (φ * kBT) W s = some t' ∧ t.omegaBrown = τ • t'.omegaBrown ∧
      (s.isSphere = true ∨ s.isImmovable = true ∨ W.rfdpos = 0 → t.velBrown = τ • t'.velBrown) := by
  cases him : s.isImmovable with
  | true =>
    refine ⟨_, _, brown_immovable mu dt kBT hdt.ne' W s him, brown_immovable _ _ _ (mul_pos hτ hdt).ne' W s him, ?_, fun _ => ?_⟩ <;> ext <;> simp
  | false =>
    have hc : 0 < φ * τ := mul_pos hφ hτ
    obtain ⟨p, e, r, h1, hp, he, hr, h2⟩ := dragInv_pos s hv.radius hv.length mu hmu him
    obtain ⟨p', e', r', k1, hp', he', hr', k2⟩ := dragInv_pos s hv.radius hv.length (φ * τ * mu) (by positivity) him
    rw [drag_units, h1] at k1
    simp only [Option.map_some, Option.some.injEq, Prod.mk.injEq] at k1
    obtain ⟨rfl, rfl, rfl⟩ := k1
    have hd := direction_unit s hv.unit
    have i1 : ∀ x : ℝ, 1 / (φ * τ * x) = (φ * τ)⁻¹ * (1 / x) := fun x => by rw [one_div, one_div, mul_inv]
    obtain ⟨m1, m2, m3⟩ := minors_nmat (1 / p) (1 / e) (by positivity) (by positivity) s.direction hd
    have hl := lltL_units (inv_pos.2 hc) _ m1 m2 m3
    rw [← nmat_units] at hl
    have hf : τ * (Real.sqrt (2 * (φ * kBT) / (τ * dt)) * Real.sqrt (φ * τ)⁻¹) = Real.sqrt (2 * kBT / dt) := by
      rw [← Real.sqrt_mul' _ (inv_pos.2 hc).le]
      have : τ = Real.sqrt (τ * τ) := (Real.sqrt_mul_self hτ.le).symm
      conv_lhs => rw [this]
      rw [← Real.sqrt_mul (mul_pos hτ hτ).le, ← this]
      congr 1
      field_simp
    unfold brownBody
    rw [if_neg hdt.ne', if_neg (mul_pos hτ hdt).ne', h2, k2]
    refine ⟨_, _, rfl, rfl, ?_, ?_⟩
    · show (Real.sqrt (1 / r) * Real.sqrt (2 * kBT / dt)) • W.rot = τ • (Real.sqrt (1 / (φ * τ * r)) * Real.sqrt (2 * (φ * kBT) / (τ * dt))) • W.rot
      rw [i1, Real.sqrt_mul (inv_pos.2 hc).le, ← hf]
      ext <;> simp <;> ring
    · intro hcase
      have hz : ∀ q : V3, mul3 (nmat (1 / p) (1 / e) q - nmat (1 / p) (1 / e) s.direction) W.rfdpos = 0 ∧
          mul3 (nmat ((φ * τ)⁻¹ * (1 / p)) ((φ * τ)⁻¹ * (1 / e)) q - nmat ((φ * τ)⁻¹ * (1 / p)) ((φ * τ)⁻¹ * (1 / e)) s.direction) W.rfdpos = 0 := by
        intro q
        rcases hcase with h | h | h
        · have hpe : p = e := by
            unfold Sylinder.calcDragCoeff at h1
            rw [if_pos h] at h1
            simp only [Option.some.injEq, Prod.mk.injEq] at h1
            exact h1.1.symm.trans h1.2.1
          subst hpe
          unfold nmat
          simp only [sub_self, zero_smul, mul3_zero, and_self]
        · cases h
        · rw [h]
          constructor <;> (ext <;> simp [mul3])
      obtain ⟨z1, -⟩ := hz ((Equatn.rotateEquatn s.orientation W.rfdrot (dt * 0.1)).rot ⟨0, 0, 1⟩)
      obtain ⟨-, z2⟩ := hz ((Equatn.rotateEquatn s.orientation W.rfdrot (τ * dt * 0.1)).rot ⟨0, 0, 1⟩)
      show Real.sqrt (2 * kBT / dt) • mul3 (lltL (nmat (1 / p) (1 / e) s.direction)) W.pos +
          (kBT / (dt * 0.1)) • mul3 (nmat (1 / p) (1 / e) ((Equatn.rotateEquatn s.orientation W.rfdrot (dt * 0.1)).rot ⟨0, 0, 1⟩) - nmat (1 / p) (1 / e) s.direction) W.rfdpos =
        τ • (Real.sqrt (2 * (φ * kBT) / (τ * dt)) • mul3 (lltL (nmat (1 / (φ * τ * p)) (1 / (φ * τ * e)) s.direction)) W.pos +
          (φ * kBT / (τ * dt * 0.1)) • mul3 (nmat (1 / (φ * τ * p)) (1 / (φ * τ * e)) ((Equatn.rotateEquatn s.orientation W.rfdrot (τ * dt * 0.1)).rot ⟨0, 0, 1⟩) -
            nmat (1 / (φ * τ * p)) (1 / (φ * τ * e)) s.direction) W.rfdpos)
      rw [i1, i1, z1, z2, hl, mul3_smul, ← hf]
      ext <;> simp <;> ring

/-- The hypotheses of `C117_thermal_partial` can be met, with a sphere. -/
example : ∃ (s : Sylinder) (W : Draws) (t t' : Sylinder), Valid s ∧ s.isSphere = true ∧ brownBody 1 1 1 W s = some t ∧ brownBody (3 * 2 * 1) (2 * 1) (3 * 1) W s = some t' ∧
    t.omegaBrown = (2 : ℝ) • t'.omegaBrown ∧ t.velBrown = (2 : ℝ) • t'.velBrown := by
  have hv : Valid (Sylinder.make 0 1 1 0 0) := ⟨by norm_num [Sylinder.make], by norm_num [Sylinder.make], by norm_num [Sylinder.make, Spec.UnitQuat]⟩
  have hs : (Sylinder.make 0 1 1 0 0).isSphere = true := by norm_num [Sylinder.isSphere, Sylinder.make]
  obtain ⟨t, t', h1, h2, h3, h4⟩ := C117_thermal_partial 3 2 1 1 1 (by norm_num) (by norm_num) (by norm_num) (by norm_num) ⟨⟨1, 0, 0⟩, ⟨0, 1, 0⟩, ⟨0, 0, 1⟩, ⟨1, 1, 1⟩⟩ _ hv
  exact ⟨_, _, t, t', hv, hs, h1, h2, h3, h4 (.inl hs)⟩

/-- C117 is false for the Brownian motion of rods: a rod, time steps of 10 units and, in units half as long, of 20.  The velocities are not the same in any one unit. -/
theorem C117_thermal_false : ∃ (φ τ mu dt kBT : ℝ) (W : Draws) (s t t' : Sylinder), 0 < φ ∧ 0 < τ ∧ 0 < mu ∧ 0 < dt ∧ 0 < kBT ∧ Valid s ∧ brownBody mu dt kBT W s = some t ∧
    brownBody (φ * τ * mu) (τ * dt) (φ * kBT) W s = some t' ∧ t.velBrown ≠ τ • t'.velBrown := by
  have hv : Valid (Sylinder.make 0 1 1 4 4) := ⟨by norm_num [Sylinder.make], by norm_num [Sylinder.make], by norm_num [Sylinder.make, Spec.UnitQuat]⟩
  obtain ⟨p, e, r, h1, hp, he, hr, h2⟩ := dragInv_pos _ hv.radius hv.length 1 (by norm_num) rfl
  obtain ⟨p', e', r', k1, hp', he', hr', k2⟩ := dragInv_pos _ hv.radius hv.length (1 * 2 * 1) (by norm_num) rfl
  have hne : p ≠ e := by
    intro hpe
    unfold Sylinder.calcDragCoeff at h1
    dsimp only at h1
    have hsph : (Sylinder.make 0 1 1 4 4).isSphere = false := by norm_num [Sylinder.isSphere, Sylinder.make]
    rw [hsph] at h1
    simp only [Bool.false_eq_true, if_false] at h1
    split_ifs at h1 with c1 c2
    simp only [Option.some.injEq, Prod.mk.injEq] at h1
    obtain ⟨g1, g2, -⟩ := h1
    rw [← hpe, ← g1] at g2
    have hl : Real.log ((Sylinder.make 0 1 1 4 4).radius / (Sylinder.make 0 1 1 4 4).length) = -(2 * Real.log 2) := by
      show Real.log (1 / 4) = _
      rw [one_div, Real.log_inv, show (4 : ℝ) = 2 ^ 2 by norm_num, Real.log_pow]
      norm_num
    rw [hl] at g2 g1
    have hb := Real.log_two_lt_d9
    have hb' := Real.log_two_gt_d9
    have e1 : (2 * -(1 + 2 * -(2 * Real.log 2))) ≠ 0 := by intro h; linarith
    have e2 : (-(1 + 2 * -(2 * Real.log 2)) + 2) ≠ 0 := by intro h; linarith
    have hN : (8 * Pi * (Sylinder.make 0 1 1 4 4).length * 1 : ℝ) ≠ 0 := by
      intro h
      rw [h] at g1
      rw [zero_div] at g1
      linarith
    rw [div_eq_div_iff e2 e1] at g2
    have := mul_left_cancel₀ hN g2
    linarith
  have hpi := Real.pi_gt_three
  have hflt : Equatn.fltEps ≤ Real.pi / 2 := by unfold Equatn.fltEps; norm_num; linarith
  have t1 := turned (Real.pi / 2) (10 * 0.1) hflt (by linarith)
  have t2 := turned (Real.pi / 2) (2 * 10 * 0.1) hflt (by linarith)
  rw [show Real.pi / 2 * (10 * 0.1) / 2 = Real.pi / 4 by ring, Real.sin_pi_div_four, Real.cos_pi_div_four] at t1
  rw [show Real.pi / 2 * (2 * 10 * 0.1) / 2 = Real.pi / 2 by ring, Real.sin_pi_div_two, Real.cos_pi_div_two] at t2
  have hs2 : Real.sqrt 2 ^ 2 = 2 := Real.sq_sqrt (by norm_num)
  have q1 : (⟨0, -(2 * (Real.sqrt 2 / 2) * (Real.sqrt 2 / 2)), 1 - 2 * (Real.sqrt 2 / 2) ^ 2⟩ : V3) = ⟨0, -1, 0⟩ := by
    ext
    · rfl
    · simp only; nlinarith
    · simp only; nlinarith
  have q2 : (⟨0, -(2 * 1 * 0), 1 - 2 * 1 ^ 2⟩ : V3) = ⟨0, 0, -1⟩ := by ext <;> norm_num
  rw [q1] at t1
  rw [q2] at t2
  refine ⟨1, 2, 1, 10, 1, ⟨0, 0, ⟨Real.pi / 2, 0, 0⟩, ⟨0, 0, 1⟩⟩, Sylinder.make 0 1 1 4 4,
    { Sylinder.make 0 1 1 4 4 with velBrown := ⟨0, 0, 1 / e - 1 / p⟩, omegaBrown := 0 }, { Sylinder.make 0 1 1 4 4 with velBrown := 0, omegaBrown := 0 },
    by norm_num, by norm_num, by norm_num, by norm_num, by norm_num, hv, ?_, ?_, ?_⟩
  · unfold brownBody
    rw [if_neg (by norm_num), h2]
    simp only [Option.map_some]
    rw [show (Sylinder.make 0 1 1 4 4).orientation = ⟨1, 0, 0, 0⟩ from rfl, t1]
    congr 2
    · ext <;> simp [mul3, outer, Quat.rot, Quat.vec, V3.cross] <;> norm_num
    · ext <;> simp
  · unfold brownBody
    rw [if_neg (by norm_num), k2]
    simp only [Option.map_some]
    rw [show (Sylinder.make 0 1 1 4 4).orientation = ⟨1, 0, 0, 0⟩ from rfl, t2]
    congr 2
    · ext <;> simp [mul3, outer, Quat.rot, Quat.vec, V3.cross]
    · ext <;> simp
  · intro h
    have hz := congrArg V3.z h
    simp at hz
    apply hne
    have : e⁻¹ = p⁻¹ := by linarith
    exact (inv_injective this).symm

end Verif
