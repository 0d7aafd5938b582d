import Mathlib.MeasureTheory.Measure.Lebesgue.VolumeOfBalls
import Mathlib.MeasureTheory.Constructions.Pi
import Mathlib.Analysis.InnerProductSpace.Projection.Reflection
import Mathlib.Topology.MetricSpace.Thickening

namespace Verif.Volume

open MeasureTheory Metric Set

/-- Space. -/
abbrev E3 := EuclideanSpace ℝ (Fin 3)

/-- A cylinder along the first axis. -/
def tube (L r : ℝ) : Set E3 := {x | x 0 ∈ Icc 0 L ∧ x 1 ^ 2 + x 2 ^ 2 < r ^ 2}

theorem disc_volume (r : ℝ) (hr : 0 ≤ r) : volume {y : Fin 2 → ℝ | y 0 ^ 2 + y 1 ^ 2 < r ^ 2} = .ofReal r ^ 2 * .ofReal Real.pi := by
  rw [← EuclideanSpace.volume_ball_fin_two 0 r]
  rw [← (PiLp.volume_preserving_ofLp (Fin 2)).measure_preimage]
  · congr 1
    ext x
    simp only [mem_preimage, mem_setOf_eq, mem_ball, EuclideanSpace.dist_eq, Fin.sum_univ_two, Real.dist_eq, sq_abs]
    simp only [PiLp.zero_apply, sub_zero]
    rw [Real.sqrt_lt (by positivity) hr]
  · refine MeasurableSet.nullMeasurableSet (measurableSet_lt ?_ measurable_const)
    fun_prop

theorem tube_volume (L r : ℝ) (hr : 0 ≤ r) : volume (tube L r) = .ofReal L * (.ofReal r ^ 2 * .ofReal Real.pi) := by
  have h := (volume_preserving_piFinSuccAbove (fun _ : Fin 3 => ℝ) 0).comp (PiLp.volume_preserving_ofLp (Fin 3))
  have e : tube L r = ((MeasurableEquiv.piFinSuccAbove (fun _ : Fin 3 => ℝ) 0) ∘ WithLp.ofLp) ⁻¹' (Icc 0 L ×ˢ {y : Fin 2 → ℝ | y 0 ^ 2 + y 1 ^ 2 < r ^ 2}) := by
    ext x
    simp [tube, MeasurableEquiv.piFinSuccAbove, Fin.insertNthEquiv, Fin.removeNth]
    exact fun _ _ => Iff.rfl
  have hm : MeasurableSet {y : Fin 2 → ℝ | y 0 ^ 2 + y 1 ^ 2 < r ^ 2} := measurableSet_lt (by fun_prop) measurable_const
  rw [e, h.measure_preimage (measurableSet_Icc.prod hm).nullMeasurableSet, Measure.volume_eq_prod, Measure.prod_prod, disc_volume r hr, Real.volume_Icc, sub_zero]

/-- The unit vector along the first axis. -/
noncomputable def e0 : E3 := EuclideanSpace.single 0 1

theorem dist_lt_iff (x y : E3) (r : ℝ) (hr : 0 ≤ r) : dist x y < r ↔ (x 0 - y 0) ^ 2 + (x 1 - y 1) ^ 2 + (x 2 - y 2) ^ 2 < r ^ 2 := by
  rw [EuclideanSpace.dist_eq, Fin.sum_univ_three, Real.sqrt_lt (by positivity) hr]
  simp only [Real.dist_eq, sq_abs]

theorem mem_straight (L r : ℝ) (hL : 0 ≤ L) (hr : 0 ≤ r) (x : E3) :
    x ∈ thickening r (segment ℝ 0 (L • e0)) ↔ ∃ t ∈ Icc 0 L, (x 0 - t) ^ 2 + x 1 ^ 2 + x 2 ^ 2 < r ^ 2 := by
  rw [mem_thickening_iff, segment_eq_image]
  constructor
  · rintro ⟨_, ⟨s, hs, rfl⟩, h⟩
    rw [dist_lt_iff _ _ _ hr] at h
    refine ⟨s * L, ⟨mul_nonneg hs.1 hL, by nlinarith [hs.2]⟩, ?_⟩
    simpa [e0] using h
  · rintro ⟨t, ht, h⟩
    rcases hL.eq_or_lt with rfl | hL
    · obtain rfl : t = 0 := le_antisymm ht.2 ht.1
      refine ⟨_, ⟨0, by simp, rfl⟩, ?_⟩
      rw [dist_lt_iff _ _ _ hr]
      simpa using h
    · refine ⟨_, ⟨t / L, ⟨div_nonneg ht.1 hL.le, (div_le_one hL).2 ht.2⟩, rfl⟩, ?_⟩
      rw [dist_lt_iff _ _ _ hr]
      have : t / L * L = t := div_mul_cancel₀ _ hL.ne'
      simpa [e0, this] using h

theorem mem_ball_zero (x : E3) (r : ℝ) (hr : 0 ≤ r) : x ∈ ball (0 : E3) r ↔ x 0 ^ 2 + x 1 ^ 2 + x 2 ^ 2 < r ^ 2 := by
  rw [mem_ball, dist_lt_iff _ _ _ hr]
  simp

/-- A spherocylinder is a cylinder with a half ball at each end. -/
theorem straight_eq (L r : ℝ) (hL : 0 ≤ L) (hr : 0 ≤ r) : thickening r (segment ℝ 0 (L • e0)) =
    (ball (0 : E3) r ∩ {x | x 0 < 0}) ∪ (tube L r ∪ (fun x => x + (-L) • e0) ⁻¹' (ball (0 : E3) r ∩ {x | 0 < x 0})) := by
  ext x
  rw [mem_straight L r hL hr]
  simp only [mem_union, mem_inter_iff, mem_ball_zero _ _ hr, mem_setOf_eq, mem_preimage, tube]
  have c0 : (x + (-L) • e0 : E3) 0 = x 0 - L := by simp [e0]; ring
  have c1 : (x + (-L) • e0 : E3) 1 = x 1 := by simp [e0]
  have c2 : (x + (-L) • e0 : E3) 2 = x 2 := by simp [e0]
  rw [c0, c1, c2]
  constructor
  · rintro ⟨t, ht, h⟩
    rcases lt_or_ge (x 0) 0 with h0 | h0
    · left
      exact ⟨by nlinarith [ht.1], h0⟩
    · rcases le_or_gt (x 0) L with h1 | h1
      · right; left
        exact ⟨⟨h0, h1⟩, by nlinarith⟩
      · right; right
        exact ⟨by nlinarith [ht.2], by linarith⟩
  · rintro (⟨h, h0⟩ | ⟨⟨h0, h1⟩, h⟩ | ⟨h, h0⟩)
    · exact ⟨0, ⟨le_rfl, hL⟩, by simpa using h⟩
    · exact ⟨x 0, ⟨h0, h1⟩, by simpa using h⟩
    · exact ⟨L, ⟨hL, le_rfl⟩, h⟩

theorem measurable_coord (i : Fin 3) : Measurable fun x : E3 => x i := by fun_prop

theorem straight_volume (L r : ℝ) (hL : 0 ≤ L) (hr : 0 ≤ r) :
    volume (thickening r (segment ℝ 0 (L • e0)) : Set E3) = .ofReal (Real.pi * r ^ 2 * L + 4 / 3 * Real.pi * r ^ 3) := by
  have m0 : MeasurableSet {x : E3 | x 0 < 0} := measurableSet_lt (measurable_coord 0) measurable_const
  have m1 : MeasurableSet {x : E3 | 0 < x 0} := measurableSet_lt measurable_const (measurable_coord 0)
  have mA : MeasurableSet (ball (0 : E3) r ∩ {x | x 0 < 0}) := measurableSet_ball.inter m0
  have mB : MeasurableSet (ball (0 : E3) r ∩ {x | 0 < x 0}) := measurableSet_ball.inter m1
  have mT : MeasurableSet (tube L r) := by
    have : MeasurableSet {x : E3 | x 1 ^ 2 + x 2 ^ 2 < r ^ 2} := measurableSet_lt (by fun_prop) measurable_const
    exact MeasurableSet.inter (measurable_coord 0 measurableSet_Icc) this
  have mC : MeasurableSet ((fun x => x + (-L) • e0) ⁻¹' (ball (0 : E3) r ∩ {x | 0 < x 0})) := (measurable_add_const _) mB
  have hz : volume (ball (0 : E3) r ∩ {x | x 0 = 0}) = 0 := by
    have : ball (0 : E3) r ∩ {x | x 0 = 0} ⊆ tube 0 r := by
      rintro x ⟨h1, h2⟩
      rw [mem_ball_zero _ _ hr] at h1
      simp only [mem_setOf_eq] at h2
      exact ⟨by simp [h2], by nlinarith⟩
    exact measure_mono_null this (by rw [tube_volume 0 r hr]; simp)
  have hball : volume (ball (0 : E3) r ∩ {x | x 0 < 0}) + volume (ball (0 : E3) r ∩ {x | 0 < x 0}) = volume (ball (0 : E3) r) := by
    rw [← measure_inter_add_diff (ball (0 : E3) r) m0]
    congr 1
    refine le_antisymm (measure_mono ?_) ?_
    · rintro x ⟨h1, h2⟩
      exact ⟨h1, by simp only [mem_setOf_eq] at h2 ⊢; linarith⟩
    · refine (measure_mono (t := (ball (0 : E3) r ∩ {x | 0 < x 0}) ∪ (ball (0 : E3) r ∩ {x | x 0 = 0})) ?_).trans ((measure_union_le _ _).trans (by rw [hz, add_zero]))
      rintro x ⟨h1, h2⟩
      simp only [mem_setOf_eq, not_lt] at h2
      rcases h2.eq_or_lt with h | h
      · exact .inr ⟨h1, h.symm⟩
      · exact .inl ⟨h1, h⟩
  rw [straight_eq L r hL hr, measure_union _ (mT.union mC), measure_union _ mC, measure_preimage_add_right, tube_volume L r hr, add_left_comm, hball,
    EuclideanSpace.volume_ball_fin_three]
  · rw [ENNReal.ofReal_add (by positivity) (by positivity), ENNReal.ofReal_mul (by positivity), ENNReal.ofReal_mul (by positivity), ENNReal.ofReal_pow hr,
      ENNReal.ofReal_mul (by positivity), ENNReal.ofReal_pow hr]
    congr 1
    · ring
    · rw [mul_comm]
      congr 2
      ring
  · rw [Set.disjoint_left]
    rintro x ⟨⟨_, h⟩, _⟩ ⟨_, h'⟩
    have c0 : (x + (-L) • e0 : E3) 0 = x 0 - L := by simp [e0]; ring
    simp only [mem_setOf_eq] at h'
    rw [c0] at h'
    linarith
  · rw [Set.disjoint_left]
    rintro x ⟨_, h⟩ (⟨⟨h', _⟩, _⟩ | ⟨_, h'⟩)
    · exact absurd h (not_lt.2 h')
    · have c0 : (x + (-L) • e0 : E3) 0 = x 0 - L := by simp [e0]; ring
      simp only [mem_setOf_eq] at h h'
      rw [c0] at h'
      linarith

/-- The volume of a spherocylinder anywhere. -/
theorem capsule_volume (a b : E3) (r : ℝ) (hr : 0 ≤ r) :
    volume (thickening r (segment ℝ a b)) = .ofReal (Real.pi * r ^ 2 * dist a b + 4 / 3 * Real.pi * r ^ 3) := by
  have he : ‖e0‖ = 1 := by simp [e0]
  obtain ⟨f, hf⟩ : ∃ f : E3 ≃ₗᵢ[ℝ] E3, f (dist a b • e0) = b - a := by
    have : ‖(dist a b • e0 : E3)‖ = ‖b - a‖ := by
      rw [norm_smul, he, mul_one, Real.norm_of_nonneg dist_nonneg, dist_comm, dist_eq_norm]
    exact ⟨_, Submodule.reflection_sub this⟩
  rw [← straight_volume (dist a b) r dist_nonneg hr]
  have e : thickening r (segment ℝ a b) = (fun x => x + -a) ⁻¹' (f.symm ⁻¹' thickening r (segment ℝ 0 (dist a b • e0))) := by
    ext x
    simp only [mem_preimage, mem_thickening_iff, segment_eq_image]
    constructor
    · rintro ⟨_, ⟨s, hs, rfl⟩, h⟩
      refine ⟨_, ⟨s, hs, rfl⟩, ?_⟩
      rw [← f.dist_map, f.apply_symm_apply]
      simp only [smul_zero, zero_add, map_smul, hf] at h ⊢
      rw [dist_eq_norm] at h ⊢
      convert h using 2
      module
    · rintro ⟨_, ⟨s, hs, rfl⟩, h⟩
      refine ⟨_, ⟨s, hs, rfl⟩, ?_⟩
      rw [← f.dist_map, f.apply_symm_apply] at h
      simp only [smul_zero, zero_add] at h
      rw [map_smul, hf] at h
      rw [dist_eq_norm] at h ⊢
      convert h using 2
      module
  rw [e, measure_preimage_add_right, f.symm.measurePreserving.measure_preimage isOpen_thickening.measurableSet.nullMeasurableSet]

end Verif.Volume
