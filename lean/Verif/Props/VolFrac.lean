import Verif.Lemmas.VolFrac

/-!
C106: the volume and the volume fraction that are printed are those of the bodies in space.
-/

namespace Verif

open VolFrac VolFrac.Spec

/-- What a body adds is its volume (Lebesgue measure of the points nearer to its axis than its radius), up to a relative error
of 3e-11 that comes from the digits of pi in the code. -/
theorem C106_body (s : Sylinder) (h : Valid s) : |bodyVolume s - vol (body s)| ≤ 3 / 10 ^ 11 * vol (body s) := by
  rw [vol, volume_body s h, ENNReal.toReal_ofReal (trueVolume_nonneg s h)]
  exact bodyVolume_near s h

/-- If no two bodies overlap, the printed volume is that of the part of space that bodies take, whatever the ranks and threads
that have the bodies. -/
theorem C106_total (ranks : List (List (List Sylinder))) (low high : V3) (hv : ∀ s ∈ ranks.flatten.flatten, Valid s)
    (ha : ranks.flatten.flatten.Pairwise Apart) :
    |(calcVolFrac ranks low high).1 - vol (taken ranks.flatten.flatten)| ≤ 3 / 10 ^ 11 * vol (taken ranks.flatten.flatten) := by
  rw [vol, volume_taken _ hv ha, ENNReal.toReal_ofReal (sum_nonneg' _ hv)]
  simp only [calcVolFrac, volGlobal_eq]
  exact sum_near _ hv

/-- If bodies overlap it is not less. -/
theorem C106_overlap (ranks : List (List (List Sylinder))) (low high : V3) (hv : ∀ s ∈ ranks.flatten.flatten, Valid s) :
    (1 - 3 / 10 ^ 11) * vol (taken ranks.flatten.flatten) ≤ (calcVolFrac ranks low high).1 := by
  have h1 : vol (taken ranks.flatten.flatten) ≤ (ranks.flatten.flatten.map trueVolume).sum := by
    rw [vol]
    exact ENNReal.toReal_le_of_le_ofReal (sum_nonneg' _ hv) (volume_taken_le _ hv)
  have h2 := (abs_le.1 (sum_near _ hv)).1
  simp only [calcVolFrac, volGlobal_eq]
  nlinarith

/-- The printed fraction is the volume that bodies take over that of the box.  It is at most one, up to the same error, if all
bodies are in the box. -/
theorem C106_fraction (ranks : List (List (List Sylinder))) (low high : V3) (hx : low.x < high.x) (hy : low.y < high.y) (hz : low.z < high.z)
    (hv : ∀ s ∈ ranks.flatten.flatten, Valid s) (ha : ranks.flatten.flatten.Pairwise Apart) : ∃ f, (calcVolFrac ranks low high).2 = some f ∧
    |f - vol (taken ranks.flatten.flatten) / vol (box low high)| ≤ 3 / 10 ^ 11 * (vol (taken ranks.flatten.flatten) / vol (box low high)) ∧
    ((∀ s ∈ ranks.flatten.flatten, body s ⊆ box low high) → f ≤ 1 + 3 / 10 ^ 11) := by
  have hb : 0 < boxVolume low high := mul_pos (mul_pos (by linarith) (by linarith)) (by linarith)
  have ht := C106_total ranks low high hv ha
  have e : vol (box low high) = boxVolume low high := by rw [vol, volume_box low high hx.le hy.le hz.le, ENNReal.toReal_ofReal hb.le]
  have hf : |(calcVolFrac ranks low high).1 / boxVolume low high - vol (taken ranks.flatten.flatten) / boxVolume low high| ≤
      3 / 10 ^ 11 * (vol (taken ranks.flatten.flatten) / boxVolume low high) := by
    rw [← sub_div, abs_div, abs_of_pos hb, ← mul_div_assoc]
    exact div_le_div_of_nonneg_right ht hb.le
  refine ⟨(calcVolFrac ranks low high).1 / boxVolume low high, by simp [calcVolFrac, hb.ne'], by rw [e]; exact hf, fun hin => ?_⟩
  have hle : vol (taken ranks.flatten.flatten) / boxVolume low high ≤ 1 := by
    rw [div_le_one hb, ← e]
    refine ENNReal.toReal_mono ?_ (MeasureTheory.measure_mono ?_)
    · rw [volume_box low high hx.le hy.le hz.le]; exact ENNReal.ofReal_ne_top
    · rintro p ⟨s, hs, hp⟩
      exact hin s hs hp
  have := (abs_le.1 hf).2
  nlinarith

/-- Short bodies move and collide as spheres with the radius plus half the length; of these the printed volume may be less than
a third. -/
theorem C106_sphere_false : ∃ s : Sylinder, Valid s ∧ s.isSphere = true ∧ 3 * bodyVolume s < vol (Metric.ball (point s.pos) (0.5 * s.length + s.radius)) := by
  refine ⟨Sylinder.make 0 1 1 1.9 1.9, ⟨by simp [Sylinder.make, Verif.Spec.UnitQuat], by norm_num [Sylinder.make], by norm_num [Sylinder.make]⟩, ?_, ?_⟩
  · norm_num [Sylinder.isSphere, Sylinder.make]
  · rw [vol, EuclideanSpace.volume_ball_fin_three, ← ENNReal.ofReal_pow (by norm_num [Sylinder.make]), ← ENNReal.ofReal_mul (by norm_num [Sylinder.make]),
      ENNReal.toReal_ofReal (by have := Real.pi_pos; norm_num [Sylinder.make]; positivity)]
    have p1 := Real.pi_gt_d20
    norm_num [Sylinder.make, bodyVolume] at p1 ⊢
    linarith

/-- An upright rod of length 4 and radius 1. -/
private noncomputable def rod (x : ℝ) : Sylinder := Sylinder.make 0 1 1 4 4 ⟨x, 0, 0⟩

private theorem rod_axis (x : ℝ) (p : Space) (h : p ∈ axis (rod x)) : p 0 = x ∧ p 1 = 0 ∧ -2 ≤ p 2 ∧ p 2 ≤ 2 := by
  have e : (⟨1, 0, 0, 0⟩ : Quat).rot ⟨0, 0, 1⟩ = ⟨0, 0, 1⟩ := by
    ext <;> norm_num [Quat.rot, V3.cross, Quat.vec]
  obtain ⟨a, b, ha, hb, hab, rfl⟩ := h
  simp only [rod, Sylinder.make, e]
  norm_num [point, V3.add_x, V3.add_y, V3.add_z]
  have : a = 1 - b := by linarith
  subst this
  have e1 : (![x, 0, -2] : Fin 3 → ℝ) 2 = -2 := rfl
  have e2 : (![x, 0, 2] : Fin 3 → ℝ) 2 = 2 := rfl
  rw [e1, e2]
  refine ⟨by ring, by linarith, by linarith⟩

private theorem coord_le (p q : Space) (i : Fin 3) : |p i - q i| ≤ dist p q := by
  rw [dist_eq_norm]
  exact PiLp.norm_apply_le (p - q) i

/-- Two rods of length 4 and radius 1 at distance 2, on two ranks, in a box of 10 by 10 by 10. -/
example : ∃ ranks : List (List (List Sylinder)), ranks.flatten.flatten.length = 2 ∧ (∀ s ∈ ranks.flatten.flatten, Valid s) ∧ ranks.flatten.flatten.Pairwise Apart ∧
    ∀ s ∈ ranks.flatten.flatten, body s ⊆ box ⟨-5, -5, -5⟩ ⟨5, 5, 5⟩ := by
  have hv : ∀ x, Valid (rod x) := fun x => ⟨by simp [rod, Sylinder.make, Verif.Spec.UnitQuat], by norm_num [rod, Sylinder.make], by norm_num [rod, Sylinder.make]⟩
  have hb : ∀ x, |x| ≤ 1 → body (rod x) ⊆ box ⟨-5, -5, -5⟩ ⟨5, 5, 5⟩ := by
    rintro x hx p ⟨a, ha, hd⟩
    obtain ⟨h0, h1, h2, h3⟩ := rod_axis x a ha
    have hd' : dist p a < 1 := hd
    have k0 := abs_le.1 (coord_le p a 0)
    have k1 := abs_le.1 (coord_le p a 1)
    have k2 := abs_le.1 (coord_le p a 2)
    have := abs_le.1 hx
    refine ⟨?_, ?_, ?_, ?_, ?_, ?_⟩ <;> simp only <;> linarith [this.1, this.2, k0.1, k0.2, k1.1, k1.2, k2.1, k2.2]
  refine ⟨[[[rod (-1)]], [[], [rod 1]]], rfl, ?_, ?_, ?_⟩
  · simp [hv]
  · simp only [List.flatten, List.append, List.cons_append, List.nil_append, List.append_nil, List.pairwise_cons, List.mem_singleton, forall_eq, List.not_mem_nil, false_imp_iff, implies_true,
      List.Pairwise.nil, and_true]
    intro a ha b hb
    have h1 := (rod_axis _ a ha).1
    have h2 := (rod_axis _ b hb).1
    have := abs_le.1 (coord_le a b 0)
    have e : (rod (-1)).radius + (rod 1).radius = 2 := by norm_num [rod, Sylinder.make]
    rw [e]
    linarith [this.1]
  · simp [hb]

end Verif
