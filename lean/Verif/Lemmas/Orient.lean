import Verif.Model.Orient
import Verif.Spec.Equatn
import Verif.Lemmas.Boundary
import Mathlib.Tactic.LinearCombination
namespace Verif.Orient
open Verif.V3

/-- A rotation about an axis orthogonal to a vector. -/
theorem rot_orthogonal (q : Quat) (v : V3) (h : dot q.vec v = 0) (hq : q.w ^ 2 + q.x ^ 2 + q.y ^ 2 + q.z ^ 2 = 1) :
    q.rot v = (q.w ^ 2 - (q.x ^ 2 + q.y ^ 2 + q.z ^ 2)) • v + (2 * q.w) • cross q.vec v := by
  have h' : q.x * v.x + q.y * v.y + q.z * v.z = 0 := h
  have e : q.w ^ 2 - (q.x ^ 2 + q.y ^ 2 + q.z ^ 2) = 1 - 2 * (q.x ^ 2 + q.y ^ 2 + q.z ^ 2) := by linarith
  rw [e]
  ext
  · simp [Quat.rot, Quat.vec, cross]; linear_combination (2 * q.x) * h'
  · simp [Quat.rot, Quat.vec, cross]; linear_combination (2 * q.y) * h'
  · simp [Quat.rot, Quat.vec, cross]; linear_combination (2 * q.z) * h'

/-- Away from opposite directions the quaternion is a unit quaternion turning `a` to `b`. -/
theorem fromTwoVectors_regular (svd : V3 → V3 → V3) (a b : V3) (ha : a ≠ 0) (hb : b ≠ 0)
    (hc : -1 + dummyPrecision ≤ dot b.normalized a.normalized) :
    Verif.Spec.UnitQuat (fromTwoVectors svd a b) ∧ (fromTwoVectors svd a b).rot a.normalized = b.normalized := by
  have ha1 : dot a.normalized a.normalized = 1 := normSq_one_of_norm _ (norm_normalized a ha)
  have hb1 : dot b.normalized b.normalized = 1 := normSq_one_of_norm _ (norm_normalized b hb)
  unfold fromTwoVectors
  simp only
  rw [if_neg (not_lt.2 hc)]
  set u := a.normalized
  set v := b.normalized
  set c := dot v u with hcd
  have hpos : 0 < 1 + c := by
    have : 0 < dummyPrecision := by norm_num [dummyPrecision]
    linarith
  set s := Real.sqrt ((1 + c) * 2) with hs
  have hs2 : s ^ 2 = (1 + c) * 2 := Real.sq_sqrt (by linarith)
  have hsp : 0 < s := Real.sqrt_pos.2 (by linarith)
  have hcross : (cross u v).x ^ 2 + (cross u v).y ^ 2 + (cross u v).z ^ 2 = 1 - c ^ 2 := by
    have : (cross u v).x ^ 2 + (cross u v).y ^ 2 + (cross u v).z ^ 2 = dot u u * dot v v - dot v u ^ 2 := by
      simp only [cross, dot]; ring
    rw [this, ha1, hb1, ← hcd]; ring
  have hn : (1 / s * (cross u v).x) ^ 2 + (1 / s * (cross u v).y) ^ 2 + (1 / s * (cross u v).z) ^ 2 = (1 - c) / 2 := by
    have : (1 / s * (cross u v).x) ^ 2 + (1 / s * (cross u v).y) ^ 2 + (1 / s * (cross u v).z) ^ 2 =
        ((cross u v).x ^ 2 + (cross u v).y ^ 2 + (cross u v).z ^ 2) / s ^ 2 := by field_simp
    rw [this, hcross, hs2]
    field_simp
    ring
  have hunit : (s * 0.5) ^ 2 + (1 / s * (cross u v).x) ^ 2 + (1 / s * (cross u v).y) ^ 2 + (1 / s * (cross u v).z) ^ 2 = 1 := by
    have : (s * 0.5) ^ 2 = (1 + c) / 2 := by
      have : (s * 0.5) ^ 2 = s ^ 2 / 4 := by ring
      rw [this, hs2]; ring
    rw [this]; linarith [hn]
  refine ⟨?_, ?_⟩
  · simp only [Verif.Spec.UnitQuat, smul_x, smul_y, smul_z]
    exact hunit
  · rw [rot_orthogonal]
    · simp only [smul_x, smul_y, smul_z]
      have e1 : (s * 0.5) ^ 2 - ((1 / s * (cross u v).x) ^ 2 + (1 / s * (cross u v).y) ^ 2 + (1 / s * (cross u v).z) ^ 2) = c := by
        have : (s * 0.5) ^ 2 = (1 + c) / 2 := by
          have : (s * 0.5) ^ 2 = s ^ 2 / 4 := by ring
          rw [this, hs2]; ring
        rw [this, hn]; ring
      rw [e1]
      have e2 : (Quat.vec ⟨s * 0.5, 1 / s * (cross u v).x, 1 / s * (cross u v).y, 1 / s * (cross u v).z⟩) = (1 / s) • cross u v := rfl
      rw [e2]
      have e3 : (2 * (s * 0.5)) • cross ((1 / s) • cross u v) u = cross (cross u v) u := by
        ext <;> simp [cross] <;> field_simp <;> ring
      rw [e3]
      have e4 : cross (cross u v) u = v - c • u := by
        have hx : cross (cross u v) u = dot u u • v - dot v u • u := by
          ext <;> simp [cross, dot] <;> ring
        rw [hx, ha1, ← hcd]
        ext <;> simp
      rw [e4]
      ext <;> simp
    · simp only [Quat.vec, dot, cross, smul_x, smul_y, smul_z]; ring
    · simp only [smul_x, smul_y, smul_z]
      exact hunit

/-- Exactly opposite directions, with a unit axis orthogonal to them. -/
theorem fromTwoVectors_opposite (svd : V3 → V3 → V3) (a b : V3) (ha : a ≠ 0) (hc : b.normalized = -a.normalized)
    (hax : V3.norm (svd a.normalized b.normalized) = 1 ∧ dot (svd a.normalized b.normalized) a.normalized = 0) :
    Verif.Spec.UnitQuat (fromTwoVectors svd a b) ∧ (fromTwoVectors svd a b).rot a.normalized = b.normalized := by
  have ha1 : dot a.normalized a.normalized = 1 := normSq_one_of_norm _ (norm_normalized a ha)
  have hx1 := normSq_one_of_norm _ hax.1
  have hcv : dot b.normalized a.normalized = -1 := by
    rw [hc]
    have : dot (-a.normalized) a.normalized = -dot a.normalized a.normalized := by simp [dot]; ring
    rw [this, ha1]
  unfold fromTwoVectors
  simp only [hcv]
  rw [if_pos (by norm_num [dummyPrecision])]
  set u := a.normalized
  set w := svd u b.normalized
  have hx1 : w.x * w.x + w.y * w.y + w.z * w.z = 1 := hx1
  have hunit : (Real.sqrt ((1 + max (-1 : ℝ) (-1)) * 0.5)) ^ 2 + (Real.sqrt (1 - (1 + max (-1 : ℝ) (-1)) * 0.5) * w.x) ^ 2 +
      (Real.sqrt (1 - (1 + max (-1 : ℝ) (-1)) * 0.5) * w.y) ^ 2 + (Real.sqrt (1 - (1 + max (-1 : ℝ) (-1)) * 0.5) * w.z) ^ 2 = 1 := by
    norm_num
    linarith
  refine ⟨?_, ?_⟩
  · simp only [Verif.Spec.UnitQuat, smul_x, smul_y, smul_z]
    exact hunit
  · rw [rot_orthogonal]
    · rw [hc]
      have e : -w.z ^ 2 + (-w.y ^ 2 + -w.x ^ 2) = -1 := by linarith
      norm_num
      rw [e]
      ext <;> simp
    · have := hax.2
      simp only [Quat.vec, dot, smul_x, smul_y, smul_z] at this ⊢
      norm_num
      exact this
    · simp only [smul_x, smul_y, smul_z]
      exact hunit

end Verif.Orient
