import Verif.Lemmas.Corner
import Verif.Props.Near
/-! Two rods that overlap and get no contact. -/
namespace Verif.Missed
open Verif.V3 Near Collector DCP Spec.Near

/-- Length of the slanted rod. -/
noncomputable def tilt : ℝ := √((1 + dblEps) ^ 2 + 4)

theorem tilt_sq : tilt ^ 2 = (1 + dblEps) ^ 2 + 4 := Real.sq_sqrt (by positivity)

theorem tilt_ge : 2 ≤ tilt := Real.le_sqrt_of_sq_le (by nlinarith [sq_nonneg (1 + dblEps)])

/-- A rod from `(2, 5/2, 2)` to `(3 + ε, 9/2, 2)` with the machine precision `ε`. -/
structure Slanted (x : EP) : Prop where
  pos : x.pos = ⟨2 + (1 + dblEps) / 2, 7 / 2, 2⟩
  direction : x.direction = ⟨(1 + dblEps) / tilt, 2 / tilt, 0⟩
  length : x.lengthCollision = tilt
  radius : x.radiusCollision = 2 / 5
  colBuf : x.colBuf = 3 / 10

/-- A rod from `(2, 2, 2)` to `(3, 2, 2)`. -/
structure Level (x : EP) : Prop where
  pos : x.pos = ⟨5 / 2, 2, 2⟩
  direction : x.direction = ⟨1, 0, 0⟩
  length : x.lengthCollision = 1
  radius : x.radiusCollision = 2 / 5
  colBuf : x.colBuf = 3 / 10

theorem Slanted.rod {x : EP} (h : Slanted x) : ¬ Sphere x := by
  unfold Sphere
  rw [h.length, h.radius]
  linarith [tilt_ge]

theorem Level.rod {x : EP} (h : Level x) : ¬ Sphere x := by
  unfold Sphere
  rw [h.length, h.radius]
  norm_num

theorem Slanted.valid {x : EP} (h : Slanted x) : Spec.Near.Valid x := by
  have ht := tilt_ge
  refine ⟨by rw [h.radius]; norm_num, by rw [h.length]; linarith, ?_⟩
  rw [h.direction, V3.norm, Real.sqrt_eq_one]
  simp only [normSq, dot]
  have : tilt ≠ 0 := by linarith
  field_simp
  linarith [tilt_sq]

theorem Level.valid {x : EP} (h : Level x) : Spec.Near.Valid x := by
  refine ⟨by rw [h.radius]; norm_num, by rw [h.length]; norm_num, ?_⟩
  rw [h.direction, V3.norm, Real.sqrt_eq_one]
  simp [normSq, dot]

/-- Their surfaces overlap by three tenths. -/
theorem overlap {x y : EP} (hx : Slanted x) (hy : Level y) : Separation x y (-(3 / 10)) := by
  have ht := tilt_ge
  have ht0 : tilt ≠ 0 := by linarith
  have r1 : Rad x + Rad y = 4 / 5 := by
    unfold Rad
    rw [if_neg hx.rod, if_neg hy.rod, hx.radius, hy.radius]
    norm_num
  rw [Separation, r1]
  refine ⟨⟨⟨2, 5 / 2, 2⟩, ⟨2, 2, 2⟩, .inr ⟨hx.rod, -(tilt / 2), ?_, ?_⟩, .inr ⟨hy.rod, -(1 / 2), ?_, ?_⟩, ?_⟩, ?_⟩
  · rw [hx.length, abs_neg, abs_of_pos (by linarith)]
  · rw [hx.pos, hx.direction]
    ext <;> simp <;> field_simp <;> ring
  · rw [hy.length]; norm_num
  · rw [hy.pos, hy.direction]
    ext <;> simp
    norm_num
  · have : normSq ((⟨2, 5 / 2, 2⟩ : V3) - ⟨2, 2, 2⟩) = (1 / 2) ^ 2 := by norm_num [normSq, dot]
    rw [V3.norm, this, Real.sqrt_sq (by norm_num)]
    norm_num
  · rintro p q (⟨h, -⟩ | ⟨-, a, ha, rfl⟩) hq
    · exact absurd h hx.rod
    rcases hq with ⟨h, -⟩ | ⟨-, b, -, rfl⟩
    · exact absurd h hy.rod
    have : (1 / 2 : ℝ) ≤ V3.norm (x.pos + a • x.direction - (y.pos + b • y.direction)) := by
      apply Real.le_sqrt_of_sq_le
      have hyc : (1 / 2 : ℝ) ≤ (x.pos + a • x.direction - (y.pos + b • y.direction)).y := by
        rw [hx.pos, hx.direction, hy.pos, hy.direction]
        simp only [sub_y, add_y, smul_y]
        have h1 : -(1 / 2) ≤ a / tilt := by
          rw [le_div_iff₀ (by linarith)]
          rw [hx.length] at ha
          linarith [(abs_le.1 ha).1]
        have e : a * (2 / tilt) = 2 * (a / tilt) := by ring
        rw [e]
        linarith
      simp only [normSq, dot]
      nlinarith [sq_nonneg (x.pos + a • x.direction - (y.pos + b • y.direction)).x, sq_nonneg (x.pos + a • x.direction - (y.pos + b • y.direction)).z]
    linarith

/-- No contact is recorded. -/
theorem missed {x y : EP} (hx : Slanted x) (hy : Level y) : collide x y = some none := by
  have ht := tilt_ge
  have ht0 : tilt ≠ 0 := by linarith
  unfold collide
  have s1 : isSphere x = false := by unfold isSphere; exact decide_eq_false hx.rod
  have s2 : isSphere y = false := by unfold isSphere; exact decide_eq_false hy.rod
  rw [s1, s2]
  simp only [Bool.false_eq_true, if_false]
  obtain ⟨r, hr, hd⟩ := query_corner ⟨2, 2, 2⟩ 1 (by norm_num)
  have e1 : x.pos - (0.5 * x.lengthCollision) • x.direction = (⟨2, 2, 2⟩ : V3) + ⟨0, 1 / 2, 0⟩ := by
    rw [hx.pos, hx.direction, hx.length]
    ext <;> simp <;> field_simp <;> ring
  have e2 : x.pos + (0.5 * x.lengthCollision) • x.direction = (⟨2, 2, 2⟩ : V3) + ⟨1 * (1 + dblEps), 1 * (5 / 2), 0⟩ := by
    rw [hx.pos, hx.direction, hx.length]
    ext <;> simp <;> field_simp <;> ring
  have e3 : y.pos - (0.5 * y.lengthCollision) • y.direction = ⟨2, 2, 2⟩ := by
    rw [hy.pos, hy.direction, hy.length]
    ext <;> norm_num
  have e4 : y.pos + (0.5 * y.lengthCollision) • y.direction = (⟨2, 2, 2⟩ : V3) + ⟨1, 0, 0⟩ := by
    rw [hy.pos, hy.direction, hy.length]
    ext <;> norm_num
  unfold sy_sy
  simp only [e1, e2, e3, e4, hr, Option.bind_some]
  rw [if_neg]
  rw [hx.radius, hy.radius, hx.colBuf, hy.colBuf]
  linarith

theorem recorded_none {x y : EP} (hx : Slanted x) (hy : Level y) : recorded x y = none := by
  unfold recorded
  rw [missed hx hy]
  rfl

end Verif.Missed
