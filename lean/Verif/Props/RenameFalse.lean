import Verif.Props.Rename
/-!
C116: the names of two rods that are almost parallel decide where they touch.
-/
namespace Verif
open Near DCP V3

namespace Rename

/-- Two rods in a plane, of lengths 2 and 200, with centres at distance 1; the long one is turned by a small angle. -/
structure Tilt (c s : ℝ) : Prop where
  unit : c ^ 2 + s ^ 2 = 1
  cos : 9 / 10 ≤ c
  low : 1 / 2 ^ 41 ≤ s
  high : s ≤ 1 / 2 ^ 40

theorem tilt : ∃ c s, Tilt c s := by
  refine ⟨(1 - (1 / 2 ^ 41) ^ 2) / (1 + (1 / 2 ^ 41) ^ 2), 2 * (1 / 2 ^ 41) / (1 + (1 / 2 ^ 41) ^ 2), ?_, ?_, ?_, ?_⟩ <;> norm_num

variable {c s : ℝ}

theorem root_zero (eps slope h0 h1 : ℝ) (hs : slope = h1 - h0) (h1' : 0 < h1) (h : 0 ≤ h0) (he : eps ≤ h1) : getClampedRoot eps slope h0 h1 = some (0, false) := by
  unfold getClampedRoot
  rw [if_neg, if_neg, if_neg]
  · linarith
  · rintro ⟨-, h2⟩
    rw [abs_of_pos h1'] at h2
    linarith
  · rw [hs, sub_self, abs_zero, not_not]
    refine mul_pos (mul_pos (by norm_num) dblEps_pos) (lt_of_lt_of_le ?_ (le_max_left _ _))
    exact abs_pos.2 h1'.ne'

theorem root_one (eps slope h0 h1 : ℝ) (hs : slope = h1 - h0) (h0' : h0 < 0) (h : h1 ≤ 0) (he : eps ≤ -h0) : getClampedRoot eps slope h0 h1 = some (1, false) := by
  unfold getClampedRoot
  rw [if_neg, if_neg, if_pos h0', if_neg]
  · linarith
  · rintro ⟨h2, -⟩
    rw [abs_of_neg h0'] at h2
    linarith
  · rw [hs, sub_self, abs_zero, not_not]
    refine mul_pos (mul_pos (by norm_num) dblEps_pos) (lt_of_lt_of_le ?_ (le_max_right _ _))
    exact abs_pos.2 h0'.ne

theorem root_mid (eps slope h0 h1 : ℝ) (hs : slope = h1 - h0) (h0' : h0 < 0) (h : 0 < h1) (he : eps ≤ -h0) : getClampedRoot eps slope h0 h1 = some (-h0 / slope, false) := by
  have hp : 0 < slope := by linarith
  unfold getClampedRoot
  rw [if_neg, if_neg, if_pos h0', if_pos h, if_neg hp.ne']
  · have a1 : 0 ≤ -h0 / slope := div_nonneg (by linarith) hp.le
    have a2 : -h0 / slope ≤ 1 := by rw [div_le_one hp]; linarith
    rw [max_eq_left a1, min_eq_left a2]
  · rintro ⟨h2, -⟩
    rw [abs_of_neg h0'] at h2
    linarith
  · rw [hs, sub_self, abs_zero, not_not]
    refine mul_pos (mul_pos (by norm_num) dblEps_pos) (lt_of_lt_of_le ?_ (le_max_right _ _))
    exact abs_pos.2 h0'.ne

/-- With the short rod first the answer is the middle. -/
theorem short_first (h : Tilt c s) (k : Coef) (hk : k = ⟨4, 400 * c, 40000, 2 * (100 * c - 1), 200 * (100 - c - s)⟩) :
    parameters dblEps k = some ⟨1 / 2, 1 / 2, true⟩ := by
  have h1 := h.unit
  have h2 := h.cos
  have h3 := h.low
  have h4 := h.high
  have hc1 : c ≤ 1 := by nlinarith [sq_nonneg s]
  have hs0 : 0 < s := lt_of_lt_of_le (by norm_num) h3
  have he : dblEps ≤ 1 := by unfold dblEps; norm_num
  have hc0 : (0 : ℝ) < c := by linarith
  subst hk
  have r0 : getClampedRoot dblEps 4 (2 * (100 * c - 1)) (2 * (100 * c - 1) + 4) = some (0, false) := root_zero _ _ _ _ (by ring) (by linarith) (by linarith) (by linarith)
  have r1 : getClampedRoot dblEps 4 (2 * (100 * c - 1) - 400 * c) (2 * (100 * c - 1) + 4 - 400 * c) = some (1, false) := root_one _ _ _ _ (by ring) (by linarith) (by linarith) (by linarith)
  have q0 : ratio (2 * (100 * c - 1)) (400 * c) = some (2 * (100 * c - 1) / (400 * c)) := ratio_eq _ _ (by positivity) (div_nonneg (by linarith) (by positivity)) (by
    rw [div_le_one (by positivity)]; linarith)
  have q1 : ratio (2 * (100 * c - 1) + 4) (400 * c) = some ((2 * (100 * c - 1) + 4) / (400 * c)) := ratio_eq _ _ (by positivity) (div_nonneg (by linarith) (by positivity)) (by
    rw [div_le_one (by positivity)]; linarith)
  have hdel : (2 * (100 * c - 1) + 4) / (400 * c) - 2 * (100 * c - 1) / (400 * c) = 1 / (100 * c) := by field_simp; ring
  have hh0 : 1 / (100 * c) * ((-(400 * c) * 0 - 200 * (100 - c - s)) + 40000 * (2 * (100 * c - 1) / (400 * c))) = 2 * s / c - 2 * s ^ 2 / c ^ 2 := by
    have : s ^ 2 = 1 - c ^ 2 := by linarith
    rw [this]
    field_simp
    ring
  have hh1 : 1 / (100 * c) * ((-(400 * c) * 1 - 200 * (100 - c - s)) + 40000 * ((2 * (100 * c - 1) + 4) / (400 * c))) = 2 * s / c + 2 * s ^ 2 / c ^ 2 := by
    have : s ^ 2 = 1 - c ^ 2 := by linarith
    rw [this]
    field_simp
    ring
  have b1 : 0 ≤ 2 * s / c := by positivity
  have b2 : 2 * s / c ≤ 4 * s := by rw [div_le_iff₀ hc0]; nlinarith
  have b3 : 0 ≤ 2 * s ^ 2 / c ^ 2 := by positivity
  have b4 : 2 * s ^ 2 / c ^ 2 ≤ 4 * s ^ 2 := by
    have hc2 : 1 / 2 ≤ c ^ 2 := by nlinarith
    rw [div_le_iff₀ (by positivity)]
    nlinarith [mul_le_mul_of_nonneg_left hc2 (sq_nonneg s)]
  have b5 : 4 * s ^ 2 ≤ s := by nlinarith
  have b6 : 5 * s < 40000 * dblEps := by
    unfold dblEps
    have : (5 : ℝ) * (1 / 2 ^ 40) < 40000 * (1 / 2 ^ 52) := by norm_num
    linarith
  unfold parameters
  rw [if_pos (by norm_num)]
  simp only [Coef.f00, Coef.f10, Coef.f01, Coef.f11, r0, r1, Option.bind_eq_bind, Option.bind_some]
  have c0 : classify 0 = -1 := by unfold classify; simp
  have c1 : classify 1 = 1 := by unfold classify; norm_num
  rw [c0, c1, if_neg (by decide), if_neg (by decide)]
  have hint : computeIntersection ⟨4, 400 * c, 40000, 2 * (100 * c - 1), 200 * (100 - c - s)⟩ 0 1 (-1) 1 =
      some (⟨0, 0, 2 * (100 * c - 1) / (400 * c)⟩, ⟨1, 1, (2 * (100 * c - 1) + 4) / (400 * c)⟩) := by
    unfold computeIntersection
    rw [if_pos (by decide)]
    simp only [Coef.f00, Coef.f10, q0, q1, Option.bind_eq_bind, Option.bind_some]
    rw [if_neg (by decide)]
  rw [hint]
  simp only [Option.bind_some]
  unfold computeMinimum
  simp only [hdel, hh0, hh1]
  have e1 : |2 * s / c - 2 * s ^ 2 / c ^ 2| < |(40000 : ℝ)| * dblEps := by
    rw [abs_of_pos (by norm_num : (0 : ℝ) < 40000), abs_lt]
    constructor <;> linarith
  have e2 : |2 * s / c + 2 * s ^ 2 / c ^ 2| < |(40000 : ℝ)| * dblEps := by
    rw [abs_of_pos (by norm_num : (0 : ℝ) < 40000), abs_lt]
    constructor <;> linarith
  rw [if_pos ⟨e1, e2⟩]
  simp only [Option.bind_some, Option.some.injEq, Param.mk.injEq, Bool.true_or, and_true]
  constructor
  · norm_num
  · field_simp
    ring

/-- With the long rod first the answer is the end of the short one. -/
theorem long_first (h : Tilt c s) (k : Coef) (hk : k = ⟨40000, 400 * c, 4, -(200 * (100 - c - s)), -(2 * (100 * c - 1))⟩) :
    parameters dblEps k = some ⟨200 * (100 - c - s) / 40000, 0, false⟩ := by
  have h1 := h.unit
  have h2 := h.cos
  have h3 := h.low
  have h4 := h.high
  have hc1 : c ≤ 1 := by nlinarith [sq_nonneg s]
  have hs0 : 0 < s := lt_of_lt_of_le (by norm_num) h3
  have hs1 : s ≤ 1 := h4.trans (by norm_num)
  have he : dblEps ≤ 1 := by unfold dblEps; norm_num
  have hc0 : (0 : ℝ) < c := by linarith
  subst hk
  have r0 : getClampedRoot dblEps 40000 (-(200 * (100 - c - s))) (-(200 * (100 - c - s)) + 40000) = some (200 * (100 - c - s) / 40000, false) := by
    rw [root_mid _ _ _ _ (by ring) (by linarith) (by linarith) (by linarith), neg_neg]
  have r1 : getClampedRoot dblEps 40000 (-(200 * (100 - c - s)) - 400 * c) (-(200 * (100 - c - s)) + 40000 - 400 * c) = some ((200 * (100 - c - s) + 400 * c) / 40000, false) := by
    rw [root_mid _ _ _ _ (by ring) (by linarith) (by linarith) (by linarith)]
    congr 2
    ring
  unfold parameters
  rw [if_pos (by norm_num)]
  simp only [Coef.f00, Coef.f10, Coef.f01, Coef.f11, r0, r1, Option.bind_eq_bind, Option.bind_some]
  have c0 : classify (200 * (100 - c - s) / 40000) = 0 := by
    unfold classify
    rw [if_neg, if_neg]
    · rw [ge_iff_le, not_le, div_lt_one (by norm_num)]; linarith
    · rw [not_le]; exact div_pos (by linarith) (by norm_num)
  have c1 : classify ((200 * (100 - c - s) + 400 * c) / 40000) = 0 := by
    unfold classify
    rw [if_neg, if_neg]
    · rw [ge_iff_le, not_le, div_lt_one (by norm_num)]; linarith
    · rw [not_le]; exact div_pos (by linarith) (by norm_num)
  rw [c0, c1, if_neg (by decide), if_neg (by decide)]
  have hint : ∀ k x y, computeIntersection k x y 0 0 = some (⟨2, x, 0⟩, ⟨3, y, 1⟩) := by
    intro k x y
    unfold computeIntersection
    rw [if_neg (by decide), if_pos rfl]
    simp only [Option.bind_eq_bind]
    rw [if_neg (by decide), if_pos trivial]
  rw [hint]
  simp only [Option.bind_some]
  have hh0 : ((1 : ℝ) - 0) * ((-(400 * c) * (200 * (100 - c - s) / 40000) - -(2 * (100 * c - 1))) + 4 * 0) = 2 * s * (c - s) := by
    have : c ^ 2 = 1 - s ^ 2 := by linarith
    linear_combination 2 * this
  have hcs : 8 / 10 ≤ c - s := by
    have : (1 : ℝ) / 2 ^ 40 ≤ 1 / 10 := by norm_num
    linarith
  have hpos : 4 * dblEps ≤ 2 * s * (c - s) := by
    have : 4 * dblEps ≤ 2 * (1 / 2 ^ 41) * (8 / 10) := by unfold dblEps; norm_num
    nlinarith
  unfold computeMinimum
  simp only [hh0]
  rw [if_neg, if_pos]
  · simp [onEdge]
  · have := dblEps_pos
    show (0 : ℝ) ≤ _
    linarith
  · rintro ⟨h5, -⟩
    rw [abs_of_pos (by norm_num : (0 : ℝ) < 4)] at h5
    have := le_abs_self (2 * s * (c - s))
    linarith

/-- The short and the long rod. -/
noncomputable def short (g : ℤ) : EP := ⟨g, 0, 0, 9 / 20, 2, 9 / 20, 2, 3 / 10, 0, ⟨1, 0, 0⟩⟩
@[inherit_doc short] noncomputable def long (c s : ℝ) (g : ℤ) : EP := ⟨g, 1, 0, 9 / 20, 200, 9 / 20, 200, 3 / 10, ⟨0, 1, 0⟩, ⟨c, s, 0⟩⟩

theorem short_valid (g : ℤ) : Spec.Near.Valid (short g) :=
  ⟨by show (0 : ℝ) < 9 / 20; norm_num, by show (0 : ℝ) ≤ 2; norm_num, by
    show V3.norm (⟨1, 0, 0⟩ : V3) = 1
    norm_num [V3.norm, V3.normSq, V3.dot]⟩

theorem long_valid (h : Tilt c s) (g : ℤ) : Spec.Near.Valid (long c s g) :=
  ⟨by show (0 : ℝ) < 9 / 20; norm_num, by show (0 : ℝ) ≤ 200; norm_num, by
    show V3.norm (⟨c, s, 0⟩ : V3) = 1
    have : V3.normSq (⟨c, s, 0⟩ : V3) = 1 := by
      have := h.unit
      simp only [V3.normSq, V3.dot]
      linarith
    rw [V3.norm, this, Real.sqrt_one]⟩

/-- The contact of a rod with another one when the query is answered. -/
theorem sy_sy_of (I J : EP) (hI : Spec.Near.Valid I) (hJ : Spec.Near.Valid J) (h1 : isSphere I = false) (h2 : isSphere J = false) (r : Result)
    (hq : query dblEps (I.pos - (0.5 * I.lengthCollision) • I.direction) (I.pos + (0.5 * I.lengthCollision) • I.direction)
      (J.pos - (0.5 * J.lengthCollision) • J.direction) (J.pos + (0.5 * J.lengthCollision) • J.direction) = some r)
    (hsep : r.distance - (I.radiusCollision + J.radiusCollision) < I.radiusCollision * I.colBuf + J.radiusCollision * J.colBuf) :
    ∃ b, collide I J = some (some b) ∧ b.gidI = I.gid ∧ b.gidJ = J.gid ∧ b.posI = r.Ploc - I.pos ∧ b.posJ = r.Qloc - J.pos := by
  have hd := collide_defined I J hI hJ
  have hc : collide I J = sy_sy I J := by
    unfold collide
    rw [h1, h2]
    rfl
  rw [hc] at hd ⊢
  unfold sy_sy at hd ⊢
  simp only [hq, Option.bind_some, if_pos hsep, Option.bind_eq_bind] at hd ⊢
  cases hst : collideStress I.direction J.direction I.pos J.pos I.lengthCollision J.lengthCollision I.radiusCollision J.radiusCollision 1 r.Ploc r.Qloc with
  | none => rw [hst] at hd; simp at hd
  | some S => exact ⟨_, rfl, rfl, rfl, rfl, rfl⟩

theorem two_called {I J : EP} {b : Collector.Block} (hlt : I.gid < J.gid) (hc : collide I J = some (some b)) : operator [I, J] [] [I, J] = some [b] := by
  have a1 : sources I [] [I, J] = some [b] := by
    rw [sources, if_pos (le_refl _), sources, if_neg (by omega), hc]
    rfl
  have a2 : sources J [b] [I, J] = some [b] := by
    rw [sources, if_pos (by show _ ≥ _; omega), sources, if_pos (le_refl _)]
    rfl
  rw [operator, a1]
  show (sources J [b] [I, J]).bind _ = _
  rw [a2]
  rfl

theorem two_called' {I J : EP} {b : Collector.Block} (hlt : J.gid < I.gid) (hc : collide J I = some (some b)) : operator [I, J] [] [I, J] = some [b] := by
  have a1 : sources I [] [I, J] = some [] := by
    rw [sources, if_pos (le_refl _), sources, if_pos (by show _ ≥ _; omega)]
    rfl
  have a2 : sources J [] [I, J] = some [b] := by
    rw [sources, if_neg (by omega), hc]
    show sources J [b] [J] = _
    rw [sources, if_pos (le_refl _)]
    rfl
  rw [operator, a1]
  show (sources J [] [I, J]).bind _ = _
  rw [a2]
  rfl

end Rename
open Rename

/-- C116 is not true of all rods.  A rod of length 2 and one of length 200 whose centres are at distance 1 lie in a plane, turned by about `2^-40` against each other, and the code finds the contact of
the two.  If the short one has the smaller name it is touched at its centre, if it has the larger one it is touched at its end. -/
theorem C116_false : ∃ I J : EP, I.gid = 1 ∧ J.gid = 2 ∧ Spec.Near.Valid I ∧ Spec.Near.Valid J ∧ ∃ b b',
    operator [I, J] [] [I, J] = some [b] ∧ operator [{ I with gid := 2 }, { J with gid := 1 }] [] [{ I with gid := 2 }, { J with gid := 1 }] = some [b'] ∧
    b.gidI = 1 ∧ b'.gidJ = 2 ∧ b.posI = 0 ∧ b'.posJ = -I.direction := by
  obtain ⟨c, s, h⟩ := tilt
  have h1 := h.unit
  have h2 := h.cos
  have hs0 : 0 < s := lt_of_lt_of_le (by norm_num) h.low
  have hs1 : s ≤ 1 / 10 := h.high.trans (by norm_num)
  have kS : coef (0 - (0.5 * 2 : ℝ) • (⟨1, 0, 0⟩ : V3)) (0 + (0.5 * 2 : ℝ) • (⟨1, 0, 0⟩ : V3)) (⟨0, 1, 0⟩ - (0.5 * 200 : ℝ) • (⟨c, s, 0⟩ : V3)) (⟨0, 1, 0⟩ + (0.5 * 200 : ℝ) • (⟨c, s, 0⟩ : V3)) =
      ⟨4, 400 * c, 40000, 2 * (100 * c - 1), 200 * (100 - c - s)⟩ := by
    simp only [coef, V3.dot, V3.sub_x, V3.sub_y, V3.sub_z, V3.add_x, V3.add_y, V3.add_z, V3.smul_x, V3.smul_y, V3.smul_z, V3.zero_x, V3.zero_y, V3.zero_z, Coef.mk.injEq]
    refine ⟨by norm_num, by ring, ?_, by ring, ?_⟩
    · linear_combination 40000 * h1
    · linear_combination 20000 * h1
  have kL : coef (⟨0, 1, 0⟩ - (0.5 * 200 : ℝ) • (⟨c, s, 0⟩ : V3)) (⟨0, 1, 0⟩ + (0.5 * 200 : ℝ) • (⟨c, s, 0⟩ : V3)) (0 - (0.5 * 2 : ℝ) • (⟨1, 0, 0⟩ : V3)) (0 + (0.5 * 2 : ℝ) • (⟨1, 0, 0⟩ : V3)) =
      ⟨40000, 400 * c, 4, -(200 * (100 - c - s)), -(2 * (100 * c - 1))⟩ := by
    simp only [coef, V3.dot, V3.sub_x, V3.sub_y, V3.sub_z, V3.add_x, V3.add_y, V3.add_z, V3.smul_x, V3.smul_y, V3.smul_z, V3.zero_x, V3.zero_y, V3.zero_z, Coef.mk.injEq]
    refine ⟨?_, by ring, by norm_num, ?_, by ring⟩
    · linear_combination 40000 * h1
    · linear_combination -20000 * h1
  have sp1 : ∀ g, isSphere (short g) = false := fun g => decide_eq_false (by show ¬ (2 : ℝ) < 2 * (9 / 20); norm_num)
  have sp2 : ∀ g, isSphere (long c s g) = false := fun g => decide_eq_false (by show ¬ (200 : ℝ) < 2 * (9 / 20); norm_num)
  obtain ⟨b, hb, b1, -, b3, -⟩ := sy_sy_of (short 1) (long c s 2) (short_valid 1) (long_valid h 2) (sp1 1) (sp2 2) _ (query_eq _ _ _ _ _ _ (short_first h _ kS)) (by
    show Real.sqrt _ - ((9 / 20 : ℝ) + 9 / 20) < 9 / 20 * (3 / 10) + 9 / 20 * (3 / 10)
    have : ∀ x : ℝ, x = 1 → Real.sqrt x - ((9 / 20 : ℝ) + 9 / 20) < 9 / 20 * (3 / 10) + 9 / 20 * (3 / 10) := by
      rintro x rfl
      rw [Real.sqrt_one]
      norm_num
    apply this
    simp only [short, long, V3.normSq, V3.dot, V3.sub_x, V3.sub_y, V3.sub_z, V3.add_x, V3.add_y, V3.add_z, V3.smul_x, V3.smul_y, V3.smul_z, V3.zero_x, V3.zero_y, V3.zero_z]
    ring)
  obtain ⟨b', hb', -, b2', -, b4'⟩ := sy_sy_of (long c s 1) (short 2) (long_valid h 1) (short_valid 2) (sp2 1) (sp1 2) _ (query_eq _ _ _ _ _ _ (long_first h _ kL)) (by
    show Real.sqrt _ - ((9 / 20 : ℝ) + 9 / 20) < 9 / 20 * (3 / 10) + 9 / 20 * (3 / 10)
    have : ∀ x : ℝ, x = (c - s) ^ 2 → Real.sqrt x - ((9 / 20 : ℝ) + 9 / 20) < 9 / 20 * (3 / 10) + 9 / 20 * (3 / 10) := by
      rintro x rfl
      rw [Real.sqrt_sq (by linarith)]
      have : c ≤ 1 := by nlinarith [sq_nonneg s]
      linarith
    apply this
    simp only [short, long, V3.normSq, V3.dot, V3.sub_x, V3.sub_y, V3.sub_z, V3.add_x, V3.add_y, V3.add_z, V3.smul_x, V3.smul_y, V3.smul_z, V3.zero_x, V3.zero_y, V3.zero_z]
    linear_combination ((c ^ 2 + s ^ 2) + 2 * c * s - 2) * h1)
  refine ⟨short 1, long c s 2, rfl, rfl, short_valid 1, long_valid h 2, b, b', two_called (show (1 : ℤ) < 2 by norm_num) hb, two_called' (show (1 : ℤ) < 2 by norm_num) hb', b1, b2', ?_, ?_⟩
  · rw [b3]
    ext <;> simp [short] <;> norm_num
  · rw [b4']
    ext <;> simp [short]
    norm_num

end Verif
