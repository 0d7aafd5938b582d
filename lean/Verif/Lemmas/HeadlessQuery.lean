import Verif.Props.DCPError
/-! The distance query with the ends of a segment exchanged. -/
namespace Verif.DCP
open Verif.V3 Verif.Spec.DCP

/-- The coefficients with the ends of the first segment exchanged. -/
def Coef.overP (k : Coef) : Coef := ⟨k.a, -k.b, k.c, -(k.d + k.a), k.e + k.b⟩

/-- The coefficients with the ends of the second segment exchanged. -/
def Coef.overQ (k : Coef) : Coef := ⟨k.a, -k.b, k.c, k.d - k.b, k.c - k.e⟩

theorem coef_overP (P0 P1 Q0 Q1 : V3) : coef P1 P0 Q0 Q1 = (coef P0 P1 Q0 Q1).overP := by
  unfold coef Coef.overP
  simp only [dot, sub_x, sub_y, sub_z, Coef.mk.injEq]
  refine ⟨?_, ?_, ?_, ?_, ?_⟩ <;> first | trivial | ring

theorem coef_overQ (P0 P1 Q0 Q1 : V3) : coef P0 P1 Q1 Q0 = (coef P0 P1 Q0 Q1).overQ := by
  unfold coef Coef.overQ
  simp only [dot, sub_x, sub_y, sub_z, Coef.mk.injEq]
  refine ⟨?_, ?_, ?_, ?_, ?_⟩ <;> first | trivial | ring

theorem root_over (eps slope h0 h1 : ℝ) (hs : slope = h1 - h0) (hp : 0 < slope) :
    getClampedRoot eps slope (-h1) (-h0) = (getClampedRoot eps slope h0 h1).map fun r => (1 - r.1, r.2) := by
  unfold getClampedRoot
  have e1 : slope - (-h0 - -h1) = slope - (h1 - h0) := by ring
  rw [e1, abs_neg, abs_neg, max_comm |h0| |h1|]
  by_cases hass : ¬ |slope - (h1 - h0)| < 10 * dblEps * max |h1| |h0|
  · rw [if_pos hass, if_pos hass]; rfl
  rw [if_neg hass, if_neg hass]
  by_cases hm : |h0| < eps ∧ |h1| < eps
  · rw [if_pos hm, if_pos hm.symm]
    norm_num
  rw [if_neg hm, if_neg fun h => hm h.symm]
  have hne : slope ≠ 0 := hp.ne'
  by_cases h0' : h0 < 0
  · by_cases h1' : h1 > 0
    · rw [if_pos (by linarith : -h1 < 0), if_pos (by linarith : -h0 > 0), if_neg hne, if_pos h0', if_pos h1', if_neg hne]
      have r0 : 0 ≤ -h0 / slope := div_nonneg (by linarith) hp.le
      have r1 : -h0 / slope ≤ 1 := by rw [div_le_one hp]; linarith
      have q0 : 0 ≤ -(-h1) / slope := div_nonneg (by linarith) hp.le
      have q1 : -(-h1) / slope ≤ 1 := by rw [div_le_one hp]; linarith
      rw [max_eq_left r0, min_eq_left r1, max_eq_left q0, min_eq_left q1]
      have e : -(-h1) / slope = 1 - -h0 / slope := by field_simp; linarith
      rw [e]
      rfl
    · rw [if_neg (by linarith : ¬ -h1 < 0), if_pos h0', if_neg h1']
      norm_num
  · rw [if_neg h0', if_pos (by linarith : -h1 < 0), if_neg (by linarith : ¬ -h0 > 0)]
    norm_num

theorem classify_over (s : ℝ) : classify (1 - s) = -classify s := by
  rcases classify_cases s with ⟨h, e⟩ | ⟨h, e⟩ | ⟨h, h', e⟩ <;> rcases classify_cases (1 - s) with ⟨g, i⟩ | ⟨g, i⟩ | ⟨g, g', i⟩ <;> rw [e, i] <;> (try norm_num) <;> linarith

theorem ratio_neg (n b : ℝ) : ratio (-n) (-b) = ratio n b := by
  unfold ratio
  simp only [neg_div_neg_eq, neg_eq_zero]

theorem ratio_over (n b : ℝ) : ratio (n - b) (-b) = (ratio n b).map fun r => 1 - r := by
  unfold ratio
  by_cases hb : b = 0
  · simp [hb]
  have e : (n - b) / -b = 1 - n / b := by
    field_simp
    ring
  simp only [neg_eq_zero, if_neg hb, e]
  by_cases h : n / b < 0 ∨ n / b > 1
  · rw [if_pos h, if_pos (h.elim (fun h => .inr (by linarith)) fun h => .inl (by linarith))]
    norm_num
  · rw [if_neg h, if_neg (by push Not at h ⊢; exact ⟨by linarith [h.2], by linarith [h.1]⟩)]
    rfl

/-- An end of the segment of intersection when the first segment is turned over. -/
def End.overP (e : End) : End := ⟨if e.edge = 0 then 1 else if e.edge = 1 then 0 else e.edge, 1 - e.s, e.t⟩

/-- An end of the segment of intersection when the second segment is turned over. -/
def End.overQ (e : End) : End := ⟨if e.edge = 2 then 3 else if e.edge = 3 then 2 else e.edge, e.s, 1 - e.t⟩

theorem intersection_overP (k : Coef) (s0 s1 : ℝ) : computeIntersection k.overP (1 - s0) (1 - s1) (classify (1 - s0)) (classify (1 - s1)) =
    if classify s0 = 0 ∨ classify s1 = 0 ∨ classify s0 ≠ classify s1 then (computeIntersection k s0 s1 (classify s0) (classify s1)).map fun es => (es.1.overP, es.2.overP)
    else computeIntersection k.overP (1 - s0) (1 - s1) (classify (1 - s0)) (classify (1 - s1)) := by
  have f0 : k.overP.f00 = -k.f10 := rfl
  have f1 : k.overP.f10 = -k.f00 := by show -(k.d + k.a) + k.a = -k.d; ring
  have fb : k.overP.b = -k.b := rfl
  split_ifs with h
  · rw [classify_over, classify_over]
    unfold computeIntersection
    rw [f0, f1, fb, ratio_neg, ratio_neg]
    generalize ratio k.f00 k.b = r0 at *
    generalize ratio k.f10 k.b = r1 at *
    rcases classify_cases s0 with ⟨-, e⟩ | ⟨-, e⟩ | ⟨-, -, e⟩ <;> rcases classify_cases s1 with ⟨-, i⟩ | ⟨-, i⟩ | ⟨-, -, i⟩ <;> rw [e, i] at h ⊢ <;>
      (try (exfalso; revert h; decide)) <;> cases r0 <;> cases r1 <;> simp [End.overP]
  · rfl

theorem intersection_overQ (k : Coef) (s0 s1 : ℝ) (h : classify s0 = 0 ∨ classify s1 = 0 ∨ classify s0 ≠ classify s1) :
    computeIntersection k.overQ s1 s0 (classify s1) (classify s0) = (computeIntersection k s0 s1 (classify s0) (classify s1)).map fun es => (es.2.overQ, es.1.overQ) := by
  have f0 : k.overQ.f00 = k.f00 - k.b := rfl
  have f1 : k.overQ.f10 = k.f10 - k.b := by show k.d - k.b + k.a = k.d + k.a - k.b; ring
  have fb : k.overQ.b = -k.b := rfl
  unfold computeIntersection
  rw [f0, f1, fb, ratio_over, ratio_over]
  generalize ratio k.f00 k.b = r0 at *
  generalize ratio k.f10 k.b = r1 at *
  rcases classify_cases s0 with ⟨-, e⟩ | ⟨-, e⟩ | ⟨-, -, e⟩ <;> rcases classify_cases s1 with ⟨-, i⟩ | ⟨-, i⟩ | ⟨-, -, i⟩ <;> rw [e, i] at h ⊢ <;>
      (try (exfalso; revert h; decide)) <;> cases r0 <;> cases r1 <;> simp [End.overQ]

def Param.overP (p : Param) : Param := ⟨1 - p.s, p.t, p.mid⟩
def Param.overQ (p : Param) : Param := ⟨p.s, 1 - p.t, p.mid⟩

theorem minimum_overP (eps : ℝ) (k : Coef) (e0 e1 : End) : computeMinimum eps k.overP e0.overP e1.overP = (computeMinimum eps k e0 e1).map Param.overP := by
  have edge : ∀ e : End, onEdge eps k.overP e.overP = (onEdge eps k e).map Param.overP := by
    intro e
    have g0 : k.overP.g00 = k.g10 := by show -(k.e + k.b) = -k.e - k.b; ring
    have g1 : k.overP.g01 = k.g11 := by show -(k.e + k.b) + k.c = -k.e - k.b + k.c; ring
    have g2 : k.overP.g10 = k.g00 := by show -(k.e + k.b) - -k.b = -k.e; ring
    have g3 : k.overP.g11 = k.g01 := by show -(k.e + k.b) - -k.b + k.c = -k.e + k.c; ring
    have gc : k.overP.c = k.c := rfl
    unfold onEdge
    rw [g0, g1, g2, g3, gc]
    by_cases h0 : e.edge = 0
    · have : e.overP.edge = 1 := by simp [End.overP, h0]
      rw [if_neg (by rw [this]; decide), if_pos this, if_pos h0]
      cases getClampedRoot eps k.c k.g00 k.g01 <;> simp [Param.overP]
    · by_cases h1 : e.edge = 1
      · have : e.overP.edge = 0 := by simp [End.overP, h1]
        rw [if_pos this, if_neg h0, if_pos h1]
        cases getClampedRoot eps k.c k.g10 k.g11 <;> simp [Param.overP]
      · have : e.overP.edge = e.edge := by simp [End.overP, h0, h1]
        rw [if_neg (by rw [this]; exact h0), if_neg (by rw [this]; exact h1), if_neg h0, if_neg h1]
        rfl
  unfold computeMinimum
  have hh : ∀ e : End, -k.overP.b * e.overP.s - k.overP.e + k.overP.c * e.overP.t = -k.b * e.s - k.e + k.c * e.t := by
    intro e
    show -(-k.b) * (1 - e.s) - (k.e + k.b) + k.c * e.t = _
    ring
  have hd : e1.overP.t - e0.overP.t = e1.t - e0.t := rfl
  have hc : k.overP.c = k.c := rfl
  simp only [hh, hd]
  simp only [hc]
  have hb : ∀ z m, (⟨(1 - z) * e0.overP.s + z * e1.overP.s, (1 - z) * e0.overP.t + z * e1.overP.t, m⟩ : Param) =
      Param.overP ⟨(1 - z) * e0.s + z * e1.s, (1 - z) * e0.t + z * e1.t, m⟩ := by
    intro z m
    show (⟨(1 - z) * (1 - e0.s) + z * (1 - e1.s), _, m⟩ : Param) = ⟨1 - ((1 - z) * e0.s + z * e1.s), _, m⟩
    congr 1
    ring
  simp only [hb, edge]
  split_ifs
  · rfl
  · rfl
  · rfl
  · generalize getClampedRoot eps _ _ _ = o
    cases o <;> rfl

theorem minimum_overQ (eps : ℝ) (k : Coef) (e0 e1 : End) (hc0 : 0 < k.c) (heps : 0 < eps)
    (hmono : (e1.t - e0.t) * ((-k.b * e0.s - k.e) + k.c * e0.t) ≤ (e1.t - e0.t) * ((-k.b * e1.s - k.e) + k.c * e1.t)) :
    computeMinimum eps k.overQ e1.overQ e0.overQ = (computeMinimum eps k e0 e1).map Param.overQ := by
  have edge : ∀ e : End, onEdge eps k.overQ e.overQ = (onEdge eps k e).map Param.overQ := by
    intro e
    have g0 : k.overQ.g00 = -k.g01 := by show -(k.c - k.e) = -(-k.e + k.c); ring
    have g1 : k.overQ.g01 = -k.g00 := by show -(k.c - k.e) + k.c = -(-k.e); ring
    have g2 : k.overQ.g10 = -k.g11 := by show -(k.c - k.e) - -k.b = -(-k.e - k.b + k.c); ring
    have g3 : k.overQ.g11 = -k.g10 := by show -(k.c - k.e) - -k.b + k.c = -(-k.e - k.b); ring
    have gc : k.overQ.c = k.c := rfl
    unfold onEdge
    rw [g0, g1, g2, g3, gc, root_over eps k.c k.g00 k.g01 (by simp [Coef.g01]) hc0, root_over eps k.c k.g10 k.g11 (by simp [Coef.g11]) hc0]
    by_cases h0 : e.edge = 0
    · have : e.overQ.edge = 0 := by simp [End.overQ, h0]
      rw [if_pos this, if_pos h0]
      cases getClampedRoot eps k.c k.g00 k.g01 <;> simp [Param.overQ]
    · by_cases h1 : e.edge = 1
      · have : e.overQ.edge = 1 := by simp [End.overQ, h1]
        rw [if_neg (by rw [this]; decide), if_pos this, if_neg h0, if_pos h1]
        cases getClampedRoot eps k.c k.g10 k.g11 <;> simp [Param.overQ]
      · have t0 : e.overQ.edge ≠ 0 := by unfold End.overQ; dsimp only; split_ifs <;> simp_all
        have t1 : e.overQ.edge ≠ 1 := by unfold End.overQ; dsimp only; split_ifs <;> simp_all
        rw [if_neg t0, if_neg t1, if_neg h0, if_neg h1]
        rfl
  unfold computeMinimum
  have hh : ∀ e : End, -k.overQ.b * e.overQ.s - k.overQ.e + k.overQ.c * e.overQ.t = -(-k.b * e.s - k.e + k.c * e.t) := by
    intro e
    show -(-k.b) * e.s - (k.c - k.e) + k.c * (1 - e.t) = _
    ring
  have hd : e0.overQ.t - e1.overQ.t = e1.t - e0.t := by show (1 - e0.t) - (1 - e1.t) = _; ring
  have hc : k.overQ.c = k.c := rfl
  have hb : ∀ z m, (⟨(1 - z) * e1.overQ.s + z * e0.overQ.s, (1 - z) * e1.overQ.t + z * e0.overQ.t, m⟩ : Param) =
      Param.overQ ⟨(1 - (1 - z)) * e0.s + (1 - z) * e1.s, (1 - (1 - z)) * e0.t + (1 - z) * e1.t, m⟩ := by
    intro z m
    show (⟨(1 - z) * e1.s + z * e0.s, (1 - z) * (1 - e1.t) + z * (1 - e0.t), m⟩ : Param) = ⟨(1 - (1 - z)) * e0.s + (1 - z) * e1.s, 1 - ((1 - (1 - z)) * e0.t + (1 - z) * e1.t), m⟩
    congr 1 <;> ring
  simp only [hh, hd]
  simp only [hc, mul_neg, abs_neg, hb, edge]
  generalize (e1.t - e0.t) * ((-k.b * e0.s - k.e) + k.c * e0.t) = h0 at *
  generalize (e1.t - e0.t) * ((-k.b * e1.s - k.e) + k.c * e1.t) = h1 at *
  by_cases hs : |h0| < |k.c| * eps ∧ |h1| < |k.c| * eps
  · rw [if_pos hs, if_pos hs.symm]
    norm_num
  rw [if_neg hs, if_neg fun h => hs h.symm]
  by_cases hp : h0 ≥ 0
  · rw [if_pos hp]
    by_cases hn : h1 ≤ 0
    · exfalso
      have a0 : h0 = 0 := by linarith
      have a1 : h1 = 0 := by linarith
      refine hs ?_
      rw [a0, a1, abs_zero]
      have : 0 < |k.c| * eps := mul_pos (abs_pos.2 hc0.ne') heps
      exact ⟨this, this⟩
    · rw [if_neg (by linarith : ¬ -h1 ≥ 0), if_pos (by linarith : -h0 ≤ 0)]
  · rw [if_neg hp]
    by_cases hn : h1 ≤ 0
    · rw [if_pos hn, if_pos (by linarith : -h1 ≥ 0)]
    · rw [if_neg hn, if_neg (by linarith : ¬ -h1 ≥ 0), if_neg (by linarith : ¬ -h0 ≤ 0), show -h0 - -h1 = h1 - h0 by ring, root_over eps (h1 - h0) h0 h1 rfl (by linarith)]
      cases getClampedRoot eps (h1 - h0) h0 h1 <;> simp

theorem parameters_overP (eps : ℝ) (k : Coef) (ha : 0 < k.a) (hc : 0 < k.c) : parameters eps k.overP = (parameters eps k).map Param.overP := by
  have f0 : k.overP.f00 = -k.f10 := rfl
  have f1 : k.overP.f10 = -k.f00 := by show -(k.d + k.a) + k.a = -k.d; ring
  have f2 : k.overP.f01 = -k.f11 := by show -(k.d + k.a) - -k.b = -(k.d + k.a - k.b); ring
  have f3 : k.overP.f11 = -k.f01 := by show -(k.d + k.a) + k.a - -k.b = -(k.d - k.b); ring
  have g0 : k.overP.g00 = k.g10 := by show -(k.e + k.b) = -k.e - k.b; ring
  have g1 : k.overP.g01 = k.g11 := by show -(k.e + k.b) + k.c = -k.e - k.b + k.c; ring
  have g2 : k.overP.g10 = k.g00 := by show -(k.e + k.b) - -k.b = -k.e; ring
  have g3 : k.overP.g11 = k.g01 := by show -(k.e + k.b) - -k.b + k.c = -k.e + k.c; ring
  have ga : k.overP.a = k.a := rfl
  have gc : k.overP.c = k.c := rfl
  unfold parameters
  rw [ga, gc, if_pos ⟨ha, hc⟩, if_pos ⟨ha, hc⟩, f0, f1, f2, f3, g0, g1, g2, g3, root_over eps k.a k.f00 k.f10 (by simp [Coef.f10]) ha,
    root_over eps k.a k.f01 k.f11 (by simp [Coef.f10, Coef.f11, Coef.f01]) ha]
  cases getClampedRoot eps k.a k.f00 k.f10 with
  | none => rfl
  | some r0 =>
    cases getClampedRoot eps k.a k.f01 k.f11 with
    | none => rfl
    | some r1 =>
      simp only [Option.map_some, Option.bind_eq_bind, Option.bind_some]
      by_cases hn : classify r0.1 = -1 ∧ classify r1.1 = -1
      · rw [if_pos hn, if_neg (by rw [classify_over, classify_over, hn.1, hn.2]; decide), if_pos (by rw [classify_over, classify_over, hn.1, hn.2]; decide)]
        cases getClampedRoot eps k.c k.g00 k.g01 <;> simp [Param.overP]
      · by_cases hp : classify r0.1 = 1 ∧ classify r1.1 = 1
        · rw [if_neg hn, if_pos hp, if_pos (by rw [classify_over, classify_over, hp.1, hp.2]; decide)]
          cases getClampedRoot eps k.c k.g10 k.g11 <;> simp [Param.overP]
        · have hmix : classify r0.1 = 0 ∨ classify r1.1 = 0 ∨ classify r0.1 ≠ classify r1.1 := by
            rcases classify_cases r0.1 with ⟨-, e⟩ | ⟨-, e⟩ | ⟨-, -, e⟩ <;> rcases classify_cases r1.1 with ⟨-, i⟩ | ⟨-, i⟩ | ⟨-, -, i⟩ <;> rw [e, i] at hn hp ⊢ <;> revert hn hp <;> decide
          rw [if_neg hn, if_neg hp, if_neg (by rw [classify_over, classify_over]; intro h; exact hp ⟨by omega, by omega⟩),
            if_neg (by rw [classify_over, classify_over]; intro h; exact hn ⟨by omega, by omega⟩), intersection_overP, if_pos hmix]
          cases computeIntersection k r0.1 r1.1 (classify r0.1) (classify r1.1) with
          | none => rfl
          | some es =>
            simp only [Option.map_some, Option.bind_some, minimum_overP]
            cases computeMinimum eps k es.1 es.2 <;> rfl

theorem parameters_overQ (eps : ℝ) (k : Coef) (hcs : k.b ^ 2 ≤ k.a * k.c) (heps : 0 < eps) (ha : 2 * eps ≤ k.a) (hc : 0 < k.c) : parameters eps k.overQ = (parameters eps k).map Param.overQ := by
  have ha0 : 0 < k.a := by linarith
  have f0 : k.overQ.f00 = k.f01 := rfl
  have f1 : k.overQ.f10 = k.f11 := by show k.d - k.b + k.a = k.d + k.a - k.b; ring
  have f2 : k.overQ.f01 = k.f00 := by show k.d - k.b - -k.b = k.d; ring
  have f3 : k.overQ.f11 = k.f10 := by show k.d - k.b + k.a - -k.b = k.d + k.a; ring
  have g0 : k.overQ.g00 = -k.g01 := by show -(k.c - k.e) = -(-k.e + k.c); ring
  have g1 : k.overQ.g01 = -k.g00 := by show -(k.c - k.e) + k.c = -(-k.e); ring
  have g2 : k.overQ.g10 = -k.g11 := by show -(k.c - k.e) - -k.b = -(-k.e - k.b + k.c); ring
  have g3 : k.overQ.g11 = -k.g10 := by show -(k.c - k.e) - -k.b + k.c = -(-k.e - k.b); ring
  have ga : k.overQ.a = k.a := rfl
  have gc : k.overQ.c = k.c := rfl
  unfold parameters
  rw [ga, gc, if_pos ⟨ha0, hc⟩, if_pos ⟨ha0, hc⟩, f0, f1, f2, f3, g0, g1, g2, g3, root_over eps k.c k.g00 k.g01 (by simp [Coef.g01]) hc, root_over eps k.c k.g10 k.g11 (by simp [Coef.g11]) hc]
  obtain ⟨s0, m0, hs0, hs0l, hs0h, hr0, -⟩ := getClampedRoot_some eps k.a k.f00 k.f10 (by simp [Coef.f10]) ha0
  obtain ⟨s1, m1, hs1, hs1l, hs1h, hr1, -⟩ := getClampedRoot_some eps k.a k.f01 k.f11 (by simp [Coef.f10, Coef.f11, Coef.f01]) ha0
  have hm0 := getClampedRoot_exact eps k.a k.f00 k.f10 (by simp [Coef.f10]) ha0 ha s0 m0 hs0
  have hm1 := getClampedRoot_exact eps k.a k.f01 k.f11 (by simp [Coef.f10, Coef.f11, Coef.f01]) ha0 ha s1 m1 hs1
  subst hm0 hm1
  simp only [hs0, hs1, Option.bind_eq_bind, Option.bind_some]
  by_cases hn : classify s0 = -1 ∧ classify s1 = -1
  · rw [if_pos hn, if_pos hn.symm]
    cases getClampedRoot eps k.c k.g00 k.g01 <;> simp [Param.overQ]
  by_cases hp : classify s0 = 1 ∧ classify s1 = 1
  · rw [if_neg hn, if_neg fun h => hn h.symm, if_pos hp, if_pos hp.symm]
    cases getClampedRoot eps k.c k.g10 k.g11 <;> simp [Param.overQ]
  have hmix : classify s0 = 0 ∨ classify s1 = 0 ∨ classify s0 ≠ classify s1 := by
    rcases classify_cases s0 with ⟨-, e⟩ | ⟨-, e⟩ | ⟨-, -, e⟩ <;> rcases classify_cases s1 with ⟨-, i⟩ | ⟨-, i⟩ | ⟨-, -, i⟩ <;> rw [e, i] at hn hp ⊢ <;> revert hn hp <;> decide
  rw [if_neg hn, if_neg fun h => hn h.symm, if_neg hp, if_neg fun h => hp h.symm, intersection_overQ k s0 s1 hmix]
  obtain ⟨e0, e1, hee, l0, l1, -⟩ := computeIntersection_spec k ha0 s0 s1 (hr0 rfl) (hr1 rfl) hn hp
  rw [hee]
  simp only [Option.map_some, Option.bind_some]
  rw [minimum_overQ eps k e0 e1 hc heps ?_]
  · cases computeMinimum eps k e0 e1 <;> rfl
  · have d0 := l0.line
    have d1 := l1.line
    unfold F at d0 d1
    have e : k.a * ((e1.t - e0.t) * (-k.b * e1.s - k.e + k.c * e1.t) - (e1.t - e0.t) * (-k.b * e0.s - k.e + k.c * e0.t)) = (k.a * k.c - k.b ^ 2) * (e1.t - e0.t) ^ 2 := by
      have : k.a * (e1.s - e0.s) = k.b * (e1.t - e0.t) := by linarith
      have e' : k.a * ((e1.t - e0.t) * (-k.b * e1.s - k.e + k.c * e1.t) - (e1.t - e0.t) * (-k.b * e0.s - k.e + k.c * e0.t)) =
          (e1.t - e0.t) * (-k.b * (k.a * (e1.s - e0.s)) + k.a * k.c * (e1.t - e0.t)) := by ring
      rw [e', this]
      ring
    have h2 : 0 ≤ (k.a * k.c - k.b ^ 2) * (e1.t - e0.t) ^ 2 := mul_nonneg (by linarith) (sq_nonneg _)
    rw [← e] at h2
    have := nonneg_of_mul_nonneg_right h2 ha0
    linarith

theorem coef_cs (P0 P1 Q0 Q1 : V3) : (coef P0 P1 Q0 Q1).b ^ 2 ≤ (coef P0 P1 Q0 Q1).a * (coef P0 P1 Q0 Q1).c := by
  unfold coef
  simp only
  generalize P1 - P0 = u
  generalize Q1 - Q0 = w
  simp only [dot]
  nlinarith [sq_nonneg (u.x * w.y - u.y * w.x), sq_nonneg (u.y * w.z - u.z * w.y), sq_nonneg (u.z * w.x - u.x * w.z)]

/-- The closest points found do not depend on which end of a segment comes first. -/
theorem query_overP (eps : ℝ) (P0 P1 Q0 Q1 : V3) (ha : 0 < normSq (P1 - P0)) (hc : 0 < normSq (Q1 - Q0)) :
    (query eps P1 P0 Q0 Q1).map (fun r => (r.distance, r.Ploc, r.Qloc)) = (query eps P0 P1 Q0 Q1).map fun r => (r.distance, r.Ploc, r.Qloc) := by
  unfold query
  rw [coef_overP, parameters_overP eps _ ha hc]
  cases parameters eps (coef P0 P1 Q0 Q1) with
  | none => rfl
  | some p =>
    have e : (1 - (1 - p.s)) • P1 + (1 - p.s) • P0 = (1 - p.s) • P0 + p.s • P1 := by ext <;> simp <;> ring
    simp only [Option.map_some, Option.bind_eq_bind, Option.bind_some, Param.overP, e]

theorem query_overQ (eps : ℝ) (P0 P1 Q0 Q1 : V3) (heps : 0 < eps) (ha : 2 * eps ≤ normSq (P1 - P0)) (hc : 0 < normSq (Q1 - Q0)) :
    (query eps P0 P1 Q1 Q0).map (fun r => (r.distance, r.Ploc, r.Qloc)) = (query eps P0 P1 Q0 Q1).map fun r => (r.distance, r.Ploc, r.Qloc) := by
  unfold query
  rw [coef_overQ, parameters_overQ eps _ (coef_cs P0 P1 Q0 Q1) heps ha hc]
  cases parameters eps (coef P0 P1 Q0 Q1) with
  | none => rfl
  | some p =>
    have e : (1 - (1 - p.t)) • Q1 + (1 - p.t) • Q0 = (1 - p.t) • Q0 + p.t • Q1 := by ext <;> simp <;> ring
    simp only [Option.map_some, Option.bind_eq_bind, Option.bind_some, Param.overQ, e]

theorem distPointSeg_over (p a b : V3) : distPointSeg p b a = distPointSeg p a b := by
  suffices h : (distPointSeg p b a).2 = (distPointSeg p a b).2 by
    have e : ∀ a b, distPointSeg p a b = (Real.sqrt (dot (p - (distPointSeg p a b).2) (p - (distPointSeg p a b).2)), (distPointSeg p a b).2) := fun _ _ => rfl
    rw [e b a, e a b, h]
  unfold distPointSeg
  simp only
  have e1 : dot (a - b) (p - a) = -dot (b - a) (p - a) := by simp only [dot, sub_x, sub_y, sub_z]; ring
  have e2 : dot (a - b) (p - b) = -dot (b - a) (p - b) := by simp only [dot, sub_x, sub_y, sub_z]; ring
  have e3 : dot (b - a) (p - b) = dot (b - a) (p - a) - dot (b - a) (b - a) := by simp only [dot, sub_x, sub_y, sub_z]; ring
  have e4 : dot (a - b) (a - b) = dot (b - a) (b - a) := by simp only [dot, sub_x, sub_y, sub_z]; ring
  rw [e1, e2, e3, e4]
  have hL : 0 ≤ dot (b - a) (b - a) := by simp only [dot]; nlinarith [sq_nonneg (b - a).x, sq_nonneg (b - a).y, sq_nonneg (b - a).z]
  by_cases h0 : dot (b - a) (b - a) = 0
  · have hz : b - a = 0 := by
      by_contra hc
      exact absurd (normSq_pos _ hc) (by unfold normSq; rw [h0]; exact lt_irrefl _)
    have hab : b = a := by
      have hx := congrArg V3.x hz
      have hy := congrArg V3.y hz
      have hz := congrArg V3.z hz
      simp only [sub_x, sub_y, sub_z, zero_x, zero_y, zero_z] at hx hy hz
      ext <;> linarith
    subst hab
    have hb : ∀ t : ℝ, b + t • (b - b) = b := by intro t; ext <;> simp
    simp only [hb, ite_self]
  · have hpos : 0 < dot (b - a) (b - a) := lt_of_le_of_ne hL (Ne.symm h0)
    generalize ht : dot (b - a) (p - a) = t
    generalize hl : dot (b - a) (b - a) = l at *
    by_cases h1 : t ≤ 0
    · rw [if_pos (by linarith : -t ≥ 0), if_neg (by linarith : ¬ t - l ≥ 0), if_pos h1]
    · by_cases h2 : t - l ≥ 0
      · rw [if_neg (by linarith : ¬ -t ≥ 0), if_pos (by linarith : -(t - l) ≤ 0), if_pos h2]
      · rw [if_neg (by linarith : ¬ -t ≥ 0), if_neg (by linarith : ¬ -(t - l) ≤ 0), if_pos (by linarith : l > 0), if_neg h2, if_neg h1, if_pos (by linarith : l > 0)]
        ext <;> simp <;> field_simp <;> ring

end Verif.DCP
