import Verif.Lemmas.DCP
import Mathlib.Tactic.NormNum
/-! C31, C32: distances between points and segments. -/
namespace Verif
open Verif.DCP Verif.Spec.DCP Verif.V3

theorem distPointSeg_opt (u w : V3) (s t : ℝ) (h : 0 ≤ (s * normSq u - dot u w) * (t - s)) :
    norm (w - s • u) ≤ norm (w - t • u) := by
  apply Real.sqrt_le_sqrt
  have e : normSq (w - t • u) = normSq (w - s • u) + 2 * ((s * normSq u - dot u w) * (t - s)) + (t - s) ^ 2 * normSq u := by
    simp only [normSq, dot, sub_x, sub_y, sub_z, smul_x, smul_y, smul_z]; ring
  rw [e]
  have := normSq_nonneg u
  have : 0 ≤ (t - s) ^ 2 * normSq u := by positivity
  linarith

/-- `DistPointSeg`: the returned point is a point of the segment, the returned number is its distance from the given
point, and no point of the segment is closer.  All segments, also those of zero length. -/
theorem C31_point_segment (point minus plus : V3) :
    let r := distPointSeg point minus plus
    OnSegment minus plus r.2 ∧ r.1 = norm (point - r.2) ∧ ∀ p, OnSegment minus plus p → r.1 ≤ norm (point - p) := by
  intro r
  set u := plus - minus with hu
  set w := point - minus with hw
  have hpoint : ∀ t : ℝ, point - ((1 - t) • minus + t • plus) = w - t • u := by
    intro t; rw [hu, hw]; ext <;> simp <;> ring
  have hdot : dot u (point - plus) = dot u w - normSq u := by
    rw [hu, hw]; simp only [normSq, dot, sub_x, sub_y, sub_z]; ring
  have key : ∀ s : ℝ, 0 ≤ s → s ≤ 1 → r.2 = (1 - s) • minus + s • plus → r.1 = norm (point - r.2) →
      (∀ t, 0 ≤ t → t ≤ 1 → 0 ≤ (s * normSq u - dot u w) * (t - s)) →
      OnSegment minus plus r.2 ∧ r.1 = norm (point - r.2) ∧ ∀ p, OnSegment minus plus p → r.1 ≤ norm (point - p) := by
    intro s h0 h1 hr hd hopt
    refine ⟨⟨s, h0, h1, hr⟩, hd, ?_⟩
    rintro p ⟨t, ht0, ht1, rfl⟩
    rw [hd, hr, hpoint, hpoint]
    exact distPointSeg_opt u w s t (hopt t ht0 ht1)
  have hr1 : r.1 = norm (point - r.2) := rfl
  have hn := normSq_nonneg u
  by_cases hA : dot u (point - plus) ≥ 0
  · have e : r.2 = plus := by
      simp only [r, distPointSeg]; rw [if_pos hA]
    refine key 1 (by norm_num) le_rfl (by rw [e]; ext <;> simp) hr1 ?_
    intro t _ h1
    rw [hdot] at hA
    exact mul_nonneg_of_nonpos_of_nonpos (by linarith) (by linarith)
  by_cases hB : dot u w ≤ 0
  · have e : r.2 = minus := by
      simp only [r, distPointSeg]; rw [if_neg hA, if_pos hB]
    refine key 0 le_rfl (by norm_num) (by rw [e]; ext <;> simp) hr1 ?_
    intro t h0 _
    exact mul_nonneg (by linarith) (by linarith)
  rw [hdot] at hA
  rw [ge_iff_le, not_le] at hA
  rw [not_le] at hB
  have hpos : 0 < normSq u := by linarith
  have e : r.2 = minus + (dot u w / normSq u) • u := by
    simp only [r, distPointSeg]
    rw [if_neg (by rw [hdot]; linarith), if_neg (by rw [not_le]; exact hB), if_pos (by exact hpos)]
    rfl
  refine key (dot u w / normSq u) (by positivity) (by rw [div_le_one hpos]; linarith) ?_ hr1 ?_
  · rw [e, hu]; ext <;> simp <;> ring
  · intro t _ _
    have : dot u w / normSq u * normSq u - dot u w = 0 := by field_simp; ring
    rw [this, zero_mul]

/-- A point beside the middle of a segment. -/
example : distPointSeg ⟨1, 3, 0⟩ ⟨0, 0, 0⟩ ⟨2, 0, 0⟩ = (3, ⟨1, 0, 0⟩) := by
  have h9 : Real.sqrt 9 = 3 := by rw [show (9 : ℝ) = 3 ^ 2 by norm_num]; exact Real.sqrt_sq (by norm_num)
  simp only [distPointSeg, dot, sub_x, sub_y, sub_z]
  norm_num
  constructor
  · rw [← h9]
  · ext <;> norm_num

theorem coef_ok (P0 P1 Q0 Q1 : V3) : CoefOK (coef P0 P1 Q0 Q1) := by
  refine ⟨normSq_nonneg _, normSq_nonneg _, fun h => ?_, fun h => ?_⟩
  · have := (normSq_eq_zero (P1 - P0)).1 h
    simp [coef, this, dot]
  · have := (normSq_eq_zero (Q1 - Q0)).1 h
    simp [coef, this, dot]

/-- First order conditions are sufficient: the squared distance is convex. -/
theorem kkt_min (P0 P1 Q0 Q1 : V3) (s t : ℝ) (h : KKT (coef P0 P1 Q0 Q1) s t) (s' t' : ℝ) (hs0 : 0 ≤ s') (hs1 : s' ≤ 1)
    (ht0 : 0 ≤ t') (ht1 : t' ≤ 1) :
    norm (((1 - s) • P0 + s • P1) - ((1 - t) • Q0 + t • Q1)) ≤
      norm (((1 - s') • P0 + s' • P1) - ((1 - t') • Q0 + t' • Q1)) := by
  apply Real.sqrt_le_sqrt
  have hF := h.fs s' hs0 hs1
  have hG := h.gt t' ht0 ht1
  have e : normSq (((1 - s') • P0 + s' • P1) - ((1 - t') • Q0 + t' • Q1)) =
      normSq (((1 - s) • P0 + s • P1) - ((1 - t) • Q0 + t • Q1)) +
      2 * (F (coef P0 P1 Q0 Q1) s t * (s' - s)) + 2 * (G (coef P0 P1 Q0 Q1) s t * (t' - t)) +
      normSq ((s' - s) • (P1 - P0) - (t' - t) • (Q1 - Q0)) := by
    simp only [F, G, coef, normSq, dot, sub_x, sub_y, sub_z, smul_x, smul_y, smul_z, add_x, add_y, add_z]; ring
  rw [e]
  have := normSq_nonneg ((s' - s) • (P1 - P0) - (t' - t) • (Q1 - Q0))
  linarith

theorem query_eq (eps : ℝ) (P0 P1 Q0 Q1 : V3) (p : Param) (hp : parameters eps (coef P0 P1 Q0 Q1) = some p) :
    query eps P0 P1 Q0 Q1 = some ⟨norm (((1 - p.s) • P0 + p.s • P1) - ((1 - p.t) • Q0 + p.t • Q1)),
      (1 - p.s) • P0 + p.s • P1, (1 - p.t) • Q0 + p.t • Q1, p.s, p.t, p.mid⟩ := by
  unfold query
  rw [hp]
  rfl

/-- The query never divides by zero and never fails its assertion; its parameters are in `[0,1]`, its points are the
points with these parameters, and the distance is the distance of these points.  All segments, any `eps`.
Missing for C32: no pair of points is closer (false for the code, `C32_false`). -/
theorem C32_points_partial (eps : ℝ) (P0 P1 Q0 Q1 : V3) : ∃ r, query eps P0 P1 Q0 Q1 = some r ∧
    0 ≤ r.s ∧ r.s ≤ 1 ∧ 0 ≤ r.t ∧ r.t ≤ 1 ∧ r.Ploc = (1 - r.s) • P0 + r.s • P1 ∧ r.Qloc = (1 - r.t) • Q0 + r.t • Q1 ∧
    OnSegment P0 P1 r.Ploc ∧ OnSegment Q0 Q1 r.Qloc ∧ r.distance = norm (r.Ploc - r.Qloc) := by
  obtain ⟨p, hp, ⟨h1, h2, h3, h4⟩, -⟩ := parameters_spec eps _ (coef_ok P0 P1 Q0 Q1)
  exact ⟨_, query_eq eps P0 P1 Q0 Q1 p hp, h1, h2, h3, h4, rfl, rfl, ⟨_, h1, h2, rfl⟩, ⟨_, h3, h4, rfl⟩, rfl⟩

/-- No pair of points is closer unless a mid point shortcut (lines 326 and 437) was taken. -/
theorem C32_minimum_partial (eps : ℝ) (P0 P1 Q0 Q1 : V3) (r : Result) (hr : query eps P0 P1 Q0 Q1 = some r)
    (hm : r.mid = false) (p q : V3) (hp : OnSegment P0 P1 p) (hq : OnSegment Q0 Q1 q) : r.distance ≤ norm (p - q) := by
  obtain ⟨x, hx, -, hk⟩ := parameters_spec eps _ (coef_ok P0 P1 Q0 Q1)
  rw [query_eq eps P0 P1 Q0 Q1 x hx] at hr
  injection hr with hr
  subst hr
  obtain ⟨s', h1, h2, rfl⟩ := hp
  obtain ⟨t', h3, h4, rfl⟩ := hq
  exact kkt_min P0 P1 Q0 Q1 x.s x.t (hk hm) s' t' h1 h2 h3 h4

/-! ### When the shortcut is harmless -/

theorem getClampedRoot_exact (eps slope h0 h1 : ℝ) (hs : slope = h1 - h0) (hp : 0 < slope) (he : 2 * eps ≤ slope)
    (r : ℝ) (m : Bool) (h : getClampedRoot eps slope h0 h1 = some (r, m)) : m = false := by
  obtain ⟨r', m', h', -, -, -, hm⟩ := getClampedRoot_some eps slope h0 h1 hs hp
  rw [h'] at h
  injection h with h
  obtain ⟨h1, h2⟩ := Prod.mk.injEq .. ▸ h
  subst h2
  cases m' with
  | false => rfl
  | true =>
    obtain ⟨ha, hb, -⟩ := hm rfl
    rw [abs_lt] at ha hb
    linarith [ha.1, hb.2]

/-- Both segments at least `sqrt (2 eps)` long, and wherever the derivative along one vanishes so does the other
(parallel segments): the result is optimal, whether or not the shortcut was taken. -/
theorem parameters_parallel (eps : ℝ) (k : Coef) (hk : CoefOK k) (ha0 : 0 < k.a) (hc0 : 0 < k.c) (ha : 2 * eps ≤ k.a)
    (hc : 2 * eps ≤ k.c) (hpar : ∀ s t, F k s t = 0 → G k s t = 0) (p : Param) (hp : parameters eps k = some p) :
    KKT k p.s p.t := by
  obtain ⟨p', hp', -, hkkt⟩ := parameters_spec eps k hk
  rw [hp] at hp'
  injection hp' with hp'
  subst hp'
  cases hm : p.mid with
  | false => exact hkkt hm
  | true =>
    unfold parameters at hp
    rw [if_pos ⟨ha0, hc0⟩] at hp
    obtain ⟨s0, m0, hs0, hs0l, hs0h, hr0, -⟩ := getClampedRoot_some eps k.a k.f00 k.f10 (by simp [Coef.f10]) ha0
    obtain ⟨s1, m1, hs1, hs1l, hs1h, hr1, -⟩ := getClampedRoot_some eps k.a k.f01 k.f11
      (by simp [Coef.f10, Coef.f11, Coef.f01]) ha0
    have hm0 := getClampedRoot_exact eps k.a k.f00 k.f10 (by simp [Coef.f10]) ha0 ha s0 m0 hs0
    have hm1 := getClampedRoot_exact eps k.a k.f01 k.f11 (by simp [Coef.f10, Coef.f11, Coef.f01]) ha0 ha s1 m1 hs1
    subst hm0 hm1
    simp only [hs0, hs1, Option.bind_eq_bind, Option.bind_some] at hp
    by_cases hn : classify s0 = -1 ∧ classify s1 = -1
    · obtain ⟨r, m, hr, -⟩ := getClampedRoot_some eps k.c k.g00 k.g01 (by simp [Coef.g01]) hc0
      have := getClampedRoot_exact eps k.c k.g00 k.g01 (by simp [Coef.g01]) hc0 hc r m hr
      rw [if_pos hn, hr] at hp
      injection hp with hp
      subst hp; subst this
      simp at hm
    rw [if_neg hn] at hp
    by_cases hq : classify s0 = 1 ∧ classify s1 = 1
    · obtain ⟨r, m, hr, -⟩ := getClampedRoot_some eps k.c k.g10 k.g11 (by simp [Coef.g11]) hc0
      have := getClampedRoot_exact eps k.c k.g10 k.g11 (by simp [Coef.g11]) hc0 hc r m hr
      rw [if_pos hq, hr] at hp
      injection hp with hp
      subst hp; subst this
      simp at hm
    rw [if_neg hq] at hp
    obtain ⟨e0, e1, he, h1, h2, -⟩ := computeIntersection_spec k ha0 s0 s1 (hr0 rfl) (hr1 rfl) hn hq
    rw [he] at hp
    simp only [Option.bind_some, Bool.or_false] at hp
    obtain ⟨p', hp', ⟨k1, k2, k3, k4⟩⟩ := computeMinimum_range eps k hc0 e0 e1 ⟨h1.s0, h1.s1, h1.t0, h1.t1⟩
      ⟨h2.s0, h2.s1, h2.t0, h2.t1⟩
    rw [hp'] at hp
    injection hp with hp
    have hfin : F k p'.s p'.t = 0 := by
      have hG0 : (-k.b * e0.s - k.e) + k.c * e0.t = G k e0.s e0.t := by unfold G; ring
      have hG1 : (-k.b * e1.s - k.e) + k.c * e1.t = G k e1.s e1.t := by unfold G; ring
      unfold computeMinimum at hp'
      simp only [hG0, hG1, hpar _ _ h1.line, hpar _ _ h2.line, mul_zero] at hp'
      split at hp'
      · injection hp' with hp'
        rw [← hp']
        have : F k ((1 - 1 / 2) * e0.s + 1 / 2 * e1.s) ((1 - 1 / 2) * e0.t + 1 / 2 * e1.t)
            = 1 / 2 * F k e0.s e0.t + 1 / 2 * F k e1.s e1.t := by unfold F; ring
        simp only [this, h1.line, h2.line]; norm_num
      · rw [if_pos le_rfl] at hp'
        exfalso
        unfold onEdge at hp'
        split at hp'
        · obtain ⟨r, m, hr, -⟩ := getClampedRoot_some eps k.c k.g00 k.g01 (by simp [Coef.g01]) hc0
          have := getClampedRoot_exact eps k.c k.g00 k.g01 (by simp [Coef.g01]) hc0 hc r m hr
          rw [hr] at hp'; injection hp' with hp'
          subst hp' this; rw [← hp] at hm; simp at hm
        · split at hp'
          · obtain ⟨r, m, hr, -⟩ := getClampedRoot_some eps k.c k.g10 k.g11 (by simp [Coef.g11]) hc0
            have := getClampedRoot_exact eps k.c k.g10 k.g11 (by simp [Coef.g11]) hc0 hc r m hr
            rw [hr] at hp'; injection hp' with hp'
            subst hp' this; rw [← hp] at hm; simp at hm
          · injection hp' with hp'; subst hp'; rw [← hp] at hm; simp at hm
    rw [← hp]
    refine ⟨k1, k2, k3, k4, fun s' _ _ => ?_, fun t' _ _ => ?_⟩
    · simp only [hfin, zero_mul, le_refl]
    · simp only [hpar _ _ hfin, zero_mul, le_refl]

/-- Parallel segments not shorter than `sqrt (2 eps)`: no pair of points is closer. -/
theorem C32_parallel_partial (eps : ℝ) (P0 P1 Q0 Q1 : V3) (l : ℝ) (hl : Q1 - Q0 = l • (P1 - P0)) (hP : P0 ≠ P1)
    (hQ : Q0 ≠ Q1) (ha : 2 * eps ≤ normSq (P1 - P0)) (hc : 2 * eps ≤ normSq (Q1 - Q0)) (r : Result)
    (hr : query eps P0 P1 Q0 Q1 = some r) (p q : V3) (hp : OnSegment P0 P1 p) (hq : OnSegment Q0 Q1 q) :
    r.distance ≤ norm (p - q) := by
  obtain ⟨x, hx, -, -⟩ := parameters_spec eps _ (coef_ok P0 P1 Q0 Q1)
  rw [query_eq eps P0 P1 Q0 Q1 x hx] at hr
  injection hr with hr
  subst hr
  obtain ⟨s', h1, h2, rfl⟩ := hp
  obtain ⟨t', h3, h4, rfl⟩ := hq
  refine kkt_min P0 P1 Q0 Q1 x.s x.t ?_ s' t' h1 h2 h3 h4
  have ha0 : 0 < (coef P0 P1 Q0 Q1).a := normSq_pos _ (fun h => hP ((sub_eq_zero _ _).1 h).symm)
  have hc0 : 0 < (coef P0 P1 Q0 Q1).c := normSq_pos _ (fun h => hQ ((sub_eq_zero _ _).1 h).symm)
  refine parameters_parallel eps _ (coef_ok P0 P1 Q0 Q1) ha0 hc0 ha hc ?_ x hx
  intro s t hF
  have : G (coef P0 P1 Q0 Q1) s t = -l * F (coef P0 P1 Q0 Q1) s t := by
    simp only [F, G, coef, hl, dot, smul_x, smul_y, smul_z, sub_x, sub_y, sub_z]; ring
  rw [this, hF, mul_zero]

/-- Without the tolerance the algorithm is exact for all segments: parallel, crossing, touching and degenerate. -/
theorem C32_ideal_partial (P0 P1 Q0 Q1 : V3) : ∃ r, query 0 P0 P1 Q0 Q1 = some r ∧ r.mid = false ∧
    ∀ p q, OnSegment P0 P1 p → OnSegment Q0 Q1 q → r.distance ≤ norm (p - q) := by
  obtain ⟨r, hr, -⟩ := C32_points_partial 0 P0 P1 Q0 Q1
  have hroot : ∀ slope h0 h1 x, getClampedRoot 0 slope h0 h1 = some x → x.2 = false := by
    intro slope h0 h1 x hx
    unfold getClampedRoot at hx
    have h : ¬(|h0| < 0 ∧ |h1| < 0) := fun h => absurd h.1 (not_lt.2 (abs_nonneg _))
    rw [if_neg h] at hx
    split at hx
    · cases hx
    split at hx
    · split at hx
      · split at hx
        · cases hx
        · injection hx with hx; rw [← hx]
      · injection hx with hx; rw [← hx]
    · injection hx with hx; rw [← hx]
  have hedge : ∀ k e x, onEdge 0 k e = some x → x.mid = false := by
    intro k e x hx
    unfold onEdge at hx
    split at hx
    · obtain ⟨y, hy, hx⟩ := Option.bind_eq_some_iff.1 hx
      injection hx with hx; rw [← hx]; exact hroot _ _ _ _ hy
    split at hx
    · obtain ⟨y, hy, hx⟩ := Option.bind_eq_some_iff.1 hx
      injection hx with hx; rw [← hx]; exact hroot _ _ _ _ hy
    · injection hx with hx; rw [← hx]
  have hmin : ∀ k e0 e1 x, computeMinimum 0 k e0 e1 = some x → x.mid = false := by
    intro k e0 e1 x hx
    unfold computeMinimum at hx
    simp only [mul_zero] at hx
    rw [if_neg (fun h => absurd h.1 (not_lt.2 (abs_nonneg _)))] at hx
    split at hx
    · exact hedge _ _ _ hx
    split at hx
    · exact hedge _ _ _ hx
    · obtain ⟨y, hy, hx⟩ := Option.bind_eq_some_iff.1 hx
      injection hx with hx; rw [← hx]; exact hroot _ _ _ _ hy
  have hm : r.mid = false := by
    obtain ⟨p, hp, -, -⟩ := parameters_spec 0 _ (coef_ok P0 P1 Q0 Q1)
    rw [query_eq 0 P0 P1 Q0 Q1 p hp] at hr
    injection hr with hr
    rw [← hr]
    show p.mid = false
    unfold parameters at hp
    split at hp
    · obtain ⟨s0, hs0, hp⟩ := Option.bind_eq_some_iff.1 hp
      obtain ⟨s1, hs1, hp⟩ := Option.bind_eq_some_iff.1 hp
      have h0 := hroot _ _ _ _ hs0
      have h1 := hroot _ _ _ _ hs1
      simp only [h0, h1, Bool.or_false] at hp
      split at hp
      · obtain ⟨y, hy, hx⟩ := Option.bind_eq_some_iff.1 hp
        injection hx with hx; rw [← hx]; exact hroot _ _ _ _ hy
      split at hp
      · obtain ⟨y, hy, hx⟩ := Option.bind_eq_some_iff.1 hp
        injection hx with hx; rw [← hx]; exact hroot _ _ _ _ hy
      · obtain ⟨y, hy, hx⟩ := Option.bind_eq_some_iff.1 hp
        obtain ⟨z, hz, hx⟩ := Option.bind_eq_some_iff.1 hx
        injection hx with hx; rw [← hx]; exact hmin _ _ _ _ hz
    split at hp
    · obtain ⟨y, hy, hx⟩ := Option.bind_eq_some_iff.1 hp
      injection hx with hx; rw [← hx]; exact hroot _ _ _ _ hy
    split at hp
    · obtain ⟨y, hy, hx⟩ := Option.bind_eq_some_iff.1 hp
      injection hx with hx; rw [← hx]; exact hroot _ _ _ _ hy
    · injection hp with hx; rw [← hx]
  exact ⟨r, hr, hm, fun p q hp hq => C32_minimum_partial 0 P0 P1 Q0 Q1 r hr hm p q hp hq⟩

/-- With the tolerance of the code the answer can be wrong by more than 40%: two segments of about unit length, one
from `(0,1,0)` to `(1+2^-52,2,0)` and one from `(0,0,0)` to `(1,0,0)`, whose end points are at distance 1, get a
distance above 1.4. -/
theorem C32_false : ∃ (P0 P1 Q0 Q1 : V3) (r : Result), query dblEps P0 P1 Q0 Q1 = some r ∧
    ∃ p q, OnSegment P0 P1 p ∧ OnSegment Q0 Q1 q ∧ norm (p - q) = 1 ∧ 7 / 5 < r.distance := by
  set η := dblEps with hη
  have h0 : 0 < η := dblEps_pos
  have h1 : η ≤ 1 / 1000 := by rw [hη]; unfold dblEps; norm_num
  set k := coef ⟨0, 1, 0⟩ ⟨1 + η, 2, 0⟩ ⟨0, 0, 0⟩ ⟨1, 0, 0⟩ with hk
  have ka : k.a = (1 + η) ^ 2 + 1 := by rw [hk]; simp only [coef, dot, sub_x, sub_y, sub_z]; ring
  have kb : k.b = 1 + η := by rw [hk]; simp only [coef, dot, sub_x, sub_y, sub_z]; ring
  have kc : k.c = 1 := by rw [hk]; simp only [coef, dot, sub_x, sub_y, sub_z]; ring
  have kd : k.d = 1 := by rw [hk]; simp only [coef, dot, sub_x, sub_y, sub_z]; ring
  have ke : k.e = 0 := by rw [hk]; simp only [coef, dot, sub_x, sub_y, sub_z]; ring
  have hapos : 0 < k.a := by rw [ka]; positivity
  have ha2 : 2 < k.a := by rw [ka]; nlinarith
  have ha3 : k.a < 3 := by rw [ka]; nlinarith
  have f00 : k.f00 = 1 := by simp [Coef.f00, kd]
  have f10 : k.f10 = 1 + k.a := by simp [Coef.f10, f00]
  have f01 : k.f01 = -η := by simp [Coef.f01, f00, kb]
  have f11 : k.f11 = k.a - η := by simp [Coef.f11, f10, kb]
  have hs0 : getClampedRoot η k.a k.f00 k.f10 = some (0, false) := by
    obtain ⟨r, m, hr, -⟩ := getClampedRoot_some η k.a k.f00 k.f10 (by simp [Coef.f10]) hapos
    have hm := getClampedRoot_exact η k.a k.f00 k.f10 (by simp [Coef.f10]) hapos (by linarith) r m hr
    subst hm
    obtain ⟨r', m', hr', _, _, hroot, _⟩ := getClampedRoot_some η k.a k.f00 k.f10 (by simp [Coef.f10]) hapos
    rw [hr] at hr'
    injection hr' with hr'
    injection hr' with e1 e2
    subst e1 e2
    have hR := hroot rfl
    have : r = 0 := by
      by_contra hc
      have := hR.lt_zero hapos (lt_of_le_of_ne hR.lo (Ne.symm hc))
      rw [f00] at this; linarith
    rw [hr, this]
  have hs1 : getClampedRoot η k.a k.f01 k.f11 = some (η / k.a, false) := by
    obtain ⟨r, m, hr, _, _, hroot, _⟩ := getClampedRoot_some η k.a k.f01 k.f11
      (by simp [Coef.f10, Coef.f11, Coef.f01]) hapos
    have hm := getClampedRoot_exact η k.a k.f01 k.f11 (by simp [Coef.f10, Coef.f11, Coef.f01]) hapos (by linarith) r m hr
    subst hm
    have hR := hroot rfl
    have hr0 : 0 < r := by
      by_contra hc
      have := (hR.low (not_lt.1 hc)).2
      rw [f01] at this; linarith
    have hr1 : r < 1 := by
      by_contra hc
      have := (hR.high (not_lt.1 hc)).2
      rw [f01] at this; linarith
    have := hR.mid hr0 hr1
    rw [f01] at this
    have e : r = η / k.a := by rw [eq_div_iff hapos.ne']; linarith
    rw [hr, e]
  have hsp : 0 < η / k.a := by positivity
  have hsl : η / k.a < 1 := by rw [div_lt_one hapos]; linarith
  have hsη : η / k.a ≤ η / 2 := by apply div_le_div_of_nonneg_left <;> linarith
  have c0 : classify 0 = -1 := by simp [classify]
  have c1 : classify (η / k.a) = 0 := by
    unfold classify
    rw [if_neg (not_le.2 hsp), if_neg (not_le.2 hsl)]
  have hq0 : 0 ≤ 1 / (1 + η) := by positivity
  have hq1 : 1 / (1 + η) ≤ 1 := by rw [div_le_one (by linarith)]; linarith
  have hrat : ratio k.f00 k.b = some (1 / (1 + η)) := by
    unfold ratio
    rw [f00, kb, if_neg (by linarith)]
    simp only
    rw [if_neg]
    rintro (h | h) <;> linarith
  have hci : computeIntersection k 0 (η / k.a) (-1) 0 = some (⟨0, 0, 1 / (1 + η)⟩, ⟨3, η / k.a, 1⟩) := by
    unfold computeIntersection
    rw [hrat]
    simp
  have hd : 1 - 1 / (1 + η) = η / (1 + η) := by field_simp; ring
  have hd0 : 0 < η / (1 + η) := by positivity
  have hdη : η / (1 + η) < η := by rw [div_lt_iff₀ (by linarith)]; nlinarith
  have hcm : computeMinimum η k ⟨0, 0, 1 / (1 + η)⟩ ⟨3, η / k.a, 1⟩ =
      some ⟨(1 - 1 / 2) * 0 + 1 / 2 * (η / k.a), (1 - 1 / 2) * (1 / (1 + η)) + 1 / 2 * 1, true⟩ := by
    unfold computeMinimum
    simp only
    rw [if_pos]
    rw [hd, kb, kc, ke, abs_one]
    constructor
    · have e : η / (1 + η) * (-(1 + η) * 0 - 0 + 1 * (1 / (1 + η))) = η / (1 + η) * (1 / (1 + η)) := by ring
      rw [e, abs_of_nonneg (by positivity), one_mul]
      nlinarith
    · have hx0 : 0 ≤ -(1 + η) * (η / k.a) - 0 + 1 * 1 := by nlinarith
      have hx1 : -(1 + η) * (η / k.a) - 0 + 1 * 1 ≤ 1 := by
        have : 0 ≤ (1 + η) * (η / k.a) := by positivity
        linarith
      rw [abs_of_nonneg (mul_nonneg hd0.le hx0)]
      nlinarith
  have hpar : parameters η k = some ⟨(1 - 1 / 2) * 0 + 1 / 2 * (η / k.a), (1 - 1 / 2) * (1 / (1 + η)) + 1 / 2 * 1, true⟩ := by
    unfold parameters
    rw [if_pos ⟨hapos, by rw [kc]; norm_num⟩]
    simp only [hs0, hs1, Option.bind_eq_bind, Option.bind_some, c0, c1]
    rw [if_neg (by decide), if_neg (by decide), hci]
    simp only [Option.bind_some]
    rw [hcm]
    rfl
  refine ⟨_, _, _, _, _, query_eq η _ _ _ _ _ hpar, ⟨0, 1, 0⟩, ⟨0, 0, 0⟩, ⟨0, le_rfl, by norm_num, ?_⟩,
    ⟨0, le_rfl, by norm_num, ?_⟩, ?_, ?_⟩
  · ext <;> simp
  · ext <;> simp
  · have : normSq ((⟨0, 1, 0⟩ : V3) - ⟨0, 0, 0⟩) = 1 := by simp [normSq, dot]
    rw [norm, this, Real.sqrt_one]
  · show 7 / 5 < norm _
    have hinv : 999 / 1000 ≤ 1 / (1 + η) := by rw [le_div_iff₀ (by linarith)]; linarith
    rw [norm]
    apply Real.lt_sqrt_of_sq_lt
    simp only [normSq, dot, sub_x, sub_y, sub_z, smul_x, smul_y, smul_z, add_x, add_y, add_z]
    set x := η / k.a
    set y := 1 / (1 + η)
    have hA : 998 / 1000 ≤ -(((1 - ((1 - 1 / 2) * 0 + 1 / 2 * x)) * 0 + ((1 - 1 / 2) * 0 + 1 / 2 * x) * (1 + η)) -
        ((1 - ((1 - 1 / 2) * y + 1 / 2 * 1)) * 0 + ((1 - 1 / 2) * y + 1 / 2 * 1) * 1)) := by nlinarith
    have hB : 1 ≤ ((1 - ((1 - 1 / 2) * 0 + 1 / 2 * x)) * 1 + ((1 - 1 / 2) * 0 + 1 / 2 * x) * 2) -
        ((1 - ((1 - 1 / 2) * y + 1 / 2 * 1)) * 0 + ((1 - 1 / 2) * y + 1 / 2 * 1) * 0) := by nlinarith
    nlinarith

/-- Two crossing segments: the shortcut is not taken, so `C32_minimum_partial` applies; parallel segments of length one
meet the hypotheses of `C32_parallel_partial`. -/
example : ∃ r, query 0 ⟨-1, 0, 0⟩ ⟨1, 0, 0⟩ ⟨0, -1, 1⟩ ⟨0, 1, 1⟩ = some r ∧ r.mid = false ∧ r.distance ≤ 1 := by
  obtain ⟨r, hr, hm, h⟩ := C32_ideal_partial ⟨-1, 0, 0⟩ ⟨1, 0, 0⟩ ⟨0, -1, 1⟩ ⟨0, 1, 1⟩
  refine ⟨r, hr, hm, ?_⟩
  have := h ⟨0, 0, 0⟩ ⟨0, 0, 1⟩ ⟨1 / 2, by norm_num, by norm_num, by ext <;> norm_num⟩
    ⟨1 / 2, by norm_num, by norm_num, by ext <;> norm_num⟩
  have e : normSq ((⟨0, 0, 0⟩ : V3) - ⟨0, 0, 1⟩) = 1 := by simp [normSq, dot]
  rwa [norm, e, Real.sqrt_one] at this

example : (⟨0, 3, 1⟩ : V3) - ⟨0, 1, 1⟩ = (2 : ℝ) • ((⟨0, 1, 0⟩ : V3) - ⟨0, 0, 0⟩) ∧
    2 * dblEps ≤ normSq ((⟨0, 1, 0⟩ : V3) - ⟨0, 0, 0⟩) ∧ 2 * dblEps ≤ normSq ((⟨0, 3, 1⟩ : V3) - ⟨0, 1, 1⟩) := by
  refine ⟨by ext <;> norm_num, ?_, ?_⟩ <;> simp only [dblEps, normSq, dot, sub_x, sub_y, sub_z] <;> norm_num

end Verif
