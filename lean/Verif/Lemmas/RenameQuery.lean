import Verif.Props.DCPError
import Verif.Spec.RenameQuery
/-! The distance query with the two segments exchanged. -/
namespace Verif.DCP
open Verif.V3 Verif.Spec.DCP Verif.Spec.Rename

/-- The coefficients with the two segments exchanged. -/
def Coef.swap (k : Coef) : Coef := ⟨k.c, k.b, k.a, -k.e, -k.d⟩

theorem coef_swap (P0 P1 Q0 Q1 : V3) : coef Q0 Q1 P0 P1 = (coef P0 P1 Q0 Q1).swap := by
  unfold coef Coef.swap
  simp only [dot, sub_x, sub_y, sub_z, Coef.mk.injEq]
  refine ⟨trivial, ?_, trivial, ?_, ?_⟩ <;> ring

theorem F_swap (k : Coef) (s t : ℝ) : F k.swap t s = G k s t := by unfold F G Coef.swap; ring
theorem G_swap (k : Coef) (s t : ℝ) : G k.swap t s = F k s t := by unfold F G Coef.swap; ring

theorem KKT.swap {k : Coef} {s t : ℝ} (h : KKT k s t) : KKT k.swap t s :=
  ⟨h.t0, h.t1, h.s0, h.s1, fun s' a b => by rw [F_swap]; exact h.gt s' a b, fun t' a b => by rw [G_swap]; exact h.fs t' a b⟩

theorem swap_swap (k : Coef) : k.swap.swap = k := by
  obtain ⟨a, b, c, d, e⟩ := k
  simp [Coef.swap]

/-- The optimal parameters lie symmetrically about `(s, t)`. -/
def Centre (k : Coef) (s t : ℝ) : Prop := KKT k s t ∧ ∀ s' t', KKT k s' t' → KKT k (2 * s - s') (2 * t - t')

theorem Centre.swap {k : Coef} {s t : ℝ} (h : Centre k s t) : Centre k.swap t s := by
  refine ⟨h.1.swap, fun s' t' hk => ?_⟩
  have := hk.swap
  rw [swap_swap] at this
  exact (h.2 _ _ this).swap

theorem Centre.unique {k : Coef} {s t s' t' : ℝ} (h : Centre k s t) (h' : Centre k s' t') : s' = s ∧ t' = t := by
  have step : ∀ n : ℕ, KKT k (s + 2 * n * (s' - s)) (t + 2 * n * (t' - t)) := by
    intro n
    induction n with
    | zero => simpa using h.1
    | succ n ih =>
      have := h'.2 _ _ (h.2 _ _ ih)
      convert this using 1 <;> push_cast <;> ring
  have key : ∀ x d : ℝ, (∀ n : ℕ, 0 ≤ x + 2 * n * d ∧ x + 2 * n * d ≤ 1) → d = 0 := by
    intro x d hx
    by_contra hd
    obtain ⟨n, hn⟩ := exists_nat_gt (1 / |d|)
    have hpos : 0 < |d| := abs_pos.2 hd
    rw [div_lt_iff₀ hpos] at hn
    have h0 := hx 0
    have h1 := hx n
    simp only [Nat.cast_zero, mul_zero, zero_mul, add_zero] at h0
    rcases le_or_gt 0 d with hd' | hd'
    · rw [abs_of_nonneg hd'] at hn; linarith
    · rw [abs_of_neg hd'] at hn; linarith
  have e1 := key s (s' - s) fun n => ⟨(step n).s0, (step n).s1⟩
  have e2 := key t (t' - t) fun n => ⟨(step n).t0, (step n).t1⟩
  exact ⟨by linarith, by linarith⟩

/-- Two optimal pairs of parameters differ along a common direction of both segments. -/
theorem KKT.diff {k : Coef} {s t s' t' : ℝ} (h : KKT k s t) (h' : KKT k s' t') : k.a * (s' - s) ^ 2 - 2 * k.b * (s' - s) * (t' - t) + k.c * (t' - t) ^ 2 ≤ 0 := by
  have h1 := h.fs s' h'.s0 h'.s1
  have h2 := h.gt t' h'.t0 h'.t1
  have h3 := h'.fs s h.s0 h.s1
  have h4 := h'.gt t h.t0 h.t1
  unfold F at h1 h3
  unfold G at h2 h4
  nlinarith

theorem centre_crossing {k : Coef} (ha : 0 < k.a) (hn : k.b ^ 2 < k.a * k.c) {s t : ℝ} (h : KKT k s t) : Centre k s t := by
  refine ⟨h, fun s' t' h' => ?_⟩
  have hd := h.diff h'
  have ht : (k.a * k.c - k.b ^ 2) * (t' - t) ^ 2 ≤ 0 := by nlinarith [sq_nonneg (k.a * (s' - s) - k.b * (t' - t))]
  have ht0 : t' - t = 0 := by
    by_contra hc
    have : 0 < (k.a * k.c - k.b ^ 2) * (t' - t) ^ 2 := mul_pos (by linarith) (by positivity)
    linarith
  rw [ht0] at hd
  have hs0 : s' - s = 0 := by
    by_contra hc
    have : 0 < k.a * (s' - s) ^ 2 := by positivity
    nlinarith
  have e1 : 2 * s - s' = s := by linarith
  have e2 : 2 * t - t' = t := by linarith
  rw [e1, e2]
  exact h

/-- Parallel segments that do not overlap, so that one end of the first is nearest. -/
theorem centre_end {k : Coef} (ha : 0 < k.a) (hc : 0 < k.c) {s t : ℝ} (h : KKT k s t)
    (hs : (s = 0 ∧ 0 ≤ F k 0 0 ∧ 0 ≤ F k 0 1) ∨ (s = 1 ∧ F k 1 0 ≤ 0 ∧ F k 1 1 ≤ 0)) : Centre k s t := by
  refine ⟨h, fun s' t' h' => ?_⟩
  have es : s' = s := by
    rcases hs with ⟨rfl, h0, h1⟩ | ⟨rfl, h0, h1⟩
    · have hF := F_edge k 0 h0 h1 t' h'.t0 h'.t1
      have h2 := h'.fs 0 le_rfl zero_le_one
      have e : F k s' t' = F k 0 t' + k.a * s' := by unfold F; ring
      rw [e] at h2
      by_contra hne
      have hpos : 0 < s' := lt_of_le_of_ne h'.s0 (Ne.symm hne)
      have : 0 < (F k 0 t' + k.a * s') * s' := by positivity
      linarith
    · have hF := F_edge' k 1 h0 h1 t' h'.t0 h'.t1
      have h2 := h'.fs 1 zero_le_one le_rfl
      have e : F k s' t' = F k 1 t' - k.a * (1 - s') := by unfold F; ring
      rw [e] at h2
      by_contra hne
      have hpos : 0 < 1 - s' := sub_pos.2 (lt_of_le_of_ne h'.s1 hne)
      have h3 : 0 < k.a * (1 - s') := by positivity
      have : (F k 1 t' - k.a * (1 - s')) * (1 - s') < 0 := mul_neg_of_neg_of_pos (by linarith) hpos
      linarith
  subst es
  have hd := h.diff h'
  have et : t' - t = 0 := by
    by_contra hne
    have : 0 < k.c * (t' - t) ^ 2 := by positivity
    nlinarith
  have e1 : 2 * s' - s' = s' := by ring
  have e2 : 2 * t - t' = t := by linarith
  rw [e1, e2]
  exact h

theorem centre_parallel (eps : ℝ) (k : Coef) (hk : CoefOK k) (h0 : 0 < eps) (ha : 2 * eps ≤ k.a) (hc : 2 * eps ≤ k.c) (l : ℝ) (hb : k.b = l * k.a) (hcl : k.c = l * k.b)
    (he : k.e = l * k.d) (p : Param) (hp : parameters eps k = some p) : Centre k p.s p.t := by
  have ha0 : 0 < k.a := by linarith
  have hc0 : 0 < k.c := by linarith
  have hGF : ∀ s t, G k s t = -l * F k s t := by
    intro s t
    unfold F G
    rw [hcl, he, hb]; ring
  have hpar : ∀ s t, F k s t = 0 → G k s t = 0 := by
    intro s t h
    rw [hGF, h, mul_zero]
  have hkkt := parameters_parallel eps k hk ha0 hc0 ha hc hpar p hp
  cases hm : p.mid with
  | true =>
    obtain ⟨e0, e1, hf⟩ := mid_facts eps k h0 ha hc p hp hm
    refine ⟨hkkt, fun s' t' h' => ?_⟩
    have l0 := hf.ok0.line
    have l1 := hf.ok1.line
    have hFp : F k p.s p.t = 0 := by
      rw [hf.s, hf.t]
      unfold F at l0 l1 ⊢
      linarith
    have hline : F k s' t' = 0 := by
      have hd := hkkt.diff h'
      have e : k.a * (k.a * (s' - p.s) ^ 2 - 2 * k.b * (s' - p.s) * (t' - p.t) + k.c * (t' - p.t) ^ 2) = (k.a * (s' - p.s) - k.b * (t' - p.t)) ^ 2 := by
        rw [hcl, hb]; ring
      have h1 : k.a * (s' - p.s) - k.b * (t' - p.t) = 0 := by
        have : (k.a * (s' - p.s) - k.b * (t' - p.t)) ^ 2 ≤ 0 := by rw [← e]; exact mul_nonpos_of_nonneg_of_nonpos ha0.le hd
        exact pow_eq_zero_iff (two_ne_zero) |>.1 (le_antisymm this (sq_nonneg _))
      unfold F at hFp ⊢
      linarith
    have f0 := hf.first s' t' h'.s0 h'.s1 h'.t0 h'.t1 hline
    have f1 := hf.last s' t' h'.s0 h'.s1 h'.t0 h'.t1 hline
    have es : 2 * p.s - s' = e0.s + e1.s - s' := by rw [hf.s]; ring
    have et : 2 * p.t - t' = e0.t + e1.t - t' := by rw [hf.t]; ring
    have hz : F k (2 * p.s - s') (2 * p.t - t') = 0 := by
      unfold F at hFp hline ⊢
      linarith
    have bs : 0 ≤ e0.s + e1.s - s' ∧ e0.s + e1.s - s' ≤ 1 := by
      have d0 : k.a * (s' - e0.s) = k.b * (t' - e0.t) := by unfold F at l0 hline; linarith
      have d1 : k.a * (e1.s - s') = k.b * (e1.t - t') := by unfold F at l1 hline; linarith
      have a1 := hf.ok0.s0
      have a2 := hf.ok0.s1
      have a3 := hf.ok1.s0
      have a4 := hf.ok1.s1
      rcases le_or_gt 0 k.b with hb0 | hb0
      · have x0 : 0 ≤ k.a * (s' - e0.s) := by rw [d0]; exact mul_nonneg hb0 (by linarith)
        have x1 : 0 ≤ k.a * (e1.s - s') := by rw [d1]; exact mul_nonneg hb0 (by linarith)
        have y0 := nonneg_of_mul_nonneg_right x0 ha0
        have y1 := nonneg_of_mul_nonneg_right x1 ha0
        constructor <;> linarith
      · have x0 : 0 ≤ k.a * (e0.s - s') := by
          have : k.a * (e0.s - s') = (-k.b) * (t' - e0.t) := by linarith
          rw [this]; exact mul_nonneg (by linarith) (by linarith)
        have x1 : 0 ≤ k.a * (s' - e1.s) := by
          have : k.a * (s' - e1.s) = (-k.b) * (e1.t - t') := by linarith
          rw [this]; exact mul_nonneg (by linarith) (by linarith)
        have y0 := nonneg_of_mul_nonneg_right x0 ha0
        have y1 := nonneg_of_mul_nonneg_right x1 ha0
        constructor <;> linarith
    have b1 := hf.ok0.t0
    have b2 := hf.ok1.t1
    refine ⟨by rw [es]; exact bs.1, by rw [es]; exact bs.2, by rw [et]; linarith, by rw [et]; linarith, fun s'' _ _ => ?_, fun t'' _ _ => ?_⟩
    · rw [hz, zero_mul]
    · rw [hpar _ _ hz, zero_mul]
  | false =>
    apply centre_end ha0 hc0 hkkt
    unfold parameters at hp
    rw [if_pos ⟨ha0, hc0⟩] at hp
    obtain ⟨s0, m0, hs0, hs0l, hs0h, hr0, -⟩ := getClampedRoot_some eps k.a k.f00 k.f10 (by simp [Coef.f10]) ha0
    obtain ⟨s1, m1, hs1, hs1l, hs1h, hr1, -⟩ := getClampedRoot_some eps k.a k.f01 k.f11
      (by simp [Coef.f10, Coef.f11, Coef.f01]) ha0
    have hm0 := getClampedRoot_exact eps k.a k.f00 k.f10 (by simp [Coef.f10]) ha0 ha s0 m0 hs0
    have hm1 := getClampedRoot_exact eps k.a k.f01 k.f11 (by simp [Coef.f10, Coef.f11, Coef.f01]) ha0 ha s1 m1 hs1
    subst hm0 hm1
    simp only [hs0, hs1, Option.bind_eq_bind, Option.bind_some] at hp
    by_cases hn : classify s0 = -1 ∧ classify s1 = -1
    · obtain ⟨r, m, hr, -⟩ := getClampedRoot_some eps k.c k.g00 k.g01 (by simp [Coef.g01]) hc0
      rw [if_pos hn, hr] at hp
      injection hp with hp
      subst hp
      refine Or.inl ⟨rfl, ?_, ?_⟩
      · rcases classify_cases s0 with ⟨h, -⟩ | ⟨-, h⟩ | ⟨-, -, h⟩
        · have := ((hr0 rfl).low h).2; simpa [F, Coef.f00] using this
        · rw [hn.1] at h; omega
        · rw [hn.1] at h; omega
      · rcases classify_cases s1 with ⟨h, -⟩ | ⟨-, h⟩ | ⟨-, -, h⟩
        · have := ((hr1 rfl).low h).2
          simp only [Coef.f01, Coef.f00] at this
          unfold F; linarith
        · rw [hn.2] at h; omega
        · rw [hn.2] at h; omega
    rw [if_neg hn] at hp
    by_cases hq : classify s0 = 1 ∧ classify s1 = 1
    · obtain ⟨r, m, hr, -⟩ := getClampedRoot_some eps k.c k.g10 k.g11 (by simp [Coef.g11]) hc0
      rw [if_pos hq, hr] at hp
      injection hp with hp
      subst hp
      refine Or.inr ⟨rfl, ?_, ?_⟩
      · rcases classify_cases s0 with ⟨-, h⟩ | ⟨h, -⟩ | ⟨-, -, h⟩
        · rw [hq.1] at h; omega
        · have := ((hr0 rfl).high h).2
          simp only [Coef.f00] at this
          unfold F; linarith
        · rw [hq.1] at h; omega
      · rcases classify_cases s1 with ⟨-, h⟩ | ⟨h, -⟩ | ⟨-, -, h⟩
        · rw [hq.2] at h; omega
        · have := ((hr1 rfl).high h).2
          simp only [Coef.f00, Coef.f01] at this
          unfold F; linarith
        · rw [hq.2] at h; omega
    rw [if_neg hq] at hp
    exfalso
    obtain ⟨e0, e1, hee, h1, h2, -⟩ := computeIntersection_spec k ha0 s0 s1 (hr0 rfl) (hr1 rfl) hn hq
    rw [hee] at hp
    simp only [Option.bind_some, Bool.or_false] at hp
    have hG0 : (-k.b * e0.s - k.e) + k.c * e0.t = G k e0.s e0.t := by unfold G; ring
    have hG1 : (-k.b * e1.s - k.e) + k.c * e1.t = G k e1.s e1.t := by unfold G; ring
    unfold computeMinimum at hp
    have hpos : 0 < |k.c| * eps := by positivity
    simp only [hG0, hG1, hpar _ _ h1.line, hpar _ _ h2.line, mul_zero, abs_zero, hpos, and_self, if_true, Option.bind_some] at hp
    injection hp with hp
    rw [← hp] at hm
    cases hm

/-- Two segments that are not parallel have one pair of closest points. -/
theorem nearest_unique {P0 P1 Q0 Q1 : V3} (hn : ∀ l : ℝ, Q1 - Q0 ≠ l • (P1 - P0)) (hP : 0 < normSq (P1 - P0)) {p q p' q' : V3} (hp : OnSegment P0 P1 p) (hq : OnSegment Q0 Q1 q)
    (hp' : OnSegment P0 P1 p') (hq' : OnSegment Q0 Q1 q') (h : ∀ x y, OnSegment P0 P1 x → OnSegment Q0 Q1 y → normSq (p - q) ≤ normSq (x - y))
    (h' : ∀ x y, OnSegment P0 P1 x → OnSegment Q0 Q1 y → normSq (p' - q') ≤ normSq (x - y)) : p' = p ∧ q' = q := by
  have e1 := h _ _ hp' hq'
  have e2 := h' _ _ hp hq
  obtain ⟨s, a1, a2, rfl⟩ := hp
  obtain ⟨t, a3, a4, rfl⟩ := hq
  obtain ⟨s', b1, b2, rfl⟩ := hp'
  obtain ⟨t', b3, b4, rfl⟩ := hq'
  have e3 := h _ _ ⟨(s + s') / 2, by linarith, by linarith, rfl⟩ ⟨(t + t') / 2, by linarith, by linarith, rfl⟩
  have key : normSq ((1 - (s + s') / 2) • P0 + ((s + s') / 2) • P1 - ((1 - (t + t') / 2) • Q0 + ((t + t') / 2) • Q1)) =
      (normSq ((1 - s) • P0 + s • P1 - ((1 - t) • Q0 + t • Q1)) + normSq ((1 - s') • P0 + s' • P1 - ((1 - t') • Q0 + t' • Q1))) / 2
        - normSq ((s' - s) • (P1 - P0) - (t' - t) • (Q1 - Q0)) / 4 := by
    simp only [normSq, dot, sub_x, sub_y, sub_z, smul_x, smul_y, smul_z, add_x, add_y, add_z]; ring
  rw [key] at e3
  have hz : normSq ((s' - s) • (P1 - P0) - (t' - t) • (Q1 - Q0)) ≤ 0 := by linarith
  have hv : (s' - s) • (P1 - P0) - (t' - t) • (Q1 - Q0) = 0 := by
    by_contra hc
    exact absurd (normSq_pos _ hc) (not_lt.2 hz)
  have ht : t' - t = 0 := by
    by_contra hc
    refine hn ((s' - s) / (t' - t)) ?_
    have hx := congrArg V3.x hv
    have hy := congrArg V3.y hv
    have hz := congrArg V3.z hv
    simp only [sub_x, sub_y, sub_z, smul_x, smul_y, smul_z, zero_x, zero_y, zero_z] at hx hy hz
    ext
    · simp only [sub_x, smul_x]; field_simp; linarith
    · simp only [sub_y, smul_y]; field_simp; linarith
    · simp only [sub_z, smul_z]; field_simp; linarith
  have hs : s' - s = 0 := by
    by_contra hc
    have e : (s' - s) • (P1 - P0) - (t' - t) • (Q1 - Q0) = (s' - s) • (P1 - P0) := by
      rw [ht]; ext <;> simp
    rw [e] at hv
    have : normSq ((s' - s) • (P1 - P0)) = (s' - s) ^ 2 * normSq (P1 - P0) := by
      simp only [normSq, dot, smul_x, smul_y, smul_z]; ring
    rw [hv] at this
    have h2 : 0 < (s' - s) ^ 2 * normSq (P1 - P0) := by positivity
    rw [← this] at h2
    simp [normSq, dot] at h2
  rw [show s' = s by linarith, show t' = t by linarith]
  exact ⟨rfl, rfl⟩

/-- The closest points found do not depend on which segment is asked first. -/
theorem query_swap (eps : ℝ) (h0 : 0 < eps) (P0 P1 Q0 Q1 : V3) (h : Decided eps P0 P1 Q0 Q1) (r r' : Result) (hr : query eps P0 P1 Q0 Q1 = some r)
    (hr' : query eps Q0 Q1 P0 P1 = some r') : r'.distance = r.distance ∧ r'.Ploc = r.Qloc ∧ r'.Qloc = r.Ploc := by
  obtain ⟨ha, hc, h⟩ := h
  obtain ⟨w, hw, hsq, -⟩ := parameters_spec eps _ (coef_ok P0 P1 Q0 Q1)
  obtain ⟨w', hw', hsq', -⟩ := parameters_spec eps _ (coef_ok Q0 Q1 P0 P1)
  have er := hr
  have er' := hr'
  rw [query_eq eps P0 P1 Q0 Q1 w hw] at er
  rw [query_eq eps Q0 Q1 P0 P1 w' hw'] at er'
  injection er with er
  injection er' with er'
  have dist : ∀ A B : V3, Real.sqrt (dot (A - B) (A - B)) = Real.sqrt (dot (B - A) (B - A)) := by
    intro A B
    congr 1
    simp only [dot, sub_x, sub_y, sub_z]; ring
  suffices hloc : r'.Ploc = r.Qloc ∧ r'.Qloc = r.Ploc by
    refine ⟨?_, hloc⟩
    have d1 : r.distance = Real.sqrt (dot (r.Ploc - r.Qloc) (r.Ploc - r.Qloc)) := by rw [← er]; rfl
    have d2 : r'.distance = Real.sqrt (dot (r'.Ploc - r'.Qloc) (r'.Ploc - r'.Qloc)) := by rw [← er']; rfl
    rw [d1, d2, hloc.1, hloc.2, dist]
  by_cases hpar : ∃ l : ℝ, Q1 - Q0 = l • (P1 - P0)
  · obtain ⟨l, hl⟩ := hpar
    have hPpos : 0 < normSq (P1 - P0) := by linarith
    have hQpos : 0 < normSq (Q1 - Q0) := by linarith
    have hl0 : l ≠ 0 := by
      rintro rfl
      rw [hl] at hQpos
      simp [normSq, dot] at hQpos
    have hl' : P1 - P0 = l⁻¹ • (Q1 - Q0) := by
      rw [hl]
      ext <;> simp [hl0]
    have c1 := centre_parallel eps _ (coef_ok P0 P1 Q0 Q1) h0 ha hc l
      (by simp only [coef, hl, dot, smul_x, smul_y, smul_z]; ring) (by simp only [coef, hl, dot, smul_x, smul_y, smul_z]; ring)
      (by simp only [coef, hl, dot, smul_x, smul_y, smul_z]; ring) w hw
    have c2 := centre_parallel eps _ (coef_ok Q0 Q1 P0 P1) h0 hc ha l⁻¹
      (by simp only [coef]; rw [hl']; simp only [dot, smul_x, smul_y, smul_z]; ring) (by simp only [coef]; rw [hl']; simp only [dot, smul_x, smul_y, smul_z]; ring)
      (by simp only [coef]; rw [hl']; simp only [dot, smul_x, smul_y, smul_z]; ring) w' hw'
    rw [coef_swap] at c2
    obtain ⟨f1, f2⟩ := c1.swap.unique c2
    rw [← er, ← er']
    simp only [f1, f2, and_self]
  · push Not at hpar
    obtain ⟨l, hl⟩ | ⟨h1, h2⟩ := h
    · exact absurd hl (hpar l)
    have m1 := C32_exact_partial eps h0 P0 P1 Q0 Q1 ha hc r hr h1
    have m2 := C32_exact_partial eps h0 Q0 Q1 P0 P1 hc ha r' hr' h2
    have on : OnSegment P0 P1 r.Ploc ∧ OnSegment Q0 Q1 r.Qloc := by
      rw [← er]
      exact ⟨⟨w.s, hsq.1, hsq.2.1, rfl⟩, ⟨w.t, hsq.2.2.1, hsq.2.2.2, rfl⟩⟩
    have on' : OnSegment Q0 Q1 r'.Ploc ∧ OnSegment P0 P1 r'.Qloc := by
      rw [← er']
      exact ⟨⟨w'.s, hsq'.1, hsq'.2.1, rfl⟩, ⟨w'.t, hsq'.2.2.1, hsq'.2.2.2, rfl⟩⟩
    have d1 : r.distance = V3.norm (r.Ploc - r.Qloc) := by rw [← er]
    have d2 : r'.distance = V3.norm (r'.Qloc - r'.Ploc) := by
      rw [← er']
      exact dist _ _
    have sq : ∀ a b : V3, V3.norm a ≤ V3.norm b → normSq a ≤ normSq b := by
      intro a b hab
      unfold V3.norm at hab
      exact (Real.sqrt_le_sqrt_iff (by unfold normSq dot; nlinarith [sq_nonneg b.x, sq_nonneg b.y, sq_nonneg b.z])).1 hab
    have rev : ∀ a b : V3, V3.norm (a - b) = V3.norm (b - a) := dist
    obtain ⟨g1, g2⟩ := nearest_unique hpar (by linarith) on.1 on.2 on'.2 on'.1
      (fun x y hx hy => sq _ _ (by rw [← d1]; exact m1 x y hx hy)) (fun x y hx hy => sq _ _ (by rw [← d2, rev]; exact m2 y x hy hx))
    exact ⟨g2, g1⟩

end Verif.DCP
