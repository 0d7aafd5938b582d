import Verif.Props.DCP
/-! What the mid point shortcut of `ComputeMinimumParameters` returns. -/
namespace Verif.DCP
open Verif.V3 Verif.Spec.DCP

/-- The facts about a query that took a shortcut, for segments not shorter than `sqrt (2 eps)`. -/
structure MidFacts (eps : ℝ) (k : Coef) (p : Param) (e0 e1 : End) : Prop where
  ok0 : EndOK k e0
  ok1 : EndOK k e1
  lt : e0.t < e1.t
  first : ∀ s t, 0 ≤ s → s ≤ 1 → 0 ≤ t → t ≤ 1 → F k s t = 0 → e0.t ≤ t
  last : ∀ s t, 0 ≤ s → s ≤ 1 → 0 ≤ t → t ≤ 1 → F k s t = 0 → t ≤ e1.t
  s : p.s = (1 - 1 / 2) * e0.s + 1 / 2 * e1.s
  t : p.t = (1 - 1 / 2) * e0.t + 1 / 2 * e1.t
  small0 : |(e1.t - e0.t) * G k e0.s e0.t| < max k.c 1 * eps
  small1 : |(e1.t - e0.t) * G k e1.s e1.t| < max k.c 1 * eps

theorem mid_facts (eps : ℝ) (k : Coef) (h0 : 0 < eps) (ha : 2 * eps ≤ k.a) (hc : 2 * eps ≤ k.c) (p : Param)
    (hp : parameters eps k = some p) (hm : p.mid = true) : ∃ e0 e1, MidFacts eps k p e0 e1 := by
  have ha0 : 0 < k.a := by linarith
  have hc0 : 0 < k.c := by linarith
  unfold parameters at hp
  rw [if_pos ⟨ha0, hc0⟩] at hp
  obtain ⟨s0, m0, hs0, hs0l, hs0h, hr0, -⟩ := getClampedRoot_some eps k.a k.f00 k.f10 (by simp [Coef.f10]) ha0
  obtain ⟨s1, m1, hs1, hs1l, hs1h, hr1, -⟩ := getClampedRoot_some eps k.a k.f01 k.f11
    (by simp [Coef.f10, Coef.f11, Coef.f01]) ha0
  have hm0 := getClampedRoot_exact eps k.a k.f00 k.f10 (by simp [Coef.f10]) ha0 ha s0 m0 hs0
  have hm1 := getClampedRoot_exact eps k.a k.f01 k.f11 (by simp [Coef.f10, Coef.f11, Coef.f01]) ha0 ha s1 m1 hs1
  subst hm0 hm1
  simp only [hs0, hs1, Option.bind_eq_bind, Option.bind_some] at hp
  by_cases hn : classify s0 = -1 ∧ classify s1 = -1
  · obtain ⟨r, m, hr, -⟩ := getClampedRoot_some eps k.c k.g00 k.g01 (by simp [Coef.g01]) hc0
    have := getClampedRoot_exact eps k.c k.g00 k.g01 (by simp [Coef.g01]) hc0 hc r m hr
    rw [if_pos hn, hr] at hp
    injection hp with hp
    subst hp; subst this
    simp at hm
  rw [if_neg hn] at hp
  by_cases hq : classify s0 = 1 ∧ classify s1 = 1
  · obtain ⟨r, m, hr, -⟩ := getClampedRoot_some eps k.c k.g10 k.g11 (by simp [Coef.g11]) hc0
    have := getClampedRoot_exact eps k.c k.g10 k.g11 (by simp [Coef.g11]) hc0 hc r m hr
    rw [if_pos hq, hr] at hp
    injection hp with hp
    subst hp; subst this
    simp at hm
  rw [if_neg hq] at hp
  obtain ⟨e0, e1, he, h1, h2, hlt, hb0, hb1, ht0, hb0', hb1', ht1⟩ :=
    computeIntersection_spec k ha0 s0 s1 (hr0 rfl) (hr1 rfl) hn hq
  rw [he] at hp
  simp only [Option.bind_some, Bool.or_false] at hp
  obtain ⟨p', hp', -⟩ := computeMinimum_range eps k hc0 e0 e1 ⟨h1.s0, h1.s1, h1.t0, h1.t1⟩
    ⟨h2.s0, h2.s1, h2.t0, h2.t1⟩
  rw [hp'] at hp
  injection hp with hp
  have hF : ∀ s t, F k s t = k.a * s - k.b * t + k.d := by intro s t; unfold F; ring
  have hl1 := h1.line
  have hl2 := h2.line
  rw [hF] at hl1 hl2
  have first : ∀ s t, 0 ≤ s → s ≤ 1 → 0 ≤ t → t ≤ 1 → F k s t = 0 → e0.t ≤ t := by
    intro s t a1 a2 a3 a4 hl
    rw [hF] at hl
    by_cases c0 : e0.edge = 0
    · have hb := hb0 c0
      rw [h1.e0 c0] at hl1
      have : 0 ≤ k.a * s := by positivity
      by_contra hcon
      rw [not_le] at hcon
      nlinarith
    by_cases c1 : e0.edge = 1
    · have hb := hb1 c1
      rw [h1.e1 c1] at hl1
      have : 0 ≤ k.a * (1 - s) := mul_nonneg ha0.le (by linarith)
      by_contra hcon
      rw [not_le] at hcon
      nlinarith
    · rw [ht0 c0 c1]; exact a3
  have last : ∀ s t, 0 ≤ s → s ≤ 1 → 0 ≤ t → t ≤ 1 → F k s t = 0 → t ≤ e1.t := by
    intro s t a1 a2 a3 a4 hl
    rw [hF] at hl
    by_cases c0 : e1.edge = 0
    · have hb := hb0' c0
      rw [h2.e0 c0] at hl2
      have : 0 ≤ k.a * s := by positivity
      by_contra hcon
      rw [not_le] at hcon
      nlinarith
    by_cases c1 : e1.edge = 1
    · have hb := hb1' c1
      rw [h2.e1 c1] at hl2
      have : 0 ≤ k.a * (1 - s) := mul_nonneg ha0.le (by linarith)
      by_contra hcon
      rw [not_le] at hcon
      nlinarith
    · rw [ht1 c0 c1]; exact a4
  have hG0 : (-k.b * e0.s - k.e) + k.c * e0.t = G k e0.s e0.t := by unfold G; ring
  have hG1 : (-k.b * e1.s - k.e) + k.c * e1.t = G k e1.s e1.t := by unfold G; ring
  have hcm : k.c * eps ≤ max k.c 1 * eps := mul_le_mul_of_nonneg_right (le_max_left _ _) h0.le
  have h1m : 1 * eps ≤ max k.c 1 * eps := mul_le_mul_of_nonneg_right (le_max_right _ _) h0.le
  unfold computeMinimum at hp'
  simp only [hG0, hG1] at hp'
  have hedge : ∀ e x, onEdge eps k e = some x → x.mid = false := by
    intro e x hx
    unfold onEdge at hx
    split at hx
    · obtain ⟨r, m, hr, -⟩ := getClampedRoot_some eps k.c k.g00 k.g01 (by simp [Coef.g01]) hc0
      have := getClampedRoot_exact eps k.c k.g00 k.g01 (by simp [Coef.g01]) hc0 hc r m hr
      rw [hr] at hx; injection hx with hx; rw [← hx]; exact this
    split at hx
    · obtain ⟨r, m, hr, -⟩ := getClampedRoot_some eps k.c k.g10 k.g11 (by simp [Coef.g11]) hc0
      have := getClampedRoot_exact eps k.c k.g10 k.g11 (by simp [Coef.g11]) hc0 hc r m hr
      rw [hr] at hx; injection hx with hx; rw [← hx]; exact this
    · injection hx with hx; rw [← hx]
  have hmp : p'.mid = true := by rw [← hp] at hm; exact hm
  split at hp'
  · rename_i hs
    rw [abs_of_pos hc0] at hs
    injection hp' with hp'
    exact ⟨e0, e1, h1, h2, hlt, first, last, by rw [← hp, ← hp'], by rw [← hp, ← hp'], lt_of_lt_of_le hs.1 hcm,
      lt_of_lt_of_le hs.2 hcm⟩
  split at hp'
  · rw [hedge _ _ hp'] at hmp; cases hmp
  split at hp'
  · rw [hedge _ _ hp'] at hmp; cases hmp
  rename_i n1 n2 n3
  have n2' := not_le.1 n2
  have n3' := not_le.1 n3
  obtain ⟨r, m, hr, -, -, -, hmid⟩ := getClampedRoot_some eps
    ((e1.t - e0.t) * G k e1.s e1.t - (e1.t - e0.t) * G k e0.s e0.t) _ _ rfl (by linarith)
  rw [hr] at hp'
  injection hp' with hp'
  have hmt : m = true := by rw [← hp'] at hmp; exact hmp
  obtain ⟨q0, q1, q2⟩ := hmid hmt
  subst q2
  refine ⟨e0, e1, h1, h2, hlt, first, last, by rw [← hp, ← hp'], by rw [← hp, ← hp'], ?_, ?_⟩
  · linarith
  · linarith

end Verif.DCP
