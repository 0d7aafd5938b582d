import Verif.Model.DCP
import Verif.Spec.DCP
import Verif.Lemmas.Boundary
import Mathlib.Tactic.NormNum
namespace Verif.DCP
open Verif.V3

/-- Half of the derivatives of the squared distance. -/
def F (k : Coef) (s t : ℝ) : ℝ := k.a * s - k.b * t + k.d
def G (k : Coef) (s t : ℝ) : ℝ := -k.b * s + k.c * t - k.e

/-- `r` minimises on `[0,1]` the function with derivative `h0 + slope z`. -/
structure Root (slope h0 r : ℝ) : Prop where
  lo : 0 ≤ r
  hi : r ≤ 1
  opt : ∀ z, 0 ≤ z → z ≤ 1 → 0 ≤ (h0 + slope * r) * (z - r)

theorem dblEps_pos : 0 < dblEps := by unfold dblEps; positivity

theorem getClampedRoot_some (eps slope h0 h1 : ℝ) (hs : slope = h1 - h0) (hp : 0 < slope) :
    ∃ r m, getClampedRoot eps slope h0 h1 = some (r, m) ∧ 0 ≤ r ∧ r ≤ 1 ∧ (m = false → Root slope h0 r) ∧
      (m = true → |h0| < eps ∧ |h1| < eps ∧ r = 1 / 2) := by
  have hass : |slope - (h1 - h0)| < 10 * dblEps * max |h1| |h0| := by
    rw [hs, sub_self, abs_zero]
    have he := dblEps_pos
    have : 0 < max |h1| |h0| := by
      by_contra hc
      rw [not_lt, max_le_iff] at hc
      have h1 := abs_nonpos_iff.1 hc.1
      have h2 := abs_nonpos_iff.1 hc.2
      rw [h1, h2] at hs; linarith
    positivity
  unfold getClampedRoot
  rw [if_neg (not_not.2 hass)]
  by_cases hm : |h0| < eps ∧ |h1| < eps
  · rw [if_pos hm]
    exact ⟨1 / 2, true, rfl, by norm_num, by norm_num, by simp, fun _ => ⟨hm.1, hm.2, rfl⟩⟩
  · rw [if_neg hm]
    by_cases h0n : h0 < 0
    · rw [if_pos h0n]
      by_cases h1p : h1 > 0
      · rw [if_pos h1p, if_neg hp.ne']
        have hr0 : 0 ≤ -h0 / slope := by apply div_nonneg <;> linarith
        have hr1 : -h0 / slope ≤ 1 := by rw [div_le_one hp]; linarith
        rw [max_eq_left hr0, min_eq_left hr1]
        refine ⟨_, false, rfl, hr0, hr1, fun _ => ⟨hr0, hr1, ?_⟩, by simp⟩
        intro z _ _
        have : h0 + slope * (-h0 / slope) = 0 := by field_simp; ring
        rw [this, zero_mul]
      · rw [if_neg h1p]
        refine ⟨1, false, rfl, by norm_num, by norm_num, fun _ => ⟨by norm_num, by norm_num, ?_⟩, by simp⟩
        intro z hz0 hz1
        have : h0 + slope * 1 ≤ 0 := by linarith
        nlinarith
    · rw [if_neg h0n]
      refine ⟨0, false, rfl, by norm_num, by norm_num, fun _ => ⟨by norm_num, by norm_num, ?_⟩, by simp⟩
      intro z hz0 hz1
      have : 0 ≤ h0 + slope * 0 := by linarith
      nlinarith

theorem Root.low {slope h0 r : ℝ} (h : Root slope h0 r) (hr : r ≤ 0) : r = 0 ∧ 0 ≤ h0 := by
  have h0' := h.lo
  have : r = 0 := le_antisymm hr h0'
  subst this
  have := h.opt 1 (by norm_num) le_rfl
  exact ⟨rfl, by linarith⟩

theorem Root.high {slope h0 r : ℝ} (h : Root slope h0 r) (hr : 1 ≤ r) : r = 1 ∧ h0 + slope ≤ 0 := by
  have h0' := h.hi
  have : r = 1 := le_antisymm h0' hr
  subst this
  have := h.opt 0 le_rfl (by norm_num)
  exact ⟨rfl, by linarith⟩

theorem Root.mid {slope h0 r : ℝ} (h : Root slope h0 r) (h0r : 0 < r) (h1r : r < 1) : h0 + slope * r = 0 := by
  have h1 := h.opt 0 le_rfl (by norm_num)
  have h2 := h.opt 1 (by norm_num) le_rfl
  apply le_antisymm <;> nlinarith

theorem Root.lt_zero {slope h0 r : ℝ} (hs : 0 < slope) (h : Root slope h0 r) (h0r : 0 < r) : h0 < 0 := by
  have h1 := h.opt 0 le_rfl (by norm_num)
  by_contra hc
  rw [not_lt] at hc
  have : 0 < (h0 + slope * r) * r := by positivity
  linarith

theorem Root.gt_zero {slope h0 r : ℝ} (hs : 0 < slope) (h : Root slope h0 r) (h0r : r < 1) : 0 < h0 + slope := by
  have h1 := h.opt 1 (by norm_num) le_rfl
  by_contra hc
  rw [not_lt] at hc
  have h2 : h0 + slope * r < 0 := by nlinarith
  have : (h0 + slope * r) * (1 - r) < 0 := mul_neg_of_neg_of_pos h2 (by linarith)
  linarith

/-- First-order optimality on the unit square. -/
structure KKT (k : Coef) (s t : ℝ) : Prop where
  s0 : 0 ≤ s
  s1 : s ≤ 1
  t0 : 0 ≤ t
  t1 : t ≤ 1
  fs : ∀ s', 0 ≤ s' → s' ≤ 1 → 0 ≤ F k s t * (s' - s)
  gt : ∀ t', 0 ≤ t' → t' ≤ 1 → 0 ≤ G k s t * (t' - t)

/-- An end of the segment of intersection. -/
structure EndOK (k : Coef) (e : End) : Prop where
  s0 : 0 ≤ e.s
  s1 : e.s ≤ 1
  t0 : 0 ≤ e.t
  t1 : e.t ≤ 1
  line : F k e.s e.t = 0
  e0 : e.edge = 0 → e.s = 0
  e1 : e.edge = 1 → e.s = 1

theorem classify_cases (s : ℝ) : (s ≤ 0 ∧ classify s = -1) ∨ (1 ≤ s ∧ classify s = 1) ∨
    (0 < s ∧ s < 1 ∧ classify s = 0) := by
  unfold classify
  by_cases h : s ≤ 0
  · left; exact ⟨h, by rw [if_pos h]⟩
  · by_cases h1 : s ≥ 1
    · right; left; exact ⟨h1, by rw [if_neg h, if_pos h1]⟩
    · right; right; exact ⟨not_le.1 h, not_le.1 h1, by rw [if_neg h, if_neg h1]⟩

theorem ratio_eq (num mB : ℝ) (hb : mB ≠ 0) (h0 : 0 ≤ num / mB) (h1 : num / mB ≤ 1) : ratio num mB = some (num / mB) := by
  unfold ratio
  rw [if_neg hb]
  simp only
  rw [if_neg]
  push Not
  exact ⟨h0, h1⟩

theorem ratio_range (num mB : ℝ) (hb : mB ≠ 0) : ∃ r, ratio num mB = some r ∧ 0 ≤ r ∧ r ≤ 1 := by
  unfold ratio
  rw [if_neg hb]
  simp only
  split
  · exact ⟨1 / 2, rfl, by norm_num, by norm_num⟩
  · rename_i h
    push Not at h
    exact ⟨_, rfl, h.1, h.2⟩

theorem computeIntersection_spec (k : Coef) (ha : 0 < k.a) (s0 s1 : ℝ) (h0 : Root k.a k.f00 s0)
    (h1 : Root k.a k.f01 s1) (hn : ¬ (classify s0 = -1 ∧ classify s1 = -1))
    (hp : ¬ (classify s0 = 1 ∧ classify s1 = 1)) :
    ∃ e0 e1, computeIntersection k s0 s1 (classify s0) (classify s1) = some (e0, e1) ∧ EndOK k e0 ∧ EndOK k e1 ∧
      e0.t < e1.t ∧ (e0.edge = 0 → 0 < k.b) ∧ (e0.edge = 1 → k.b < 0) ∧ (e0.edge ≠ 0 → e0.edge ≠ 1 → e0.t = 0) ∧
      (e1.edge = 0 → k.b < 0) ∧ (e1.edge = 1 → 0 < k.b) ∧ (e1.edge ≠ 0 → e1.edge ≠ 1 → e1.t = 1) := by
  have hf01 : k.f01 = k.d - k.b := rfl
  have hf00 : k.f00 = k.d := rfl
  have hf10 : k.f10 = k.d + k.a := rfl
  rw [hf01] at h1
  rw [hf00] at h0
  unfold computeIntersection
  rw [hf00, hf10]
  rcases classify_cases s0 with ⟨c0, e0⟩ | ⟨c0, e0⟩ | ⟨c0, c0', e0⟩ <;>
    rcases classify_cases s1 with ⟨c1, e1⟩ | ⟨c1, e1⟩ | ⟨c1, c1', e1⟩
  · exact absurd ⟨e0, e1⟩ hn
  · -- -1, 1
    obtain ⟨-, hd⟩ := h0.low c0
    obtain ⟨-, hd1⟩ := h1.high c1
    have hb : 0 < k.b := by linarith
    have r0 : ratio k.d k.b = some (k.d / k.b) := ratio_eq _ _ hb.ne' (by positivity) (by rw [div_le_one hb]; linarith)
    have r1 : ratio (k.d + k.a) k.b = some ((k.d + k.a) / k.b) :=
      ratio_eq _ _ hb.ne' (by positivity) (by rw [div_le_one hb]; linarith)
    rw [e0, e1]
    simp only [r0, r1, Int.reduceNeg, Int.reduceLT, if_true, one_ne_zero, if_false, Option.bind_eq_bind, Option.bind_some]
    refine ⟨_, _, rfl, ⟨le_rfl, by norm_num, by positivity, by show k.d / k.b ≤ 1; rw [div_le_one hb]; linarith, ?_, by simp, by simp⟩,
      ⟨by norm_num, le_rfl, by show 0 ≤ (k.d + k.a) / k.b; positivity, by show (k.d + k.a) / k.b ≤ 1; rw [div_le_one hb]; linarith, ?_, by simp, by simp⟩,
      ?_, by simp [hb], by simp, by simp, by simp, by simp [hb], by simp⟩
    · simp only [F]; field_simp; ring
    · simp only [F]; field_simp; ring
    · show k.d / k.b < (k.d + k.a) / k.b
      rw [div_lt_div_iff_of_pos_right hb]; linarith
  · -- -1, 0
    obtain ⟨-, hd⟩ := h0.low c0
    have hl := h1.lt_zero ha c1
    have hm := h1.mid c1 c1'
    have hb : 0 < k.b := by linarith
    have r0 : ratio k.d k.b = some (k.d / k.b) := ratio_eq _ _ hb.ne' (by positivity) (by rw [div_le_one hb]; linarith)
    rw [e0, e1]
    simp only [r0, Int.reduceNeg, Int.reduceLT, if_true, Option.bind_eq_bind, Option.bind_some]
    refine ⟨_, _, rfl, ⟨le_rfl, by norm_num, by positivity, by show k.d / k.b ≤ 1; rw [div_le_one hb]; linarith, ?_, by simp, by simp⟩,
      ⟨c1.le, c1'.le, by norm_num, le_rfl, ?_, by simp, by simp⟩,
      ?_, by simp [hb], by simp, by simp, by simp, by simp, by simp⟩
    · simp only [F]; field_simp; ring
    · simp only [F]; linarith
    · show k.d / k.b < 1
      rw [div_lt_one hb]; linarith
  · -- 1, -1
    obtain ⟨-, hd⟩ := h0.high c0
    obtain ⟨-, hd1⟩ := h1.low c1
    have hb : k.b < 0 := by linarith
    have hb' : k.b ≠ 0 := hb.ne
    have r1 : ratio k.d k.b = some (k.d / k.b) :=
      ratio_eq _ _ hb' (div_nonneg_of_nonpos (by linarith) hb.le) (by rw [div_le_one_of_neg hb]; linarith)
    have r0 : ratio (k.d + k.a) k.b = some ((k.d + k.a) / k.b) :=
      ratio_eq _ _ hb' (div_nonneg_of_nonpos (by linarith) hb.le) (by rw [div_le_one_of_neg hb]; linarith)
    rw [e0, e1]
    simp only [r0, r1, Int.reduceNeg, Int.reduceLT, one_ne_zero, if_false, Option.bind_eq_bind, Option.bind_some]
    refine ⟨_, _, rfl, ⟨by norm_num, le_rfl, div_nonneg_of_nonpos (by linarith) hb.le, by show (k.d + k.a) / k.b ≤ 1; rw [div_le_one_of_neg hb]; linarith, ?_, by simp, by simp⟩,
      ⟨le_rfl, by norm_num, div_nonneg_of_nonpos (by linarith) hb.le, by show k.d / k.b ≤ 1; rw [div_le_one_of_neg hb]; linarith, ?_, by simp, by simp⟩,
      ?_, by simp, by simp [hb], by simp, by simp [hb], by simp, by simp⟩
    · simp only [F]; field_simp; ring
    · simp only [F]; field_simp; ring
    · show (k.d + k.a) / k.b < k.d / k.b
      rw [div_lt_div_right_of_neg hb]; linarith
  · exact absurd ⟨e0, e1⟩ hp
  · -- 1, 0
    obtain ⟨-, hd⟩ := h0.high c0
    have hl := h1.gt_zero ha c1'
    have hm := h1.mid c1 c1'
    have hb : k.b < 0 := by linarith
    have hb' : k.b ≠ 0 := hb.ne
    have r0 : ratio (k.d + k.a) k.b = some ((k.d + k.a) / k.b) :=
      ratio_eq _ _ hb' (div_nonneg_of_nonpos (by linarith) hb.le) (by rw [div_le_one_of_neg hb]; linarith)
    rw [e0, e1]
    simp only [r0, Int.reduceLT, if_true, one_ne_zero, if_false, Option.bind_eq_bind, Option.bind_some]
    refine ⟨_, _, rfl, ⟨by norm_num, le_rfl, div_nonneg_of_nonpos (by linarith) hb.le, by show (k.d + k.a) / k.b ≤ 1; rw [div_le_one_of_neg hb]; linarith, ?_, by simp, by simp⟩,
      ⟨c1.le, c1'.le, by norm_num, le_rfl, ?_, by simp, by simp⟩,
      ?_, by simp, by simp [hb], by simp, by simp, by simp, by simp⟩
    · simp only [F]; field_simp; ring
    · simp only [F]; linarith
    · show (k.d + k.a) / k.b < 1
      rw [div_lt_one_of_neg hb]; linarith
  · -- 0, -1
    obtain ⟨-, hd1⟩ := h1.low c1
    have hl := h0.lt_zero ha c0
    have hm := h0.mid c0 c0'
    have hb : k.b < 0 := by linarith
    have hb' : k.b ≠ 0 := hb.ne
    have r1 : ratio k.d k.b = some (k.d / k.b) :=
      ratio_eq _ _ hb' (div_nonneg_of_nonpos (by linarith) hb.le) (by rw [div_le_one_of_neg hb]; linarith)
    rw [e0, e1]
    simp only [r1, Int.reduceNeg, Int.reduceLT, if_true, lt_self_iff_false, if_false, Option.bind_eq_bind, Option.bind_some]
    refine ⟨_, _, rfl, ⟨c0.le, c0'.le, le_rfl, by norm_num, ?_, by simp, by simp⟩,
      ⟨le_rfl, by norm_num, div_nonneg_of_nonpos (by linarith) hb.le, by show k.d / k.b ≤ 1; rw [div_le_one_of_neg hb]; linarith, ?_, by simp, by simp⟩,
      ?_, by simp, by simp, by simp, by simp [hb], by simp, by simp⟩
    · simp only [F]; linarith
    · simp only [F]; field_simp; ring
    · show 0 < k.d / k.b
      exact div_pos_of_neg_of_neg hl hb
  · -- 0, 1
    obtain ⟨-, hd1⟩ := h1.high c1
    have hl := h0.gt_zero ha c0'
    have hm := h0.mid c0 c0'
    have hb : 0 < k.b := by linarith
    have r1 : ratio (k.d + k.a) k.b = some ((k.d + k.a) / k.b) :=
      ratio_eq _ _ hb.ne' (by positivity) (by rw [div_le_one hb]; linarith)
    rw [e0, e1]
    simp only [r1, Int.reduceLT, if_true, lt_self_iff_false, one_ne_zero, if_false, Option.bind_eq_bind, Option.bind_some]
    refine ⟨_, _, rfl, ⟨c0.le, c0'.le, le_rfl, by norm_num, ?_, by simp, by simp⟩,
      ⟨by norm_num, le_rfl, by show 0 ≤ (k.d + k.a) / k.b; positivity, by show (k.d + k.a) / k.b ≤ 1; rw [div_le_one hb]; linarith, ?_, by simp, by simp⟩,
      ?_, by simp, by simp, by simp, by simp, by simp [hb], by simp⟩
    · simp only [F]; linarith
    · simp only [F]; field_simp; ring
    · show 0 < (k.d + k.a) / k.b
      positivity
  · -- 0, 0
    have hm0 := h0.mid c0 c0'
    have hm := h1.mid c1 c1'
    rw [e0, e1]
    simp only [if_true, lt_self_iff_false, if_false]
    refine ⟨_, _, rfl, ⟨c0.le, c0'.le, le_rfl, by norm_num, ?_, by simp, by simp⟩,
      ⟨c1.le, c1'.le, by norm_num, le_rfl, ?_, by simp, by simp⟩,
      by norm_num, by simp, by simp, by simp, by simp, by simp, by simp⟩
    · simp only [F]; linarith
    · simp only [F]; linarith

end Verif.DCP

namespace Verif.DCP
open Verif.V3

theorem KKT.of_edge_low (k : Coef) (hc : 0 < k.c) (s t e : ℝ) (hs : s = 0 ∨ s = 1) (he0 : 0 ≤ e) (he1 : e ≤ 1)
    (hr : Root k.c (G k s 0) t) (hline : F k s e = 0) (hG : 0 ≤ G k s e)
    (hb : (s = 0 ∧ 0 < k.b) ∨ (s = 1 ∧ k.b < 0)) : KKT k s t := by
  have hGt : G k s t = G k s 0 + k.c * t := by unfold G; ring
  have hGe : G k s t = G k s e + k.c * (t - e) := by unfold G; ring
  have hFe : F k s t = F k s e + k.b * (e - t) := by unfold F; ring
  have hte : t ≤ e := by
    by_contra hcon
    rw [not_le] at hcon
    have h1 := hr.opt e he0 he1
    rw [← hGt] at h1
    have h2 : 0 < G k s t := by rw [hGe]; have := mul_pos hc (sub_pos.2 hcon); linarith
    nlinarith
  refine ⟨by rcases hs with rfl | rfl <;> norm_num, by rcases hs with rfl | rfl <;> norm_num, hr.lo, hr.hi, ?_, ?_⟩
  · intro s' h0 h1
    rw [hFe, hline]
    rcases hb with ⟨rfl, hb⟩ | ⟨rfl, hb⟩
    · have : 0 ≤ k.b * (e - t) := mul_nonneg hb.le (by linarith)
      rw [zero_add, sub_zero]; positivity
    · have : k.b * (e - t) ≤ 0 := mul_nonpos_of_nonpos_of_nonneg hb.le (by linarith)
      rw [zero_add]; exact mul_nonneg_of_nonpos_of_nonpos this (by linarith)
  · intro t' h0 h1
    rw [hGt]; exact hr.opt t' h0 h1

theorem KKT.of_edge_high (k : Coef) (hc : 0 < k.c) (s t e : ℝ) (hs : s = 0 ∨ s = 1) (he0 : 0 ≤ e) (he1 : e ≤ 1)
    (hr : Root k.c (G k s 0) t) (hline : F k s e = 0) (hG : G k s e ≤ 0)
    (hb : (s = 0 ∧ k.b < 0) ∨ (s = 1 ∧ 0 < k.b)) : KKT k s t := by
  have hGt : G k s t = G k s 0 + k.c * t := by unfold G; ring
  have hGe : G k s t = G k s e + k.c * (t - e) := by unfold G; ring
  have hFe : F k s t = F k s e + k.b * (e - t) := by unfold F; ring
  have hte : e ≤ t := by
    by_contra hcon
    rw [not_le] at hcon
    have h1 := hr.opt e he0 he1
    rw [← hGt] at h1
    have h2 : G k s t < 0 := by rw [hGe]; have := mul_pos hc (sub_pos.2 hcon); linarith
    nlinarith
  refine ⟨by rcases hs with rfl | rfl <;> norm_num, by rcases hs with rfl | rfl <;> norm_num, hr.lo, hr.hi, ?_, ?_⟩
  · intro s' h0 h1
    rw [hFe, hline]
    rcases hb with ⟨rfl, hb⟩ | ⟨rfl, hb⟩
    · have : 0 ≤ k.b * (e - t) := mul_nonneg_of_nonpos_of_nonpos hb.le (by linarith)
      rw [zero_add, sub_zero]; positivity
    · have : k.b * (e - t) ≤ 0 := mul_nonpos_of_nonneg_of_nonpos hb.le (by linarith)
      rw [zero_add]; exact mul_nonneg_of_nonpos_of_nonpos this (by linarith)
  · intro t' h0 h1
    rw [hGt]; exact hr.opt t' h0 h1

theorem g00_eq (k : Coef) : k.g00 = G k 0 0 := by simp [Coef.g00, G]
theorem g10_eq (k : Coef) : k.g10 = G k 1 0 := by simp [Coef.g10, Coef.g00, G]; ring

/-- Result in the unit square. -/
def InSquare (p : Param) : Prop := 0 ≤ p.s ∧ p.s ≤ 1 ∧ 0 ≤ p.t ∧ p.t ≤ 1

theorem onEdge_spec (eps : ℝ) (k : Coef) (hc : 0 < k.c) (e : End) (hs0 : 0 ≤ e.s) (hs1 : e.s ≤ 1) (ht0 : 0 ≤ e.t)
    (ht1 : e.t ≤ 1) : ∃ p, onEdge eps k e = some p ∧ InSquare p ∧ (p.mid = false →
      (e.edge = 0 → p.s = 0 ∧ Root k.c (G k 0 0) p.t) ∧ (e.edge = 1 → p.s = 1 ∧ Root k.c (G k 1 0) p.t)) ∧
      (e.edge ≠ 0 → e.edge ≠ 1 → p = ⟨e.s, e.t, false⟩) := by
  unfold onEdge
  by_cases h0 : e.edge = 0
  · obtain ⟨r, m, hr, h1, h2, h3, -⟩ := getClampedRoot_some eps k.c k.g00 k.g01 (by simp [Coef.g01]) hc
    rw [if_pos h0, hr]
    exact ⟨⟨0, r, m⟩, rfl, ⟨le_rfl, by norm_num, h1, h2⟩, fun hm => ⟨fun _ => ⟨rfl, g00_eq k ▸ h3 hm⟩, fun h => by omega⟩,
      fun h => absurd h0 h⟩
  · rw [if_neg h0]
    by_cases h1 : e.edge = 1
    · obtain ⟨r, m, hr, h1', h2, h3, -⟩ := getClampedRoot_some eps k.c k.g10 k.g11 (by simp [Coef.g11]) hc
      rw [if_pos h1, hr]
      exact ⟨⟨1, r, m⟩, rfl, ⟨by norm_num, le_rfl, h1', h2⟩,
        fun hm => ⟨fun h => absurd h h0, fun _ => ⟨rfl, g10_eq k ▸ h3 hm⟩⟩, fun _ h => absurd h1 h⟩
    · rw [if_neg h1]
      exact ⟨_, rfl, ⟨hs0, hs1, ht0, ht1⟩, fun _ => ⟨fun h => absurd h h0, fun h => absurd h h1⟩, fun _ _ => rfl⟩

theorem between_range (z x y : ℝ) (hz0 : 0 ≤ z) (hz1 : z ≤ 1) (hx0 : 0 ≤ x) (hx1 : x ≤ 1) (hy0 : 0 ≤ y) (hy1 : y ≤ 1) :
    0 ≤ (1 - z) * x + z * y ∧ (1 - z) * x + z * y ≤ 1 := by
  have : 0 ≤ 1 - z := by linarith
  constructor
  · positivity
  · nlinarith

/-- Defined and in the square, whatever the ends. -/
theorem computeMinimum_range (eps : ℝ) (k : Coef) (hc : 0 < k.c) (e0 e1 : End)
    (h0 : 0 ≤ e0.s ∧ e0.s ≤ 1 ∧ 0 ≤ e0.t ∧ e0.t ≤ 1) (h1 : 0 ≤ e1.s ∧ e1.s ≤ 1 ∧ 0 ≤ e1.t ∧ e1.t ≤ 1) :
    ∃ p, computeMinimum eps k e0 e1 = some p ∧ InSquare p := by
  unfold computeMinimum
  simp only
  split
  · refine ⟨_, rfl, ?_⟩
    have ha := between_range (1 / 2) e0.s e1.s (by norm_num) (by norm_num) h0.1 h0.2.1 h1.1 h1.2.1
    have hb := between_range (1 / 2) e0.t e1.t (by norm_num) (by norm_num) h0.2.2.1 h0.2.2.2 h1.2.2.1 h1.2.2.2
    exact ⟨ha.1, ha.2, hb.1, hb.2⟩
  split
  · obtain ⟨p, hp, hq, -⟩ := onEdge_spec eps k hc e0 h0.1 h0.2.1 h0.2.2.1 h0.2.2.2
    exact ⟨p, hp, hq⟩
  split
  · obtain ⟨p, hp, hq, -⟩ := onEdge_spec eps k hc e1 h1.1 h1.2.1 h1.2.2.1 h1.2.2.2
    exact ⟨p, hp, hq⟩
  · rename_i hh0 hh1
    obtain ⟨z, m, hz, hz0, hz1, -⟩ := getClampedRoot_some eps _ _ _ rfl (sub_pos.2 (lt_trans (not_le.1 hh0) (not_le.1 hh1)))
    rw [hz]
    refine ⟨_, rfl, ?_⟩
    have ha := between_range z e0.s e1.s hz0 hz1 h0.1 h0.2.1 h1.1 h1.2.1
    have hb := between_range z e0.t e1.t hz0 hz1 h0.2.2.1 h0.2.2.2 h1.2.2.1 h1.2.2.2
    exact ⟨ha.1, ha.2, hb.1, hb.2⟩

theorem computeMinimum_kkt (eps : ℝ) (k : Coef) (hc : 0 < k.c) (e0 e1 : End) (h0 : EndOK k e0) (h1 : EndOK k e1)
    (ht : e0.t < e1.t) (ha0 : e0.edge = 0 → 0 < k.b) (ha1 : e0.edge = 1 → k.b < 0)
    (ha2 : e0.edge ≠ 0 → e0.edge ≠ 1 → e0.t = 0)
    (hb0 : e1.edge = 0 → k.b < 0) (hb1 : e1.edge = 1 → 0 < k.b) (hb2 : e1.edge ≠ 0 → e1.edge ≠ 1 → e1.t = 1)
    (p : Param) (hp : computeMinimum eps k e0 e1 = some p) (hm : p.mid = false) : KKT k p.s p.t := by
  have hd : 0 < e1.t - e0.t := by linarith
  have hG0 : (-k.b * e0.s - k.e) + k.c * e0.t = G k e0.s e0.t := by unfold G; ring
  have hG1 : (-k.b * e1.s - k.e) + k.c * e1.t = G k e1.s e1.t := by unfold G; ring
  unfold computeMinimum at hp
  simp only [hG0, hG1] at hp
  split at hp
  · injection hp with hp; subst hp; simp at hm
  split at hp
  · rename_i hh
    have hg : 0 ≤ G k e0.s e0.t := by
      by_contra hcon; rw [not_le] at hcon
      have := mul_neg_of_pos_of_neg hd hcon; linarith
    obtain ⟨p', hp', -, hq, hq2⟩ := onEdge_spec eps k hc e0 h0.s0 h0.s1 h0.t0 h0.t1
    rw [hp'] at hp; injection hp with hp; subst hp
    obtain ⟨q0, q1⟩ := hq hm
    by_cases c0 : e0.edge = 0
    · obtain ⟨hs, hr⟩ := q0 c0
      have hes := h0.e0 c0
      have hl := h0.line
      rw [hes] at hg hl
      rw [hs]
      exact KKT.of_edge_low k hc 0 p'.t e0.t (Or.inl rfl) h0.t0 h0.t1 hr hl hg (Or.inl ⟨rfl, ha0 c0⟩)
    · by_cases c1 : e0.edge = 1
      · obtain ⟨hs, hr⟩ := q1 c1
        have hes := h0.e1 c1
        have hl := h0.line
        rw [hes] at hg hl
        rw [hs]
        exact KKT.of_edge_low k hc 1 p'.t e0.t (Or.inr rfl) h0.t0 h0.t1 hr hl hg (Or.inr ⟨rfl, ha1 c1⟩)
      · rw [hq2 c0 c1]
        have hz := ha2 c0 c1
        refine ⟨h0.s0, h0.s1, h0.t0, h0.t1, fun s' _ _ => by simp only [h0.line, zero_mul, le_refl], fun t' h _ => ?_⟩
        exact mul_nonneg hg (by simp only [hz]; linarith)
  split at hp
  · rename_i hh0 hh
    have hg : G k e1.s e1.t ≤ 0 := by
      by_contra hcon; rw [not_le] at hcon
      have := mul_pos hd hcon; linarith
    obtain ⟨p', hp', -, hq, hq2⟩ := onEdge_spec eps k hc e1 h1.s0 h1.s1 h1.t0 h1.t1
    rw [hp'] at hp; injection hp with hp; subst hp
    obtain ⟨q0, q1⟩ := hq hm
    by_cases c0 : e1.edge = 0
    · obtain ⟨hs, hr⟩ := q0 c0
      have hes := h1.e0 c0
      have hl := h1.line
      rw [hes] at hg hl
      rw [hs]
      exact KKT.of_edge_high k hc 0 p'.t e1.t (Or.inl rfl) h1.t0 h1.t1 hr hl hg (Or.inl ⟨rfl, hb0 c0⟩)
    · by_cases c1 : e1.edge = 1
      · obtain ⟨hs, hr⟩ := q1 c1
        have hes := h1.e1 c1
        have hl := h1.line
        rw [hes] at hg hl
        rw [hs]
        exact KKT.of_edge_high k hc 1 p'.t e1.t (Or.inr rfl) h1.t0 h1.t1 hr hl hg (Or.inr ⟨rfl, hb1 c1⟩)
      · rw [hq2 c0 c1]
        have hz := hb2 c0 c1
        refine ⟨h1.s0, h1.s1, h1.t0, h1.t1, fun s' _ _ => by simp only [h1.line, zero_mul, le_refl], fun t' _ h => ?_⟩
        exact mul_nonneg_of_nonpos_of_nonpos hg (by simp only [hz]; linarith)
  · rename_i hh0 hh1
    rw [ge_iff_le, not_le] at hh0
    rw [not_le] at hh1
    obtain ⟨z, m, hz, hz0, hz1, hroot, -⟩ := getClampedRoot_some eps _ _ _ rfl (sub_pos.2 (lt_trans hh0 hh1))
    rw [hz] at hp
    injection hp with hp
    subst hp
    have hR := hroot hm
    have hne : ∀ x : ℝ, x = (e1.t - e0.t) * G k e0.s e0.t → True := fun _ _ => trivial
    have hz0' : 0 < z := by
      by_contra hcon
      obtain ⟨-, h⟩ := hR.low (not_lt.1 hcon)
      linarith
    have hz1' : z < 1 := by
      by_contra hcon
      obtain ⟨-, h⟩ := hR.high (not_lt.1 hcon)
      linarith
    have hzero := hR.mid hz0' hz1'
    have ha := between_range z e0.s e1.s hz0 hz1 h0.s0 h0.s1 h1.s0 h1.s1
    have hb := between_range z e0.t e1.t hz0 hz1 h0.t0 h0.t1 h1.t0 h1.t1
    have hF : F k ((1 - z) * e0.s + z * e1.s) ((1 - z) * e0.t + z * e1.t) = 0 := by
      have : F k ((1 - z) * e0.s + z * e1.s) ((1 - z) * e0.t + z * e1.t)
          = (1 - z) * F k e0.s e0.t + z * F k e1.s e1.t := by unfold F; ring
      rw [this, h0.line, h1.line]; ring
    have hG : G k ((1 - z) * e0.s + z * e1.s) ((1 - z) * e0.t + z * e1.t) = 0 := by
      have e : G k ((1 - z) * e0.s + z * e1.s) ((1 - z) * e0.t + z * e1.t)
          = (1 - z) * G k e0.s e0.t + z * G k e1.s e1.t := by unfold G; ring
      have : (e1.t - e0.t) * ((1 - z) * G k e0.s e0.t + z * G k e1.s e1.t) = 0 := by linarith
      rw [e]
      rcases mul_eq_zero.1 this with h | h
      · linarith
      · exact h
    exact ⟨ha.1, ha.2, hb.1, hb.2, fun s' _ _ => by simp only [hF, zero_mul, le_refl],
      fun t' _ _ => by simp only [hG, zero_mul, le_refl]⟩

theorem computeIntersection_range (k : Coef) (s0 s1 : ℝ) (h0 : 0 ≤ s0 ∧ s0 ≤ 1) (h1 : 0 ≤ s1 ∧ s1 ≤ 1)
    (hb : k.b ≠ 0 ∨ (classify s0 = 0 ∧ classify s1 = 0)) :
    ∃ e0 e1, computeIntersection k s0 s1 (classify s0) (classify s1) = some (e0, e1) ∧
      (0 ≤ e0.s ∧ e0.s ≤ 1 ∧ 0 ≤ e0.t ∧ e0.t ≤ 1) ∧ (0 ≤ e1.s ∧ e1.s ≤ 1 ∧ 0 ≤ e1.t ∧ e1.t ≤ 1) := by
  rcases hb with hb | ⟨c0, c1⟩
  · obtain ⟨r, hr, hr0, hr1⟩ := ratio_range k.f00 k.b hb
    obtain ⟨r', hr', hr0', hr1'⟩ := ratio_range k.f10 k.b hb
    unfold computeIntersection
    simp only [hr, hr', Option.bind_eq_bind, Option.bind_some]
    split
    · split
      · exact ⟨_, _, rfl, ⟨le_rfl, by norm_num, hr0, hr1⟩, ⟨h1.1, h1.2, by norm_num, le_rfl⟩⟩
      · exact ⟨_, _, rfl, ⟨le_rfl, by norm_num, hr0, hr1⟩, ⟨by norm_num, le_rfl, hr0', hr1'⟩⟩
    · split
      · split
        · exact ⟨_, _, rfl, ⟨h0.1, h0.2, le_rfl, by norm_num⟩, ⟨le_rfl, by norm_num, hr0, hr1⟩⟩
        · split
          · exact ⟨_, _, rfl, ⟨h0.1, h0.2, le_rfl, by norm_num⟩, ⟨h1.1, h1.2, by norm_num, le_rfl⟩⟩
          · exact ⟨_, _, rfl, ⟨h0.1, h0.2, le_rfl, by norm_num⟩, ⟨by norm_num, le_rfl, hr0', hr1'⟩⟩
      · split
        · exact ⟨_, _, rfl, ⟨by norm_num, le_rfl, hr0', hr1'⟩, ⟨h1.1, h1.2, by norm_num, le_rfl⟩⟩
        · exact ⟨_, _, rfl, ⟨by norm_num, le_rfl, hr0', hr1'⟩, ⟨le_rfl, by norm_num, hr0, hr1⟩⟩
  · unfold computeIntersection
    rw [c0, c1]
    simp only [lt_self_iff_false, if_false, if_true]
    exact ⟨_, _, rfl, ⟨h0.1, h0.2, le_rfl, by norm_num⟩, ⟨h1.1, h1.2, by norm_num, le_rfl⟩⟩

/-- The coefficients of two segments. -/
structure CoefOK (k : Coef) : Prop where
  a : 0 ≤ k.a
  c : 0 ≤ k.c
  a0 : k.a = 0 → k.b = 0 ∧ k.d = 0
  c0 : k.c = 0 → k.b = 0 ∧ k.e = 0

theorem F_edge (k : Coef) (s : ℝ) (h0 : 0 ≤ F k s 0) (h1 : 0 ≤ F k s 1) (t : ℝ) (ht0 : 0 ≤ t) (ht1 : t ≤ 1) :
    0 ≤ F k s t := by
  have : F k s t = (1 - t) * F k s 0 + t * F k s 1 := by unfold F; ring
  rw [this]
  have : 0 ≤ 1 - t := by linarith
  positivity

theorem F_edge' (k : Coef) (s : ℝ) (h0 : F k s 0 ≤ 0) (h1 : F k s 1 ≤ 0) (t : ℝ) (ht0 : 0 ≤ t) (ht1 : t ≤ 1) :
    F k s t ≤ 0 := by
  have : F k s t = (1 - t) * F k s 0 + t * F k s 1 := by unfold F; ring
  rw [this]
  have : 0 ≤ 1 - t := by linarith
  have h2 := mul_nonneg this (neg_nonneg.2 h0)
  have h3 := mul_nonneg ht0 (neg_nonneg.2 h1)
  linarith

/-- The parameters are always defined and in the unit square, and optimal unless a mid point was taken. -/
theorem parameters_spec (eps : ℝ) (k : Coef) (hk : CoefOK k) :
    ∃ p, parameters eps k = some p ∧ InSquare p ∧ (p.mid = false → KKT k p.s p.t) := by
  unfold parameters
  by_cases hac : k.a > 0 ∧ k.c > 0
  · rw [if_pos hac]
    obtain ⟨ha, hc⟩ := hac
    obtain ⟨s0, m0, hs0, hs0l, hs0h, hr0, -⟩ := getClampedRoot_some eps k.a k.f00 k.f10 (by simp [Coef.f10]) ha
    obtain ⟨s1, m1, hs1, hs1l, hs1h, hr1, -⟩ := getClampedRoot_some eps k.a k.f01 k.f11
      (by simp [Coef.f10, Coef.f11, Coef.f01]) ha
    have heq : k.b = 0 → s0 = s1 := by
      intro hb
      have e1 : k.f01 = k.f00 := by simp [Coef.f01, hb]
      have e2 : k.f11 = k.f10 := by simp [Coef.f11, hb]
      rw [e1, e2, hs0] at hs1
      injection hs1 with h; exact congrArg Prod.fst h
    simp only [hs0, hs1, Option.bind_eq_bind, Option.bind_some]
    by_cases hn : classify s0 = -1 ∧ classify s1 = -1
    · obtain ⟨r, m, hr, hl, hh, hroot, -⟩ := getClampedRoot_some eps k.c k.g00 k.g01 (by simp [Coef.g01]) hc
      rw [if_pos hn, hr]
      refine ⟨_, rfl, ⟨le_rfl, by norm_num, hl, hh⟩, ?_⟩
      intro hm
      simp only [Bool.or_eq_false_iff] at hm
      obtain ⟨⟨hm, hm0⟩, hm1⟩ := hm
      have hF0 : 0 ≤ F k 0 0 := by
        rcases classify_cases s0 with ⟨h, -⟩ | ⟨-, h⟩ | ⟨-, -, h⟩
        · have := ((hr0 hm0).low h).2; simpa [F, Coef.f00] using this
        · rw [hn.1] at h; omega
        · rw [hn.1] at h; omega
      have hF1 : 0 ≤ F k 0 1 := by
        rcases classify_cases s1 with ⟨h, -⟩ | ⟨-, h⟩ | ⟨-, -, h⟩
        · have := ((hr1 hm1).low h).2
          simp only [Coef.f01, Coef.f00] at this
          unfold F; linarith
        · rw [hn.2] at h; omega
        · rw [hn.2] at h; omega
      have hR := g00_eq k ▸ hroot hm
      have hF := F_edge k 0 hF0 hF1 r hl hh
      refine ⟨le_rfl, by norm_num, hl, hh, fun s' h _ => mul_nonneg hF (by simpa using h), fun t' h h' => ?_⟩
      have : G k 0 r = G k 0 0 + k.c * r := by unfold G; ring
      show 0 ≤ G k 0 r * (t' - r)
      rw [this]; exact hR.opt t' h h'
    · rw [if_neg hn]
      by_cases hp : classify s0 = 1 ∧ classify s1 = 1
      · obtain ⟨r, m, hr, hl, hh, hroot, -⟩ := getClampedRoot_some eps k.c k.g10 k.g11 (by simp [Coef.g11]) hc
        rw [if_pos hp, hr]
        refine ⟨_, rfl, ⟨by norm_num, le_rfl, hl, hh⟩, ?_⟩
        intro hm
        simp only [Bool.or_eq_false_iff] at hm
        obtain ⟨⟨hm, hm0⟩, hm1⟩ := hm
        have hF0 : F k 1 0 ≤ 0 := by
          rcases classify_cases s0 with ⟨-, h⟩ | ⟨h, -⟩ | ⟨-, -, h⟩
          · rw [hp.1] at h; omega
          · have := ((hr0 hm0).high h).2
            simp only [Coef.f00] at this
            unfold F; linarith
          · rw [hp.1] at h; omega
        have hF1 : F k 1 1 ≤ 0 := by
          rcases classify_cases s1 with ⟨-, h⟩ | ⟨h, -⟩ | ⟨-, -, h⟩
          · rw [hp.2] at h; omega
          · have := ((hr1 hm1).high h).2
            simp only [Coef.f00, Coef.f01] at this
            unfold F; linarith
          · rw [hp.2] at h; omega
        have hR := g10_eq k ▸ hroot hm
        have hF := F_edge' k 1 hF0 hF1 r hl hh
        refine ⟨by norm_num, le_rfl, hl, hh,
          fun s' _ h => mul_nonneg_of_nonpos_of_nonpos hF (by simpa using h), fun t' h h' => ?_⟩
        have : G k 1 r = G k 1 0 + k.c * r := by unfold G; ring
        show 0 ≤ G k 1 r * (t' - r)
        rw [this]; exact hR.opt t' h h'
      · rw [if_neg hp]
        have hb : k.b ≠ 0 ∨ (classify s0 = 0 ∧ classify s1 = 0) := by
          by_cases hb : k.b = 0
          · right
            have := heq hb
            subst this
            rcases classify_cases s0 with ⟨-, h⟩ | ⟨-, h⟩ | ⟨-, -, h⟩
            · exact absurd ⟨h, h⟩ hn
            · exact absurd ⟨h, h⟩ hp
            · exact ⟨h, h⟩
          · exact Or.inl hb
        obtain ⟨e0, e1, he, hr0', hr1'⟩ := computeIntersection_range k s0 s1 ⟨hs0l, hs0h⟩ ⟨hs1l, hs1h⟩ hb
        obtain ⟨p, hpp, hsq⟩ := computeMinimum_range eps k hc e0 e1 hr0' hr1'
        rw [he]
        simp only [Option.bind_some, hpp]
        refine ⟨_, rfl, hsq, ?_⟩
        intro hm
        simp only [Bool.or_eq_false_iff] at hm
        obtain ⟨⟨hm, hm0⟩, hm1⟩ := hm
        obtain ⟨e0', e1', he', h1, h2, h3, h4, h5, h6, h7, h8, h9⟩ :=
          computeIntersection_spec k ha s0 s1 (hr0 hm0) (hr1 hm1) hn hp
        rw [he] at he'
        injection he' with he'
        injection he' with hA hB
        subst hA hB
        exact computeMinimum_kkt eps k hc e0 e1 h1 h2 h3 h4 h5 h6 h7 h8 h9 p hpp hm
  · rw [if_neg hac]
    by_cases ha : k.a > 0
    · have hc0 : k.c = 0 := by
        by_contra h
        exact hac ⟨ha, lt_of_le_of_ne hk.c (Ne.symm h)⟩
      obtain ⟨hb, he⟩ := hk.c0 hc0
      obtain ⟨r, m, hr, hl, hh, hroot, -⟩ := getClampedRoot_some eps k.a k.f00 k.f10 (by simp [Coef.f10]) ha
      rw [if_pos ha, hr]
      refine ⟨_, rfl, ⟨hl, hh, le_rfl, by norm_num⟩, fun hm => ⟨hl, hh, le_rfl, by norm_num, fun s' h h' => ?_, ?_⟩⟩
      · have := (hroot hm).opt s' h h'
        have e : F k r 0 = k.f00 + k.a * r := by unfold F Coef.f00; ring
        show 0 ≤ F k r 0 * (s' - r)
        rw [e]; exact this
      · intro t' _ _; simp [G, hb, hc0, he]
    · rw [if_neg ha]
      have ha0 : k.a = 0 := le_antisymm (not_lt.1 ha) hk.a
      obtain ⟨hb, hd⟩ := hk.a0 ha0
      by_cases hc : k.c > 0
      · obtain ⟨r, m, hr, hl, hh, hroot, -⟩ := getClampedRoot_some eps k.c k.g00 k.g01 (by simp [Coef.g01]) hc
        rw [if_pos hc, hr]
        refine ⟨_, rfl, ⟨le_rfl, by norm_num, hl, hh⟩, fun hm => ⟨le_rfl, by norm_num, hl, hh, ?_, fun t' h h' => ?_⟩⟩
        · intro s' _ _; simp [F, hb, ha0, hd]
        · have := (hroot hm).opt t' h h'
          have e : G k 0 r = k.g00 + k.c * r := by unfold G Coef.g00; ring
          show 0 ≤ G k 0 r * (t' - r)
          rw [e]; exact this
      · rw [if_neg hc]
        have hc0 : k.c = 0 := le_antisymm (not_lt.1 hc) hk.c
        obtain ⟨hb, he⟩ := hk.c0 hc0
        refine ⟨_, rfl, ⟨le_rfl, by norm_num, le_rfl, by norm_num⟩, fun _ => ⟨le_rfl, by norm_num, le_rfl, by norm_num, ?_, ?_⟩⟩
        · intro s' _ _; simp [F, hd]
        · intro t' _ _; simp [G, he]

end Verif.DCP
