import Verif.Lemmas.GeoUtil
import Mathlib.Tactic.NormNum
/-! Properties C05, C06: periodic images. -/
namespace Verif
open GeoUtil

/-- C05 (exact arithmetic).  For `lb < ub` the call terminates with exactly one result; it lies in `[lb, ub)`
and differs from `x` by an integer number of periods. -/
theorem C05_wrap (lb ub x : ℝ) (h : lb < ub) :
    ∃! x', FindPBCImage id lb ub x x' ∧ lb ≤ x' ∧ x' < ub ∧ Spec.IsImage (ub - lb) x x' := by
  obtain ⟨x', hx'⟩ := find_ends h x
  exact ⟨x', ⟨hx', find_spec h hx'⟩, fun y hy => find_unique hy.1 hx'⟩

/-- C05: values already in the box are unchanged (in any arithmetic). -/
theorem C05_wrap_fixed (fl : ℝ → ℝ) (lb ub x : ℝ) (h1 : lb ≤ x) (h2 : x < ub) :
    ∀ x', FindPBCImage fl lb ub x x' ↔ x' = x := by
  intro x'
  have hx : FindPBCImage fl lb ub x x :=
    ⟨x, WhileEnds.of_not (not_le.mpr h2), WhileEnds.of_not (not_lt.mpr h1)⟩
  exact ⟨fun h => find_unique h hx, fun h => h ▸ hx⟩

example : (0 : ℝ) < 1 ∧ (0 : ℝ) ≤ 1 / 2 ∧ (1 / 2 : ℝ) < 1 := by norm_num

/-- C05: the guard `lb < ub` is needed.  For an empty or inverted box the call never returns when
`x ≥ ub`. -/
theorem C05_wrap_diverges (lb ub x : ℝ) (h : ub ≤ lb) (hx : ub ≤ x) : ¬ ∃ x', FindPBCImage id lb ub x x' := by
  rintro ⟨x', y, hy, -⟩
  exact not_WhileEnds_of_preserved (fun w => w ≥ ub) (fun w hw => hw)
    (fun w hw => by simp only [id]; linarith) hx ⟨y, hy⟩

example : (1 : ℝ) ≤ 1 ∧ (1 : ℝ) ≤ 3 := by norm_num

/-- C05 in rounded arithmetic is false: with any rounding that, like IEEE binary64, rounds `1 - 2⁻⁶⁰` to `1`
(and `1 - 0` to `1`), wrapping `-2⁻⁶⁰` into `[0, 1)` returns `1`, which is outside the half-open box. -/
theorem C05_wrap_rounding_false (fl : ℝ → ℝ) (h1 : fl 1 = 1) (h2 : fl (-(2 : ℝ) ^ (-60 : ℤ) + 1) = 1) :
    FindPBCImage fl 0 1 (-(2 : ℝ) ^ (-60 : ℤ)) 1 ∧ ¬ ((0 : ℝ) ≤ 1 ∧ (1 : ℝ) < 1) := by
  refine ⟨⟨_, WhileEnds.of_not (by norm_num), WhileEnds.step (by norm_num) ?_⟩, by norm_num⟩
  simp only [sub_zero, h1, h2]
  exact WhileEnds.of_not (by norm_num)

/-- A rounding that satisfies the hypotheses above: round values at or above `1 - 2⁻⁵⁴` to `1`. -/
example : ∃ fl : ℝ → ℝ, fl 1 = 1 ∧ fl (-(2 : ℝ) ^ (-60 : ℤ) + 1) = 1 ∧ fl 0 = 0 :=
  ⟨fun x => if 1 - (2 : ℝ) ^ (-54 : ℤ) ≤ x ∧ x ≤ 1 then 1 else x, by norm_num, by norm_num, by norm_num⟩

/-- C05 in rounded arithmetic, what remains: for every monotone rounding that represents `ub` and `ub - lb`
exactly, a call that terminates returns a value in the closed box. -/
theorem C05_wrap_rounding_partial (fl : ℝ → ℝ) (hmono : Monotone fl) (lb ub x x' : ℝ)
    (hub : fl ub = ub) (hL : fl (ub - lb) = ub - lb)
    (h : FindPBCImage fl lb ub x x') : lb ≤ x' ∧ x' ≤ ub := by
  obtain ⟨y, hy, hz⟩ := h
  have h1 := (hy.invariant (fun _ => True) (fun _ _ _ => trivial) trivial).2
  obtain ⟨h2, h3⟩ := hz.invariant (fun w => w ≤ ub) (by
    intro w _ hc
    rw [hL]
    calc fl (w + (ub - lb)) ≤ fl ub := hmono (by linarith)
      _ = ub := hub) (le_of_lt (not_le.mp h1))
  exact ⟨not_lt.mp h3, h2⟩

example : Monotone (id : ℝ → ℝ) ∧ (id : ℝ → ℝ) (1 - 0) = 1 - 0 := ⟨monotone_id, rfl⟩

/-- C05 in rounded arithmetic: the loop never ends when the period is absorbed by rounding
(`fl (x - L) = x`, e.g. `x = 1e300`, `L = 1`). -/
theorem C05_wrap_absorbed_diverges (fl : ℝ → ℝ) (lb ub x : ℝ) (hx : ub ≤ x)
    (habs : fl (x - fl (ub - lb)) = x) : ¬ ∃ x', FindPBCImage fl lb ub x x' := by
  rintro ⟨x', y, hy, -⟩
  exact not_WhileEnds_of_preserved (fun w => w = x) (fun w hw => by rw [hw]; exact hx)
    (fun w hw => by rw [hw]; exact habs) rfl ⟨y, hy⟩

example : ∃ fl : ℝ → ℝ, Monotone fl ∧ (1 : ℝ) ≤ 100 ∧ fl (100 - fl (1 - 0)) = 100 :=
  ⟨fun x => if x < 50 then x else max x 100, by
    intro a b hab
    simp only
    split <;> split <;> rename_i h1 h2
    · exact hab
    · exact le_max_of_le_right (by linarith)
    · linarith
    · exact max_le_max_right _ hab, by norm_num, by norm_num⟩

/-- C06 (exact arithmetic).  For `lb < ub` the call terminates with exactly one result; the target is wrapped
into `[lb, ub)`, both new values are periodic images of the old ones, and no periodic image of `x` is closer to
the new target than the new `x`, which is at most half a period away. -/
theorem C06_nearest_image (lb ub x trg : ℝ) (h : lb < ub) :
    ∃! r : ℝ × ℝ, FindPBCImageNear id lb ub x trg r.1 r.2 ∧
      lb ≤ r.2 ∧ r.2 < ub ∧ Spec.IsImage (ub - lb) trg r.2 ∧ Spec.IsImage (ub - lb) x r.1 ∧
      |r.1 - r.2| ≤ (ub - lb) / 2 ∧
      ∀ y, Spec.IsImage (ub - lb) x y → |r.1 - r.2| ≤ |y - r.2| := by
  have hL : 0 < ub - lb := by linarith
  obtain ⟨t, ht⟩ := find_ends h trg
  obtain ⟨ht1, ht2, ht3⟩ := find_spec h ht
  obtain ⟨d, hd⟩ := find_ends (lb := 0) (ub := ub - lb) (by linarith) (x - t)
  obtain ⟨hd1, hd2, k, hk⟩ := find_spec (by linarith) hd
  set x' := if d > (ub - lb) * (1 / 2) then t + d - (ub - lb) else t + d with hx'
  have hrun : FindPBCImageNear id lb ub x trg x' t := ⟨ht, d, hd, by simp only [id]; exact hx'⟩
  have himg : Spec.IsImage (ub - lb) x x' := by
    rw [hx']
    split
    · exact ⟨k - 1, by push_cast; rw [hk]; ring⟩
    · exact ⟨k, by rw [hk]; ring⟩
  have habs : |x' - t| ≤ (ub - lb) / 2 := by
    rw [hx', abs_le]
    split <;> rename_i hc <;> constructor <;> linarith
  refine ⟨(x', t), ⟨hrun, ht1, ht2, ht3, himg, habs, nearest hL himg habs⟩, ?_⟩
  rintro ⟨a, b⟩ ⟨⟨hb, d', hd', ha⟩, -⟩
  have e1 : b = t := find_unique hb ht
  simp only at e1 hd' ha
  subst e1
  have e2 : d' = d := find_unique hd' hd
  subst e2
  simp only [id] at ha
  rw [ha, hx']

example : (-1 : ℝ) < 1 := by norm_num

end Verif
