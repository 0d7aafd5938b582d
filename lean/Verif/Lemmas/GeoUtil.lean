import Verif.Model.GeoUtil
import Verif.Spec.GeoUtil
import Mathlib.Tactic.Linarith
import Mathlib.Tactic.Ring
import Mathlib.Tactic.Push
import Mathlib.Data.Real.Archimedean
/-! Helper lemmas for the periodic image properties. -/
namespace Verif.GeoUtil

theorem down_ends {L ub : ℝ} (hL : 0 < L) (n : ℕ) : ∀ x : ℝ, x < ub + n * L →
    ∃ y, WhileEnds (fun x => x ≥ ub) (fun x => x - L) x y := by
  induction n with
  | zero =>
    intro x hx
    exact ⟨x, WhileEnds.of_not (by simp at hx ⊢; exact hx)⟩
  | succ n ih =>
    intro x hx
    by_cases hc : x ≥ ub
    · obtain ⟨y, hy⟩ := ih (x - L) (by push_cast at hx; linarith)
      exact ⟨y, WhileEnds.step hc hy⟩
    · exact ⟨x, WhileEnds.of_not hc⟩

theorem up_ends {L lb : ℝ} (hL : 0 < L) (n : ℕ) : ∀ x : ℝ, lb - n * L ≤ x →
    ∃ y, WhileEnds (fun x => x < lb) (fun x => x + L) x y := by
  induction n with
  | zero =>
    intro x hx
    exact ⟨x, WhileEnds.of_not (by simp at hx ⊢; exact hx)⟩
  | succ n ih =>
    intro x hx
    by_cases hc : x < lb
    · obtain ⟨y, hy⟩ := ih (x + L) (by push_cast at hx; linarith)
      exact ⟨y, WhileEnds.step hc hy⟩
    · exact ⟨x, WhileEnds.of_not hc⟩

theorem find_ends {lb ub : ℝ} (h : lb < ub) (x : ℝ) : ∃ x', FindPBCImage id lb ub x x' := by
  have hL : 0 < ub - lb := by linarith
  obtain ⟨n, hn⟩ := exists_nat_gt ((x - ub) / (ub - lb))
  obtain ⟨y, hy⟩ := down_ends (ub := ub) hL n x (by
    rw [div_lt_iff₀ hL] at hn; linarith)
  obtain ⟨m, hm⟩ := exists_nat_gt ((lb - y) / (ub - lb))
  obtain ⟨z, hz⟩ := up_ends (lb := lb) hL m y (by
    rw [div_lt_iff₀ hL] at hm; linarith)
  exact ⟨z, y, hy, hz⟩

theorem find_unique {fl : ℝ → ℝ} {lb ub x a b : ℝ} (ha : FindPBCImage fl lb ub x a)
    (hb : FindPBCImage fl lb ub x b) : a = b := by
  obtain ⟨y, hy, hya⟩ := ha
  obtain ⟨z, hz, hzb⟩ := hb
  have := hy.unique hz
  subst this
  exact hya.unique hzb

theorem find_spec {lb ub x x' : ℝ} (hlt : lb < ub) (h : FindPBCImage id lb ub x x') :
    lb ≤ x' ∧ x' < ub ∧ Spec.IsImage (ub - lb) x x' := by
  obtain ⟨y, hy, hz⟩ := h
  obtain ⟨⟨k, hk⟩, hyub⟩ := hy.invariant (fun w => Spec.IsImage (ub - lb) x w) (by
    rintro w ⟨k, rfl⟩ _
    exact ⟨k - 1, by simp only [id]; push_cast; ring⟩) ⟨0, by simp⟩
  obtain ⟨⟨⟨m, hm⟩, hlt'⟩, hlb⟩ := hz.invariant (fun w => Spec.IsImage (ub - lb) x w ∧ w < ub) (by
    rintro w ⟨⟨m, rfl⟩, hw⟩ hc
    refine ⟨⟨m + 1, by simp only [id]; push_cast; ring⟩, by simp only [id]; linarith⟩) ⟨⟨k, hk⟩, by
      push Not at hyub; exact hyub⟩
  push Not at hlb
  exact ⟨hlb, hlt', m, hm⟩

/-- An image with distance at most half a period is a nearest image. -/
theorem nearest {L x x' t : ℝ} (hL : 0 < L) (h : Spec.IsImage L x x') (hd : |x' - t| ≤ L / 2) :
    ∀ y, Spec.IsImage L x y → |x' - t| ≤ |y - t| := by
  rintro y ⟨k, rfl⟩
  obtain ⟨m, rfl⟩ := h
  by_cases hkm : k = m
  · rw [hkm]
  · have h1 : (1 : ℝ) ≤ |(k : ℝ) - m| := by
      have : (1 : ℤ) ≤ |k - m| := Int.one_le_abs (sub_ne_zero.mpr hkm)
      exact_mod_cast this
    have h2 : L ≤ |((k : ℝ) - m) * L| := by
      rw [abs_mul, abs_of_pos hL]; nlinarith
    have h3 : |((k : ℝ) - m) * L| ≤ |x + k * L - t| + |x + m * L - t| := by
      have : ((k : ℝ) - m) * L = (x + k * L - t) - (x + m * L - t) := by ring
      rw [this]; exact abs_sub _ _
    linarith

end Verif.GeoUtil
