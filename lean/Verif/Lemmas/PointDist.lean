import Verif.Model.PointDist
import Verif.Spec.Rounding
import Verif.Lemmas.Comm
import Mathlib.Data.Nat.Cast.Order.Field
import Mathlib.Tactic.Linarith
import Mathlib.Tactic.FieldSimp
import Mathlib.Tactic.Positivity
import Mathlib.Tactic.Ring
import Mathlib.Tactic.NormNum
/-! Helper lemmas for distributing and collecting points. -/
namespace Verif.PointDist
open Spec

/-- The floor of the rounded quotient is the integer quotient. -/
theorem floor_fl_div (fl : ℝ → ℝ) (hfl : Rounding fl) (a n : ℕ) (hn : 0 < n) (ha : a ≤ intMax) (hn' : n ≤ intMax) :
    ⌊fl ((a : ℝ) / (n : ℝ))⌋.toNat = a / n := by
  have hI : intMax ≤ 2 ^ 52 := by norm_num [intMax]
  have hnR : (0 : ℝ) < n := by exact_mod_cast hn
  have hdm := Nat.div_add_mod a n
  have hmod := Nat.mod_lt a hn
  have hk : ((a / n : ℕ) : ℝ) ≤ (a : ℝ) / n := Nat.cast_div_le
  have hlow : ((a / n : ℕ) : ℝ) ≤ fl ((a : ℝ) / n) := by
    have h1 := hfl.mono _ _ hk
    rwa [hfl.int (a / n)] at h1
    calc a / n ≤ a := Nat.div_le_self _ _
      _ ≤ 2 ^ 53 := by omega
  have hup : fl ((a : ℝ) / n) < ((a / n : ℕ) : ℝ) + 1 := by
    have h1 := hfl.quot a n hn (by omega) (by omega)
    have h2 : (a : ℝ) + 1 ≤ n * (((a / n : ℕ) : ℝ) + 1) := by
      have : a + 1 ≤ n * (a / n + 1) := by rw [Nat.mul_add]; omega
      exact_mod_cast this
    have ha' : (a : ℝ) < 2 ^ 53 := by
      have : a < 2 ^ 53 := by omega
      exact_mod_cast this
    have h3 : (a : ℝ) / n * (1 + 1 / 2 ^ 53) < (a + 1) / n := by
      rw [div_mul_eq_mul_div, div_lt_div_iff_of_pos_right hnR]
      have : (a : ℝ) * (1 / 2 ^ 53) < 1 := by
        rw [mul_one_div, div_lt_one (by positivity)]; exact ha'
      linarith
    have h4 : ((a : ℝ) + 1) / n ≤ ((a / n : ℕ) : ℝ) + 1 := by
      rw [div_le_iff₀ hnR]; linarith
    linarith
  have : ⌊fl ((a : ℝ) / (n : ℝ))⌋ = ((a / n : ℕ) : ℤ) := by
    rw [Int.floor_eq_iff]
    constructor
    · exact_mod_cast hlow
    · exact_mod_cast hup
  rw [this, Int.toNat_natCast]

/-- Bounds of the piece of rank `r`: the points `⌊r n / P⌋ .. ⌊(r+1) n / P⌋`, the last rank up to the end. -/
def bound (P dim size r : ℕ) : ℕ := if r = P then size else dim * (r * (size / dim) / P)

theorem bound_mono (P dim size r : ℕ) (hP : 0 < P) (hr : r < P) :
    bound P dim size r ≤ bound P dim size (r + 1) ∧ bound P dim size (r + 1) ≤ size := by
  have hle : ∀ k, k ≤ P → dim * (k * (size / dim) / P) ≤ size := by
    intro k hk
    calc dim * (k * (size / dim) / P) ≤ dim * (P * (size / dim) / P) := by gcongr
      _ = dim * (size / dim) := by rw [Nat.mul_div_cancel_left _ hP]
      _ ≤ size := Nat.mul_div_le _ _
  unfold bound
  rw [if_neg (by omega)]
  split
  · exact ⟨hle r hr.le, le_rfl⟩
  · refine ⟨?_, hle _ (by omega)⟩
    gcongr
    omega

theorem distributeRank_eq {α : Type} (fl : ℝ → ℝ) (hfl : Rounding fl) (P dim : ℕ) (root mine : List α) (r : ℕ)
    (hP : 1 < P) (hr : r < P) (hPI : P ≤ intMax) (hdim : 0 < dim) (hsize : root.length ≤ intMax)
    (hov : P * (root.length / dim) ≤ intMax) :
    distributeRank fl P dim root mine r = some ((root.drop (bound P dim root.length r)).take
      (bound P dim root.length (r + 1) - bound P dim root.length r)) := by
  unfold distributeRank
  rw [if_neg (by omega), if_neg (by omega), if_neg (by omega)]
  have h1 : r * (root.length / dim) ≤ intMax := le_trans (Nat.mul_le_mul_right _ hr.le) hov
  have h2 : (r + 1) * (root.length / dim) ≤ intMax := le_trans (Nat.mul_le_mul_right _ hr) hov
  have hb := bound_mono P dim root.length r (by omega) hr
  have e1 : bound P dim root.length r = dim * (r * (root.length / dim) / P) := by
    unfold bound; rw [if_neg (by omega)]
  have e2 : (if r = P - 1 then root.length else dim * ((r + 1) * (root.length / dim) / P))
      = bound P dim root.length (r + 1) := by
    unfold bound
    by_cases h : r = P - 1
    · rw [if_pos h, if_pos (by omega)]
    · rw [if_neg h, if_neg (by omega)]
  simp only [index, if_pos h1, if_pos h2, Option.bind_eq_bind, Option.bind_some,
    floor_fl_div fl hfl _ P (by omega) h1 hPI, floor_fl_div fl hfl _ P (by omega) h2 hPI, ← e1, e2]
  rw [if_pos hb]

theorem flatten_pieces {α : Type} (root : List α) (b : ℕ → ℕ) (h0 : b 0 = 0) : ∀ (n : ℕ),
    (∀ r, r < n → b r ≤ b (r + 1)) → b n ≤ root.length →
    ((List.range n).map (fun r => (root.drop (b r)).take (b (r + 1) - b r))).flatten = root.take (b n)
  | 0, _, _ => by simp [h0]
  | n + 1, hm, hb => by
    have hm' := hm n (by omega)
    rw [List.range_succ, List.map_append, List.flatten_append,
      flatten_pieces root b h0 n (fun r hr => hm r (by omega)) (by omega)]
    simp only [List.map_cons, List.map_nil, List.flatten_cons, List.flatten_nil, List.append_nil]
    have : b (n + 1) = b n + (b (n + 1) - b n) := by omega
    conv_rhs => rw [this]
    rw [List.take_add]

end Verif.PointDist
