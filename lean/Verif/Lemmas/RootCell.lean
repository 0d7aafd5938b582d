import Verif.Spec.RootCell
import Verif.Lemmas.Box
import Verif.Lemmas.Image
import Mathlib.Tactic.NormNum
/-! Lemmas on the root cell. -/
namespace Verif.RootCell
open Tree Image

variable {α : Type}

theorem le_foldl_merge {β : Type} (g : β → Box) (l : List β) : ∀ b : Box, Box.Le b (l.foldl (fun b x => b.merge (g x)) b) := by
  induction l with
  | nil => intro b; exact Box.Le.refl _
  | cons x l ih => intro b; exact (Box.le_merge_left _ _).trans (ih _)

theorem mem_foldl_merge {β : Type} (g : β → Box) (l : List β) {x : β} (hx : x ∈ l) :
    ∀ b : Box, Box.Le (g x) (l.foldl (fun b x => b.merge (g x)) b) := by
  induction l with
  | nil => cases hx
  | cons y l ih =>
    intro b
    rcases List.mem_cons.mp hx with rfl | hx
    · exact (Box.le_merge_right _ _).trans (le_foldl_merge g l _)
    · exact ih hx _

theorem le_outer (big : ℝ) (bs : List Box) {b : Box} (hb : b ∈ bs) : Box.Le b (outer big bs) := by
  cases bs with
  | nil => cases hb
  | cons c bs =>
    rcases List.mem_cons.mp hb with rfl | hb
    · exact le_foldl_merge id bs _
    · exact mem_foldl_merge id bs hb _

theorem around_le_out (big : ℝ) (n : ℕ) (chunks : ℕ → List (List (Ep α))) {r : ℕ} (hr : r < n) {e : Ep α}
    (he : e ∈ (chunks r).flatten) :
    Box.Le (Box.around e.pos (e.rs * slack)) (outer big ((List.range n).map (fun (r : ℕ) => boxLoc big (chunks r)))) := by
  obtain ⟨c, hc, hec⟩ := List.mem_flatten.mp he
  have h1 : Box.Le (Box.around e.pos (e.rs * slack)) (boxThread big c) :=
    mem_foldl_merge (fun e : Ep α => Box.around e.pos (e.rs * slack)) c hec _
  have h2 : Box.Le (boxThread big c) (boxLoc big (chunks r)) := mem_foldl_merge (boxThread big) (chunks r) hc _
  exact (h1.trans h2).trans (le_outer big _ (List.mem_map.mpr ⟨r, List.mem_range.mpr hr, rfl⟩))

/-! ### the number of shifts -/

theorem shift_shift (b : Box) (v w : V3) : (b.shift v).shift w = b.shift (v + w) := by
  ext <;> simp [Box.shift, add_assoc]

theorem shiftLoop_spec (out root : Box) (v : V3) (M : ℕ) (hM : ¬ out.overlapped (root.shift (((M + 1 : ℕ) : ℝ) • v))) :
    ∀ j k, k + j = M → ∃ n, (∀ fuel, j < fuel → shiftLoop out v fuel (root.shift (((k + 1 : ℕ) : ℝ) • v)) k = some n) ∧
      k ≤ n ∧ ¬ out.overlapped (root.shift (((n + 1 : ℕ) : ℝ) • v)) := by
  intro j
  induction j with
  | zero =>
    intro k hk
    obtain rfl : k = M := by omega
    refine ⟨k, fun fuel hf => ?_, le_refl _, hM⟩
    obtain ⟨fuel, rfl⟩ := Nat.exists_eq_succ_of_ne_zero (by omega : fuel ≠ 0)
    rw [shiftLoop, if_neg hM]
  | succ j ih =>
    intro k hk
    by_cases h : out.overlapped (root.shift (((k + 1 : ℕ) : ℝ) • v))
    · obtain ⟨n, h1, h2, h3⟩ := ih (k + 1) (by omega)
      refine ⟨n, fun fuel hf => ?_, by omega, h3⟩
      obtain ⟨fuel, rfl⟩ := Nat.exists_eq_succ_of_ne_zero (by omega : fuel ≠ 0)
      rw [shiftLoop, if_pos h, shift_shift, ← h1 fuel (by omega)]
      congr 2
      ext <;> simp <;> ring
    · refine ⟨k, fun fuel hf => ?_, le_refl _, h⟩
      obtain ⟨fuel, rfl⟩ := Nat.exists_eq_succ_of_ne_zero (by omega : fuel ≠ 0)
      rw [shiftLoop, if_neg h]

theorem numShift_spec (out root : Box) (v : V3) (hM : ∃ M : ℕ, ¬ out.overlapped (root.shift (((M + 1 : ℕ) : ℝ) • v))) :
    ∃ N n, (∀ fuel, N ≤ fuel → numShift root out v fuel = some n) ∧ ¬ out.overlapped (root.shift (((n + 1 : ℕ) : ℝ) • v)) := by
  obtain ⟨M, hM⟩ := hM
  obtain ⟨n, h1, _, h3⟩ := shiftLoop_spec out root v M hM M 0 (Nat.zero_add M)
  refine ⟨M + 1, n, fun fuel hf => ?_, h3⟩
  rw [numShift, ← h1 fuel (by omega)]
  congr 2
  ext <;> simp

theorem exists_far {L lo hi : ℝ} (hL : 0 < L) : ∃ M : ℕ, hi < lo + ((M + 1 : ℕ) : ℝ) * L := by
  obtain ⟨M, hM⟩ := exists_nat_gt ((hi - lo) / L)
  refine ⟨M, ?_⟩
  rw [div_lt_iff₀ hL] at hM
  push_cast
  nlinarith

theorem shiftMax_x (p : Bool) (root out : Box) (L : ℝ) (hL : p = true → 0 < L) :
    ∃ N n, (∀ fuel, N ≤ fuel → shiftMax p root out ⟨L, 0, 0⟩ fuel = some n) ∧
      (p = true → ∀ q, Box.Mem q out → Box.Mem q root →
        out.high.x < root.low.x + ((n + 1 : ℕ) : ℝ) * L ∧ root.high.x - ((n + 1 : ℕ) : ℝ) * L < out.low.x) := by
  cases p with
  | false => exact ⟨0, 0, fun _ _ => rfl, fun h => by cases h⟩
  | true =>
    have hL := hL rfl
    obtain ⟨N, n, h1, h2⟩ := numShift_spec out root ⟨L, 0, 0⟩ (by
      obtain ⟨M, hM⟩ := exists_far (lo := root.low.x) (hi := out.high.x) hL
      refine ⟨M, fun ho => ?_⟩
      rw [Box.overlapped_iff] at ho
      simp only [Box.shift, V3.add_x, V3.add_y, V3.add_z, V3.smul_x, V3.smul_y, V3.smul_z] at ho
      obtain ⟨⟨a1, a2⟩, ⟨a3, a4⟩, a5, a6⟩ := ho
      linarith)
    obtain ⟨N', n', h1', h2'⟩ := numShift_spec out root (-⟨L, 0, 0⟩) (by
      obtain ⟨M, hM⟩ := exists_far (lo := out.low.x) (hi := root.high.x) hL
      refine ⟨M, fun ho => ?_⟩
      rw [Box.overlapped_iff] at ho
      simp only [Box.shift, V3.add_x, V3.add_y, V3.add_z, V3.smul_x, V3.smul_y, V3.smul_z, V3.neg_x, V3.neg_y, V3.neg_z] at ho
      obtain ⟨⟨a1, a2⟩, ⟨a3, a4⟩, a5, a6⟩ := ho
      linarith)
    refine ⟨max N N', max n n', fun fuel hf => ?_, fun _ q ho hr => ?_⟩
    · rw [shiftMax, if_pos rfl, h1 fuel (le_trans (le_max_left _ _) hf), h1' fuel (le_trans (le_max_right _ _) hf)]
    · rw [Box.overlapped_iff] at h2 h2'
      simp only [Box.shift, V3.add_x, V3.add_y, V3.add_z, V3.smul_x, V3.smul_y, V3.smul_z, V3.neg_x, V3.neg_y, V3.neg_z,
        mul_zero, neg_zero, add_zero] at h2 h2'
      obtain ⟨⟨o1, o2⟩, ⟨o3, o4⟩, o5, o6⟩ := ho
      obtain ⟨⟨r1, r2⟩, ⟨r3, r4⟩, r5, r6⟩ := hr
      have m1 : ((n + 1 : ℕ) : ℝ) * L ≤ ((max n n' + 1 : ℕ) : ℝ) * L :=
        mul_le_mul_of_nonneg_right (by exact_mod_cast Nat.succ_le_succ (le_max_left n n')) hL.le
      have m2 : ((n' + 1 : ℕ) : ℝ) * L ≤ ((max n n' + 1 : ℕ) : ℝ) * L :=
        mul_le_mul_of_nonneg_right (by exact_mod_cast Nat.succ_le_succ (le_max_right n n')) hL.le
      have p1 : 0 < ((n + 1 : ℕ) : ℝ) * L := by positivity
      have p2 : 0 < ((n' + 1 : ℕ) : ℝ) * L := by positivity
      constructor
      · by_contra hc
        apply h2
        refine ⟨⟨?_, ?_⟩, ⟨?_, ?_⟩, ?_, ?_⟩ <;> linarith
      · by_contra hc
        apply h2'
        refine ⟨⟨?_, ?_⟩, ⟨?_, ?_⟩, ?_, ?_⟩ <;> linarith

theorem shiftMax_y (p : Bool) (root out : Box) (L : ℝ) (hL : p = true → 0 < L) :
    ∃ N n, (∀ fuel, N ≤ fuel → shiftMax p root out ⟨0, L, 0⟩ fuel = some n) ∧
      (p = true → ∀ q, Box.Mem q out → Box.Mem q root →
        out.high.y < root.low.y + ((n + 1 : ℕ) : ℝ) * L ∧ root.high.y - ((n + 1 : ℕ) : ℝ) * L < out.low.y) := by
  cases p with
  | false => exact ⟨0, 0, fun _ _ => rfl, fun h => by cases h⟩
  | true =>
    have hL := hL rfl
    obtain ⟨N, n, h1, h2⟩ := numShift_spec out root ⟨0, L, 0⟩ (by
      obtain ⟨M, hM⟩ := exists_far (lo := root.low.y) (hi := out.high.y) hL
      refine ⟨M, fun ho => ?_⟩
      rw [Box.overlapped_iff] at ho
      simp only [Box.shift, V3.add_x, V3.add_y, V3.add_z, V3.smul_x, V3.smul_y, V3.smul_z] at ho
      obtain ⟨⟨a1, a2⟩, ⟨a3, a4⟩, a5, a6⟩ := ho
      linarith)
    obtain ⟨N', n', h1', h2'⟩ := numShift_spec out root (-⟨0, L, 0⟩) (by
      obtain ⟨M, hM⟩ := exists_far (lo := out.low.y) (hi := root.high.y) hL
      refine ⟨M, fun ho => ?_⟩
      rw [Box.overlapped_iff] at ho
      simp only [Box.shift, V3.add_x, V3.add_y, V3.add_z, V3.smul_x, V3.smul_y, V3.smul_z, V3.neg_x, V3.neg_y, V3.neg_z] at ho
      obtain ⟨⟨a1, a2⟩, ⟨a3, a4⟩, a5, a6⟩ := ho
      linarith)
    refine ⟨max N N', max n n', fun fuel hf => ?_, fun _ q ho hr => ?_⟩
    · rw [shiftMax, if_pos rfl, h1 fuel (le_trans (le_max_left _ _) hf), h1' fuel (le_trans (le_max_right _ _) hf)]
    · rw [Box.overlapped_iff] at h2 h2'
      simp only [Box.shift, V3.add_x, V3.add_y, V3.add_z, V3.smul_x, V3.smul_y, V3.smul_z, V3.neg_x, V3.neg_y, V3.neg_z,
        mul_zero, neg_zero, add_zero] at h2 h2'
      obtain ⟨⟨o1, o2⟩, ⟨o3, o4⟩, o5, o6⟩ := ho
      obtain ⟨⟨r1, r2⟩, ⟨r3, r4⟩, r5, r6⟩ := hr
      have m1 : ((n + 1 : ℕ) : ℝ) * L ≤ ((max n n' + 1 : ℕ) : ℝ) * L :=
        mul_le_mul_of_nonneg_right (by exact_mod_cast Nat.succ_le_succ (le_max_left n n')) hL.le
      have m2 : ((n' + 1 : ℕ) : ℝ) * L ≤ ((max n n' + 1 : ℕ) : ℝ) * L :=
        mul_le_mul_of_nonneg_right (by exact_mod_cast Nat.succ_le_succ (le_max_right n n')) hL.le
      have p1 : 0 < ((n + 1 : ℕ) : ℝ) * L := by positivity
      have p2 : 0 < ((n' + 1 : ℕ) : ℝ) * L := by positivity
      constructor
      · by_contra hc
        apply h2
        refine ⟨⟨?_, ?_⟩, ⟨?_, ?_⟩, ?_, ?_⟩ <;> linarith
      · by_contra hc
        apply h2'
        refine ⟨⟨?_, ?_⟩, ⟨?_, ?_⟩, ?_, ?_⟩ <;> linarith

theorem shiftMax_z (p : Bool) (root out : Box) (L : ℝ) (hL : p = true → 0 < L) :
    ∃ N n, (∀ fuel, N ≤ fuel → shiftMax p root out ⟨0, 0, L⟩ fuel = some n) ∧
      (p = true → ∀ q, Box.Mem q out → Box.Mem q root →
        out.high.z < root.low.z + ((n + 1 : ℕ) : ℝ) * L ∧ root.high.z - ((n + 1 : ℕ) : ℝ) * L < out.low.z) := by
  cases p with
  | false => exact ⟨0, 0, fun _ _ => rfl, fun h => by cases h⟩
  | true =>
    have hL := hL rfl
    obtain ⟨N, n, h1, h2⟩ := numShift_spec out root ⟨0, 0, L⟩ (by
      obtain ⟨M, hM⟩ := exists_far (lo := root.low.z) (hi := out.high.z) hL
      refine ⟨M, fun ho => ?_⟩
      rw [Box.overlapped_iff] at ho
      simp only [Box.shift, V3.add_x, V3.add_y, V3.add_z, V3.smul_x, V3.smul_y, V3.smul_z] at ho
      obtain ⟨⟨a1, a2⟩, ⟨a3, a4⟩, a5, a6⟩ := ho
      linarith)
    obtain ⟨N', n', h1', h2'⟩ := numShift_spec out root (-⟨0, 0, L⟩) (by
      obtain ⟨M, hM⟩ := exists_far (lo := out.low.z) (hi := root.high.z) hL
      refine ⟨M, fun ho => ?_⟩
      rw [Box.overlapped_iff] at ho
      simp only [Box.shift, V3.add_x, V3.add_y, V3.add_z, V3.smul_x, V3.smul_y, V3.smul_z, V3.neg_x, V3.neg_y, V3.neg_z] at ho
      obtain ⟨⟨a1, a2⟩, ⟨a3, a4⟩, a5, a6⟩ := ho
      linarith)
    refine ⟨max N N', max n n', fun fuel hf => ?_, fun _ q ho hr => ?_⟩
    · rw [shiftMax, if_pos rfl, h1 fuel (le_trans (le_max_left _ _) hf), h1' fuel (le_trans (le_max_right _ _) hf)]
    · rw [Box.overlapped_iff] at h2 h2'
      simp only [Box.shift, V3.add_x, V3.add_y, V3.add_z, V3.smul_x, V3.smul_y, V3.smul_z, V3.neg_x, V3.neg_y, V3.neg_z,
        mul_zero, neg_zero, add_zero] at h2 h2'
      obtain ⟨⟨o1, o2⟩, ⟨o3, o4⟩, o5, o6⟩ := ho
      obtain ⟨⟨r1, r2⟩, ⟨r3, r4⟩, r5, r6⟩ := hr
      have m1 : ((n + 1 : ℕ) : ℝ) * L ≤ ((max n n' + 1 : ℕ) : ℝ) * L :=
        mul_le_mul_of_nonneg_right (by exact_mod_cast Nat.succ_le_succ (le_max_left n n')) hL.le
      have m2 : ((n' + 1 : ℕ) : ℝ) * L ≤ ((max n n' + 1 : ℕ) : ℝ) * L :=
        mul_le_mul_of_nonneg_right (by exact_mod_cast Nat.succ_le_succ (le_max_right n n')) hL.le
      have p1 : 0 < ((n + 1 : ℕ) : ℝ) * L := by positivity
      have p2 : 0 < ((n' + 1 : ℕ) : ℝ) * L := by positivity
      constructor
      · by_contra hc
        apply h2
        refine ⟨⟨?_, ?_⟩, ⟨?_, ?_⟩, ?_, ?_⟩ <;> linarith
      · by_contra hc
        apply h2'
        refine ⟨⟨?_, ?_⟩, ⟨?_, ?_⟩, ?_, ?_⟩ <;> linarith

/-- A displacement that brings the root domain to the outer box is at most the number found. -/
theorem index_le {n : ℕ} {L rlo rhi olo ohi : ℝ} {i : ℤ} (hL : 0 < L) (h1 : ohi < rlo + ((n + 1 : ℕ) : ℝ) * L)
    (h2 : rhi - ((n + 1 : ℕ) : ℝ) * L < olo) (h3 : rlo + i * L ≤ ohi) (h4 : olo ≤ rhi + i * L) :
    -(n : ℝ) ≤ i ∧ (i : ℝ) ≤ n := by
  have a : (i : ℝ) < ((n + 1 : ℕ) : ℝ) := lt_of_mul_lt_mul_right (by linarith : (i : ℝ) * L < ((n + 1 : ℕ) : ℝ) * L) hL.le
  have b : -((n + 1 : ℕ) : ℝ) < i := lt_of_mul_lt_mul_right (by linarith : -((n + 1 : ℕ) : ℝ) * L < (i : ℝ) * L) hL.le
  have a' : i < ((n + 1 : ℕ) : ℤ) := by exact_mod_cast a
  have b' : -((n + 1 : ℕ) : ℤ) < i := by exact_mod_cast b
  constructor
  · have : -(n : ℤ) ≤ i := by push_cast at b'; omega
    exact_mod_cast this
  · have : i ≤ (n : ℤ) := by push_cast at a'; omega
    exact_mod_cast this

/-- One axis: the displaced coordinate lies in the root cell. -/
theorem axis_inRoot (p : Bool) {n : ℕ} {L rlo rhi olo ohi l t : ℝ} {i : ℤ} (hL : rhi - rlo = L) (hpos : p = true → 0 < L)
    (hl : axisLength p n L (ohi - olo) ≤ l) (h0 : 0 < l) (ho1 : olo ≤ t) (ho2 : t ≤ ohi) (hr1 : rlo ≤ t) (hr2 : t ≤ rhi)
    (hi : p = true → -(n : ℝ) ≤ i ∧ (i : ℝ) ≤ n) (hf : p = false → i = 0) :
    axisCenter p rlo rhi olo ohi - l * slack * 0.5 ≤ t + i * L ∧ t + i * L < axisCenter p rlo rhi olo ohi + l * slack * 0.5 := by
  have hs : l < l * slack := by
    rw [slack]; nlinarith
  cases p with
  | true =>
    obtain ⟨i1, i2⟩ := hi rfl
    have hL0 := hpos rfl
    simp only [axisLength, axisCenter, if_true] at *
    have j1 : -((n : ℝ) * L) ≤ i * L := by nlinarith
    have j2 : (i : ℝ) * L ≤ n * L := by nlinarith
    constructor <;> nlinarith
  | false =>
    obtain rfl := hf rfl
    simp only [axisLength, axisCenter, Bool.false_eq_true, if_false] at *
    simp only [Int.cast_zero, zero_mul, add_zero]
    constructor <;> linarith

end Verif.RootCell
