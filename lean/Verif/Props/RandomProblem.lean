import Verif.Lemmas.RandomProblem
import Mathlib.Tactic.NormNum
import Mathlib.Tactic.IntervalCases

/-!
C101: the random test problems of the two solvers.
-/

namespace Verif

open RandomProblem Spec.RandomProblem

/-- Whether the arrays make a matrix: exactly if on no rank a column without entries comes before
one with entries. -/
theorem C101_defined (k : Kind) (n : ℕ) (diagonal : ℝ) (draws : List (ℕ → ℝ)) (x : List ℝ)
    (hx : x.length = draws.length * n) :
    (apply k n diagonal draws x).isSome ↔ ∀ draw ∈ draws, NoGap (dense k n diagonal draw) n := by
  constructor
  · intro h draw hd
    by_contra hc
    rw [apply_none x ⟨draw, hd, hc⟩] at h
    exact absurd h (by simp)
  · intro h
    obtain ⟨y, hy, _⟩ := apply_some hx h
    rw [hy]; rfl

/-- If the product is defined it is the one with the block diagonal matrix `B^T D B + diagonal`
without the entries of at most `1e-7`. -/
theorem C101_matrix_partial (k : Kind) (n : ℕ) (diagonal : ℝ) (draws : List (ℕ → ℝ)) (x y : List ℝ)
    (hx : x.length = draws.length * n) (h : apply k n diagonal draws x = some y) :
    IsProduct (blocks k n diagonal draws) n draws.length x y := by
  have hd := (C101_defined k n diagonal draws x hx).1 (by rw [h]; rfl)
  obtain ⟨y', hy', hp⟩ := apply_some hx hd
  rw [h] at hy'
  cases hy'
  exact hp

/-- The operator is symmetric. -/
theorem C101_symmetric (k : Kind) (n : ℕ) (diagonal : ℝ) (draws : List (ℕ → ℝ)) (x x' y y' : List ℝ)
    (hx : x.length = draws.length * n) (hx' : x'.length = draws.length * n)
    (h : apply k n diagonal draws x = some y) (h' : apply k n diagonal draws x' = some y') :
    inner x' y = inner x y' := by
  rw [inner_product hx' (C101_matrix_partial k n diagonal draws x y hx h),
    inner_product hx (C101_matrix_partial k n diagonal draws x' y' hx' h')]
  refine Finset.sum_congr rfl fun r _ => ?_
  simp only [Finset.mul_sum]
  rw [Finset.sum_comm]
  refine Finset.sum_congr rfl fun i _ => Finset.sum_congr rfl fun j _ => ?_
  rw [blocks, dense_symm]; ring

/-- Whatever is drawn, the operator is positive up to `n 1e-7`. -/
theorem C101_positive_partial (k : Kind) (n : ℕ) (diagonal : ℝ) (draws : List (ℕ → ℝ)) (x y : List ℝ)
    (hx : x.length = draws.length * n) (h : apply k n diagonal draws x = some y) :
    (diagonal - n * (1 / 10 ^ 7)) * inner x x ≤ inner x y := by
  have htol : (1 / 10 ^ 7 : ℝ) = droptol := by norm_num [droptol]
  rw [htol, inner_product hx (C101_matrix_partial k n diagonal draws x y hx h), inner_self hx, Finset.mul_sum]
  exact Finset.sum_le_sum fun r _ => block_form k n diagonal (draws.getD r fun _ => 0) fun i => x.getD (r * n + i) 0

/-- With an extra diagonal above `n 1e-7` the operator is defined and positive definite. -/
theorem C101_definite_partial (k : Kind) (n : ℕ) (diagonal : ℝ) (draws : List (ℕ → ℝ)) (x : List ℝ)
    (hd : n * (1 / 10 ^ 7) < diagonal) (hx : x.length = draws.length * n) (hne : ∃ a ∈ x, a ≠ 0) :
    ∃ y, apply k n diagonal draws x = some y ∧ 0 < inner x y := by
  have hn : 1 ≤ n := by
    by_contra hc
    have : n = 0 := by omega
    subst this
    obtain ⟨a, ha, _⟩ := hne
    have : x = [] := List.length_eq_zero_iff.1 (by simpa using hx)
    simp [this] at ha
  have hdrop : droptol < diagonal := by
    have : (1 : ℝ) ≤ n := by exact_mod_cast hn
    have e : droptol = 1 / 10 ^ 7 := by norm_num [droptol]
    rw [e]; nlinarith
  obtain ⟨y, hy, _⟩ := apply_some hx fun draw _ => noGap_of_diagonal k n diagonal draw hdrop
  refine ⟨y, hy, lt_of_lt_of_le ?_ (C101_positive_partial k n diagonal draws x y hx hy)⟩
  refine mul_pos (by linarith) ?_
  obtain ⟨a, ha, hane⟩ := hne
  obtain ⟨p, hp, rfl⟩ := List.getElem_of_mem ha
  rw [inner_eq_sum x x rfl]
  refine Finset.sum_pos' (fun q _ => mul_self_nonneg _) ⟨p, Finset.mem_range.2 hp, ?_⟩
  have : x.getD p 0 = x[p] := by simp [hp]
  rw [this]
  exact mul_self_pos.2 hane

/-- Draws of a 3 by 3 matrix with small entries; the diagonal weights are 1. -/
noncomputable def smallDraws (i : ℕ) : ℝ :=
  match i with
  | 0 => 14 / 40000
  | 1 => 12 / 40000
  | 2 => 11 / 40000
  | 4 => 7 / 40000
  | 5 => 5 / 40000
  | 8 => 7 / 40000
  | _ => 0

theorem smallDraws_dense (i j : ℕ) (hi : i < 3) (hj : j < 3) :
    kept (dense .bcqp 3 0 smallDraws i j) =
      ([[196, 168, 0], [168, 193, 167], [0, 167, 195]].getD i []).getD j 0 / (1600000000 : ℝ) := by
  interval_cases i <;> interval_cases j <;>
    simp [dense, Finset.sum_range_succ, smallDraws, weight, kept, droptol] <;> norm_num [abs_of_pos]

/-- "maintain SPD of A" is false without an extra diagonal (the default): dropping small entries can
make the matrix indefinite. -/
theorem C101_definite_false : ∃ (draw : ℕ → ℝ) (x y : List ℝ), (∀ i, -1 ≤ draw i ∧ draw i < 1) ∧
    apply .bcqp 3 0 [draw] x = some y ∧ inner x y < 0 := by
  have hgap : NoGap (dense .bcqp 3 0 smallDraws) 3 := by
    intro j hj _ i hi
    refine ⟨i, by omega, ?_⟩
    have hk := smallDraws_dense i i (by omega) (by omega)
    by_contra hc
    rw [kept, if_pos (not_lt.1 hc)] at hk
    have : i < 2 := by omega
    interval_cases i <;> norm_num at hk
  obtain ⟨y, hy, hp⟩ := apply_some (k := .bcqp) (n := 3) (diagonal := 0) (draws := [smallDraws])
    (x := [1, -7 / 5, 1]) (by simp) (by simpa using hgap)
  refine ⟨smallDraws, [1, -7 / 5, 1], y, ?_, hy, ?_⟩
  · intro i
    unfold smallDraws
    split <;> norm_num
  · rw [inner_product (by simp) hp]
    simp only [List.length_singleton, Finset.sum_range_one, blocks, List.getD_cons_zero]
    have e : ∀ i ∈ Finset.range 3, ∀ j ∈ Finset.range 3, kept (dense .bcqp 3 0 smallDraws i j) =
      ([[196, 168, 0], [168, 193, 167], [0, 167, 195]].getD i []).getD j 0 / (1600000000 : ℝ) :=
      fun i hi j hj => smallDraws_dense i j (Finset.mem_range.1 hi) (Finset.mem_range.1 hj)
    rw [Finset.sum_congr rfl fun i hi => by rw [Finset.sum_congr rfl fun j hj => by rw [e i hi j hj]]]
    simp [Finset.sum_range_succ]
    norm_num

/-- If a column is zero the local column indices do not fit the column map. -/
theorem C101_matrix_false : ∃ draw : ℕ → ℝ, (∀ i, -1 ≤ draw i ∧ draw i < 1) ∧
    ∀ x, x.length = 2 → apply .bcqp 2 0 [draw] x = none := by
  refine ⟨fun i => if i = 1 then 1 / 2 else 0, ?_, ?_⟩
  · intro i; dsimp only; split <;> norm_num
  · intro x hx
    refine apply_none x ⟨_, List.mem_singleton.2 rfl, ?_⟩
    intro h
    obtain ⟨i, hi, hA⟩ := h 1 (by norm_num) ⟨1, by norm_num, by
      norm_num [dense, Finset.sum_range_succ, weight, droptol, abs_of_pos]⟩ 0 (by norm_num)
    interval_cases i <;> norm_num [dense, Finset.sum_range_succ, weight, droptol] at hA

/-- The random bounds can be met, and each bound is one of the two drawn numbers. -/
theorem C101_bounds (u v : List ℝ) (h : u.length = v.length) :
    (randomBounds u v).1.length = u.length ∧ (randomBounds u v).2.length = u.length ∧
    ∀ i (hu : i < u.length) (hv : i < v.length), ∃ lb ub, (randomBounds u v).1[i]? = some lb ∧
      (randomBounds u v).2[i]? = some ub ∧ lb ≤ ub ∧
      ((lb = u[i] ∧ ub = v[i]) ∨ (lb = v[i] ∧ ub = u[i])) := by
  refine ⟨by simp [randomBounds, h], by simp [randomBounds, h], fun i hu hv => ⟨min u[i] v[i], max u[i] v[i],
    by simp [randomBounds, hu, hv], by simp [randomBounds, hu, hv], min_le_max, ?_⟩⟩
  rcases le_total u[i] v[i] with hle | hle
  · left; simp [hle]
  · right; simp [hle]

/-- What `test_LCP` prints: over all ranks, how many components of `x` and of `y = A x + b` are
negative and the largest amounts. -/
theorem C101_quality (x y : List (List ℝ)) (hx : x ≠ []) (hy : y ≠ []) : ∃ qx qy,
    quality x y = some (qx, qy) ∧ Report x.flatten qx ∧ Report y.flatten qy ∧
      ((qx = (0, 0) ∧ qy = (0, 0)) ↔ (∀ a ∈ x.flatten, 0 ≤ a) ∧ (∀ a ∈ y.flatten, 0 ≤ a)) := by
  obtain ⟨qx, h1, h2⟩ := reduce_report x hx
  obtain ⟨qy, h3, h4⟩ := reduce_report y hy
  have key : ∀ (v : List ℝ) (q : ℕ × ℝ), Report v q → (q = (0, 0) ↔ ∀ a ∈ v, 0 ≤ a) := by
    intro v q hq
    constructor
    · rintro rfl a ha
      have := hq.2.2.1 a ha
      simpa using this
    · intro h
      refine Prod.ext ?_ ?_
      · rw [hq.1, List.length_eq_zero_iff, List.filter_eq_nil_iff]
        intro a ha; simpa using h a ha
      · rcases hq.2.2.2 with h0 | ⟨a, ha, he⟩
        · exact h0
        · have := h a ha
          have := hq.2.1
          dsimp only; linarith
  exact ⟨qx, qy, by simp [quality, h1, h3], h2, h4, and_congr (key _ _ h2) (key _ _ h4)⟩

/-- The report says nothing about complementarity: it can be perfect for a vector that does not
solve the problem. -/
theorem C101_quality_false : ∃ (draw : ℕ → ℝ) (x b y : List ℝ), (∀ i, 0 ≤ draw i ∧ draw i < 1) ∧
    (∃ ax, apply .cp 1 1 [draw] x = some ax ∧ y = List.zipWith (· + ·) ax b) ∧
    quality [x] [y] = some ((0, 0), (0, 0)) ∧ ¬ Complementary x y := by
  obtain ⟨ax, hax, hp⟩ := apply_some (k := .cp) (n := 1) (diagonal := 1) (draws := [fun _ => (0 : ℝ)])
    (x := [1]) (by simp) (by
      intro draw hd
      exact noGap_of_diagonal _ _ _ _ (by norm_num [droptol]))
  have hval : ax = [1] := by
    have h0 := hp.2 0 (by simp) 0 (by norm_num)
    have hl : ax.length = 1 := by simpa using hp.1
    obtain ⟨a, rfl⟩ := List.length_eq_one_iff.1 hl
    norm_num [blocks, dense, kept, droptol] at h0
    rw [h0]
  subst hval
  refine ⟨fun _ => 0, [1], [0], [1], by simp, ⟨[1], hax, by simp⟩, ?_, ?_⟩
  · norm_num [quality, reduce, negatives]
  · rintro ⟨_, _, h⟩
    norm_num [inner] at h

/-- Two ranks with two rows each: the hypotheses can be met. -/
example : ∃ y, apply .bcqp 2 1 [fun _ => 1 / 2, fun i => if i = 0 then 1 / 3 else 0] [1, 2, 3, 4] = some y ∧
    0 < inner [1, 2, 3, 4] y :=
  C101_definite_partial .bcqp 2 1 _ _ (by norm_num) (by simp) ⟨1, by simp, by norm_num⟩

example := (C101_bounds [1 / 2, -1 / 2] [1 / 3, 1 / 4] rfl).2.2 0 (by simp) (by simp)

example : ∃ q, quality [[1, -2], [3]] [[0, 1], [-1]] = some q ∧ ¬ (q.1 = (0, 0)) := by
  obtain ⟨qx, qy, h, hx, _, _⟩ := C101_quality [[1, -2], [3]] [[0, 1], [-1]] (by simp) (by simp)
  refine ⟨_, h, fun h0 => ?_⟩
  have := hx.2.2.1 (-2) (by simp)
  rw [show qx = (0, 0) from h0] at this
  norm_num at this

end Verif
