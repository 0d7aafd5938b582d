import Verif.Model.RandomProblem
import Mathlib.Algebra.BigOperators.Group.Finset.Basic
import Mathlib.Algebra.BigOperators.Intervals

/-! What the random test problem is meant to be. -/

namespace Verif.Spec.RandomProblem

open Verif.RandomProblem

/-- `B^T D B` plus the extra diagonal, from the draws. -/
noncomputable def dense (k : Kind) (n : ℕ) (diagonal : ℝ) (draw : ℕ → ℝ) (i j : ℕ) : ℝ :=
  ∑ l ∈ Finset.range n, weight k (draw (n * n + l)) * draw (l * n + i) * draw (l * n + j) +
    if i = j then diagonal else 0

/-- The matrices of the ranks. -/
noncomputable def blocks (k : Kind) (n : ℕ) (diagonal : ℝ) (draws : List (ℕ → ℝ)) (r : ℕ) : ℕ → ℕ → ℝ :=
  dense k n diagonal (draws.getD r fun _ => 0)

open Classical in
/-- Small entries are dropped. -/
noncomputable def kept (a : ℝ) : ℝ := if |a| ≤ droptol then 0 else a

/-- A column of the matrix of a rank has an entry that is not dropped. -/
def Used (A : ℕ → ℕ → ℝ) (n j : ℕ) : Prop := ∃ i < n, droptol < |A i j|

/-- No column without entries comes before one with entries. -/
def NoGap (A : ℕ → ℕ → ℝ) (n : ℕ) : Prop := ∀ j < n, Used A n j → ∀ i < j, Used A n i

/-- `y` is the product of the block diagonal matrix with `x`. -/
def IsProduct (A : ℕ → ℕ → ℕ → ℝ) (n ranks : ℕ) (x y : List ℝ) : Prop :=
  y.length = ranks * n ∧ ∀ r < ranks, ∀ i < n,
    y[r * n + i]? = some (∑ j ∈ Finset.range n, kept (A r i j) * x.getD (r * n + j) 0)

/-- The inner product of lists of the same length. -/
def inner (x y : List ℝ) : ℝ := (List.zipWith (· * ·) x y).sum

/-- The linear complementarity problem `0 ≤ x ⊥ y ≥ 0`. -/
def Complementary (x y : List ℝ) : Prop :=
  (∀ a ∈ x, 0 ≤ a) ∧ (∀ a ∈ y, 0 ≤ a) ∧ inner x y = 0

/-- How many components of a vector are negative, and the largest amount by which one is. -/
def Report (v : List ℝ) (q : ℕ × ℝ) : Prop :=
  q.1 = (v.filter fun a => decide (a < 0)).length ∧ 0 ≤ q.2 ∧ (∀ a ∈ v, -a ≤ q.2) ∧
    (q.2 = 0 ∨ ∃ a ∈ v, q.2 = -a)

end Verif.Spec.RandomProblem
