import Mathlib.Data.Real.Basic

/-!
The quality that `CPSolver::test_LCP` reports about a solution (Collision/CPSolver.cpp:828-889).  The vectors are given: `x`, and `y`
for `A x + b`, with their entries on each rank.  A number is `none` if it is NaN.
-/

namespace Verif.LCPTest

/-- A `double` that is finite, or NaN. -/
abbrev Num := Option ℝ

/-- An addition of `int`s; `none` if it overflows. -/
def addInt (a b : ℕ) : Option ℕ := if a + b < 2 ^ 31 then some (a + b) else none

open Classical in
/-- Collision/CPSolver.cpp:844-847 (and 848-851): one number.  Comparisons with NaN are false. -/
noncomputable def look (v : Num) (r : ℕ × ℝ) : Option (ℕ × ℝ) :=
  match v with
  | none => some r
  | some v => if v < 0 then (addInt r.1 1).map fun n => (n, max r.2 (-v)) else some r

/-- Collision/CPSolver.cpp:837-853: the loop over the numbers of one rank. -/
noncomputable def scan : List Num → ℕ × ℝ → Option (ℕ × ℝ)
  | [], r => some r
  | v :: l, r => (look v r).bind (scan l)

/-- Collision/CPSolver.cpp:856-875: the sum and the maximum of the results of all ranks, which rank 0 gets. -/
noncomputable def reduce : List (ℕ × ℝ) → Option (ℕ × ℝ)
  | [] => some (0, 0)
  | [r] => some r
  | r :: l => (reduce l).bind fun q => (addInt r.1 q.1).map fun n => (n, max r.2 q.2)

/-- Collision/CPSolver.cpp:837-889: the number of negative entries and the largest error, as they are printed for one of the vectors. -/
noncomputable def report (ranks : List (List Num)) : Option (ℕ × ℝ) := (ranks.mapM fun l => scan l (0, 0)).bind reduce

/-- Collision/CPSolver.cpp:828-889: what is printed for `x` and for `y`. -/
noncomputable def testLCP (x y : List (List Num)) : Option ((ℕ × ℝ) × (ℕ × ℝ)) :=
  (report x).bind fun rx => (report y).map fun ry => (rx, ry)

end Verif.LCPTest
