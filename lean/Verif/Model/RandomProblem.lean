import Mathlib.Data.Real.Basic
import Mathlib.Data.List.Destutter
import Mathlib.Data.List.Sort
import Mathlib.Analysis.SpecialFunctions.Pow.Real

/-!
Model of the constructors that make a random test problem for the two solvers
(Constraint/BCQPSolver.cpp:23-131 and Collision/CPSolver.cpp:184-290, the same code but for the
distributions), of `BCQPSolver::generateRandomBounds` (Constraint/BCQPSolver.cpp:512-533) and of the
report of `CPSolver::test_LCP` (Collision/CPSolver.cpp:828-867).

Doubles are real numbers, `int` and `size_t` are naturals (no overflow).  The draws of the random
number generator are an arbitrary sequence.
-/

namespace Verif.RandomProblem

/-- Which of the two constructors. -/
inductive Kind where
  | bcqp
  | cp

/-- The diagonal matrix `D` made from a draw: `pow(10, dis(gen))` (Constraint/BCQPSolver.cpp:62) or
`fabs(dis(gen)) + 2` (Collision/CPSolver.cpp:223). -/
noncomputable def weight : Kind → ℝ → ℝ
  | .bcqp, u => (10 : ℝ) ^ u
  | .cp, u => |u| + 2

/-- `BLocal` (Constraint/BCQPSolver.cpp:51-55, Collision/CPSolver.cpp:212-216): filled row by row. -/
def bLocal (n : ℕ) (draw : ℕ → ℝ) (i j : ℕ) : ℝ := draw (i * n + j)

/-- `DLocal` (Constraint/BCQPSolver.cpp:60-63, Collision/CPSolver.cpp:221-224): zero but on the
diagonal, drawn after `BLocal`. -/
noncomputable def dLocal (k : Kind) (n : ℕ) (draw : ℕ → ℝ) (i j : ℕ) : ℝ :=
  if i = j then weight k (draw (n * n + i)) else 0

/-- `SerialDenseMatrix::multiply(NO_TRANS, NO_TRANS, 1.0, X, Y, 0.0)`, by contract. -/
def mulNN (n : ℕ) (X Y : ℕ → ℕ → ℝ) (i j : ℕ) : ℝ :=
  ((List.range n).map fun k => X i k * Y k j).sum

/-- `SerialDenseMatrix::multiply(TRANS, NO_TRANS, 1.0, X, Y, 0.0)`, by contract. -/
def mulTN (n : ℕ) (X Y : ℕ → ℕ → ℝ) (i j : ℕ) : ℝ :=
  ((List.range n).map fun k => X k i * Y k j).sum

/-- `ALocal` (Constraint/BCQPSolver.cpp:66-72, Collision/CPSolver.cpp:227-232). -/
noncomputable def aLocal (k : Kind) (n : ℕ) (diagonal : ℝ) (draw : ℕ → ℝ) (i j : ℕ) : ℝ :=
  let temp := mulNN n (dLocal k n draw) (bLocal n draw)
  mulTN n (bLocal n draw) temp i j + if i = j then diagonal else 0

/-- `droptol` (Constraint/BCQPSolver.cpp:76, Collision/CPSolver.cpp:237). -/
noncomputable def droptol : ℝ := 1 / 10000000

open Classical in
/-- The test `fabs(ALocal(i, j)) > droptol`. -/
noncomputable def keeps (A : ℕ → ℕ → ℝ) (i j : ℕ) : Bool := decide (|A i j| > droptol)

/-- `rowCount` (Constraint/BCQPSolver.cpp:79-86). -/
noncomputable def rowCount (n : ℕ) (A : ℕ → ℕ → ℝ) : List ℕ :=
  (List.range n).map fun i => (List.range n).foldl (fun c j => if keeps A i j then c + 1 else c) 0

/-- `rowPointers` (Constraint/BCQPSolver.cpp:88-91): running sums, starting with 0. -/
def pointers (counts : List ℕ) : List ℕ := counts.scanl (· + ·) 0

/-- The arrays being filled and the place `p` (Constraint/BCQPSolver.cpp:92-94). -/
structure Filling where
  columns : List ℕ
  values : List ℝ
  p : ℕ

/-- One pass of the inner loop (Constraint/BCQPSolver.cpp:97-101).  Writing outside of the arrays is
undefined. -/
noncomputable def fillOne (A : ℕ → ℕ → ℝ) (i : ℕ) (s : Filling) (j : ℕ) : Option Filling :=
  if keeps A i j then
    if s.p < s.columns.length ∧ s.p < s.values.length then
      some ⟨s.columns.set s.p j, s.values.set s.p (A i j), s.p + 1⟩
    else none
  else some s

/-- Both loops (Constraint/BCQPSolver.cpp:95-103). -/
noncomputable def fill (n : ℕ) (A : ℕ → ℕ → ℝ) (s : Filling) : Option Filling :=
  (List.range n).foldlM (fun s i => (List.range n).foldlM (fillOne A i) s) s

/-- `std::unique` and `erase` (Constraint/BCQPSolver.cpp:115): of equal neighbours the first stays. -/
def unique (l : List ℕ) : List ℕ := l.destutter (· ≠ ·)

/-- The arrays given to the constructor of `Tpetra::CrsMatrix` on one rank. -/
structure Csr where
  pointers : List ℕ
  columns : List ℕ
  values : List ℝ
  /-- global column of each local column -/
  colMap : List ℕ

/-- The matrix of one rank (Constraint/BCQPSolver.cpp:74-121, Collision/CPSolver.cpp:234-283).  A
`Kokkos::View` starts with zeros; the total is `rowPointers[localSize]`.  `std::sort` by contract. -/
noncomputable def csr (n rank : ℕ) (A : ℕ → ℕ → ℝ) : Option Csr := do
  let rowPointers := pointers (rowCount n A)
  let total ← rowPointers[n]?
  let s ← fill n A ⟨List.replicate total 0, List.replicate total 0, 0⟩
  let colMapIndex := s.columns.map (· + rank * n)
  some ⟨rowPointers, s.columns, s.values, unique (colMapIndex.mergeSort (· ≤ ·))⟩

/-- One entry of `Tpetra::CrsMatrix::apply`: the value at place `p` times the component of `x` at
the global column of that place.  By contract of Tpetra: column indices are local, they are looked
up in the column map; an index beyond the map is undefined. -/
noncomputable def term (m : Csr) (x : List ℝ) (p : ℕ) : Option ℝ := do
  let c ← m.columns[p]?
  let v ← m.values[p]?
  let g ← m.colMap[c]?
  let xg ← x[g]?
  some (v * xg)

/-- Row `i` of the product. -/
noncomputable def applyRow (m : Csr) (x : List ℝ) (i : ℕ) : Option ℝ := do
  let a ← m.pointers[i]?
  let b ← m.pointers[i + 1]?
  let terms ← (List.range' a (b - a)).mapM (term m x)
  some terms.sum

/-- The rows of one rank. -/
noncomputable def applyRank (n : ℕ) (m : Csr) (x : List ℝ) : Option (List ℝ) :=
  (List.range n).mapM (applyRow m x)

/-- The operator `ARcp` on all ranks: rank `r` has the rows `r n, ..., r n + n - 1`
(`getTMAPFromLocalSize`, C52).  `draws r` are the draws of rank `r`. -/
noncomputable def apply (k : Kind) (n : ℕ) (diagonal : ℝ) (draws : List (ℕ → ℝ)) (x : List ℝ) :
    Option (List ℝ) := do
  let ys ← draws.zipIdx.mapM fun (draw, rank) => do
    let m ← csr n rank (aLocal k n diagonal draw)
    applyRank n m x
  some ys.flatten

/-- `generateRandomBounds` (Constraint/BCQPSolver.cpp:512-533) from the two random vectors: lower and
upper bounds. -/
noncomputable def randomBounds (u v : List ℝ) : List ℝ × List ℝ :=
  (List.zipWith min u v, List.zipWith max u v)

/-- What one rank counts (Collision/CPSolver.cpp:828-847): how many components are negative and the
largest amount. -/
noncomputable def negatives (v : List ℝ) : ℕ × ℝ :=
  v.foldl (fun s a => if a < 0 then (s.1 + 1, max s.2 (-a)) else s) (0, 0)

/-- `MPI_Reduce` with `MPI_SUM` and with `MPI_MAX` at rank 0 (Collision/CPSolver.cpp:850-867), for
the reports of the ranks; there is at least one rank. -/
noncomputable def reduce (reports : List (ℕ × ℝ)) : Option (ℕ × ℝ) :=
  match reports with
  | [] => none
  | r :: rs => some (rs.foldl (fun s a => (s.1 + a.1, max s.2 a.2)) r)

/-- The solution quality printed by `test_LCP` (Collision/CPSolver.cpp:820-885): for `x` and for
`y = A x + b`, given by rank. -/
noncomputable def quality (x y : List (List ℝ)) : Option ((ℕ × ℝ) × (ℕ × ℝ)) := do
  let qx ← reduce (x.map negatives)
  let qy ← reduce (y.map negatives)
  some (qx, qy)

end Verif.RandomProblem
