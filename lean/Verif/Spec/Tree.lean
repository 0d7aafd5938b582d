import Verif.Model.Tree
/-! What a correctly linked oct-tree is. -/
namespace Verif.Tree

/-- The particles are sorted by key and the top bit of the keys is 0. -/
def SortedKeys (keys : List (BitVec 64)) : Prop :=
  keys.Pairwise (fun k l => k.toNat ≤ l.toNat) ∧ ∀ k ∈ keys, k.toNat < 2 ^ 63

/-- `IsTree r keys limit lev c a n`: in `r`, the cell number `c` is the root of a subtree of level `lev` that holds the
particles `a, …, a + n - 1`.  A cell with more than `limit` particles above the last level has eight children; child
`j` holds exactly those particles of the cell whose octant of the next level is `j`, and the children share out the
particles of the cell in order.  All cells are inside the array, and the cells of one level are found in the interval
given by the level table. -/
inductive IsTree (r : Result) (keys : List (BitVec 64)) (limit : ℕ) : ℕ → ℕ → ℕ → ℕ → Prop
  | empty (lev c a : ℕ) : c < r.size → r.part lev ≤ c → c < r.part (lev + 1) → lev ≤ r.levMax →
      (r.mem c).n = 0 → (r.mem c).level = lev → IsTree r keys limit lev c a 0
  | leaf (lev c a n : ℕ) : c < r.size → r.part lev ≤ c → c < r.part (lev + 1) → lev ≤ r.levMax →
      (r.mem c).n = n → (r.mem c).level = lev → 0 < n →
      (r.mem c).adr = some a → a + n ≤ keys.length → (n ≤ limit ∨ lev = levelLimit) → IsTree r keys limit lev c a n
  | node (lev c a n t : ℕ) (b : ℕ → ℕ) : c < r.size → r.part lev ≤ c → c < r.part (lev + 1) → lev ≤ r.levMax →
      (r.mem c).n = n → (r.mem c).level = lev → limit < n → lev < levelLimit →
      (r.mem c).adr = some a → a + n ≤ keys.length → (r.mem c).adrTc = some t →
      b 0 = a → b 8 = a + n → (∀ j < 8, b j ≤ b (j + 1)) →
      (∀ j < 8, ∀ i, b j ≤ i → i < b (j + 1) → ∃ k, keys[i]? = some k ∧ Morton.getCellID (lev + 1) k = j) →
      (∀ j < 8, IsTree r keys limit (lev + 1) (t + j) (b j) (b (j + 1) - b j)) → IsTree r keys limit lev c a n

/-- What `LinkCell` has to leave: a tree over all particles from cell 0, whose children are the second block of cells,
and every cell of the level table is a (sub)tree. -/
structure Linked (r : Result) (keys : List (BitVec 64)) (limit : ℕ) : Prop where
  root : IsTree r keys limit 0 0 0 keys.length
  rootAdr : (r.mem 0).adr = some 0
  rootChild : (r.mem 0).adrTc = some 8
  levMax : r.levMax ≤ 21
  cells : ∀ lev c, lev ≤ r.levMax → r.part lev ≤ c → c < r.part (lev + 1) → ∃ a n, IsTree r keys limit lev c a n

end Verif.Tree
