import Verif.Model.Walk
import Verif.Spec.Tree
/-! Trees with boxes, as the code builds them, and the leaf a particle is in. -/
namespace Verif.Tree

/-- `LinkCell` followed by `CalcMoment`, as `linkCellLocalTreeOnly`/`calcMomentLocalTreeOnly` and their global versions
call them: `T` is what they leave for the particles `T.eps` with keys `keys`, for some old contents of the arrays and
some orders of the parallel loops. -/
def Built {α : Type} (big : ℝ) (keys : List (BitVec 64)) (T : MTree α) : Prop :=
  ∃ (order order' : ℕ → ℕ → List ℕ) (part : ℕ → ℕ) (m : Mem) (mom : ℕ → Mom),
    (∀ l r, (order l r).Perm (List.range' l (r - l))) ∧ (∀ l r, (order' l r).Perm (List.range' l (r - l))) ∧
    SortedKeys keys ∧ 1 ≤ T.limit ∧ T.eps.length = keys.length ∧
    linkCell keys T.limit order part m = some T.r ∧ calcMoment big T.limit order' T.r T.eps mom = some T.mom

/-- The particle number `i` is in the leaf `l` below the cell `c`. -/
inductive InLeaf {α : Type} (T : MTree α) (i : ℕ) : ℕ → ℕ → Prop
  | leaf (c a : ℕ) : (T.r.mem c).isLeaf T.limit = true → (T.r.mem c).adr = some a → a ≤ i →
      i < a + (T.r.mem c).n → InLeaf T i c c
  | child (c t j l : ℕ) : (T.r.mem c).isLeaf T.limit = false → (T.r.mem c).adrTc = some t → j < 8 →
      InLeaf T i (t + j) l → InLeaf T i c l

/-- The groups are consecutive, not empty, and together hold the particles `a, …, b - 1`. -/
inductive Tiling : ℕ → ℕ → List Group → Prop
  | nil (a : ℕ) : Tiling a a []
  | cons (a b : ℕ) (g : Group) (gs : List Group) : g.adr = a → 0 < g.n → Tiling (a + g.n) b gs → Tiling a b (g :: gs)

end Verif.Tree
