import Verif.Model.Domain
import Verif.Spec.Box
/-! Domains that tile the root domain. -/
namespace Verif.Domain

/-- The domains lie in the root domain, and every point of it (without the upper faces) is in exactly one of them. -/
def Tiles (root : Box) (n : ℕ) (dom : ℕ → Box) : Prop :=
  (∀ i < n, Box.Proper (dom i) ∧ ∀ p, Box.Mem p (dom i) → Box.Mem p root) ∧
  ∀ p, Box.MemHalf p root → ∃! i, i < n ∧ Box.MemHalf p (dom i)

/-- The domains are slabs along `x`, each cut into columns along `y`, each cut along `z`. -/
def IsGrid (root : Box) (g : Grid) (dom : ℕ → Box) : Prop :=
  ∃ (X : ℕ → ℝ) (Y : ℕ → ℕ → ℝ) (Z : ℕ → ℕ → ℕ → ℝ),
    (X 0 = root.low.x ∧ X g.nx = root.high.x ∧ ∀ i < g.nx, X i ≤ X (i + 1)) ∧
    (∀ i < g.nx, Y i 0 = root.low.y ∧ Y i g.ny = root.high.y ∧ ∀ j < g.ny, Y i j ≤ Y i (j + 1)) ∧
    (∀ i < g.nx, ∀ j < g.ny, Z i j 0 = root.low.z ∧ Z i j g.nz = root.high.z ∧ ∀ k < g.nz, Z i j k ≤ Z i j (k + 1)) ∧
    ∀ i < g.nx, ∀ j < g.ny, ∀ k < g.nz, dom ((i * g.ny + j) * g.nz + k) =
      ⟨⟨X i, Y i j, Z i j k⟩, ⟨X (i + 1), Y i (j + 1), Z i j (k + 1)⟩⟩

/-- What the C++ standard promises of `std::sort` with a comparison of one coordinate. -/
def Sorts (srt : (V3 → ℝ) → List V3 → List V3) : Prop :=
  ∀ f l, (srt f l).Perm l ∧ (srt f l).Pairwise fun p q => f p ≤ f q

/-- The open box as a set. -/
def Inside (p : V3) (b : Box) : Prop :=
  (b.low.x < p.x ∧ p.x < b.high.x) ∧ (b.low.y < p.y ∧ p.y < b.high.y) ∧ (b.low.z < p.z ∧ p.z < b.high.z)

/-- `decomposeDomain` called repeatedly, with the samples of each call and what `pos_domain_temp_` held before it. -/
noncomputable def repeated (srt : (V3 → ℝ) → List V3 → List V3) (c : ℝ) (root : Box) (g : Grid) : List (List V3 × (ℕ → Box)) → State → Option State
  | [], st => some st
  | (l, tmp) :: r, st => (decompose srt c root g l tmp st).bind (repeated srt c root g r)

end Verif.Domain
