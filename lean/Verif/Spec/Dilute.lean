import Verif.Spec.Collector
import Verif.Spec.Motion
/-! Steps in which the constraints do not influence each other (C109). -/
namespace Verif.Spec.Dilute
open Verif.V3 Verif.Mobility Verif.Collector Spec.Collector Spec.Motion

/-- A constraint pushes the body with global index `g`. -/
def Touches (b : Block) (g : ℤ) : Prop := b.globalIndexI = g ∨ (b.oneSide = false ∧ b.globalIndexJ = g)

/-- No body that can move is pushed by two of the constraints. -/
def Dilute (bodies : List Sylinder) (blocks : List Block) : Prop :=
  ∀ (i j : ℕ) (b b' : Block), blocks[i]? = some b → blocks[j]? = some b' → i ≠ j →
    ∀ x ∈ bodies, x.isImmovable = false → ¬ (Touches b x.globalIndex ∧ Touches b' x.globalIndex)

/-- What a spring yields in a step under a unit force, per unit of time; contacts and rigid links do not yield. -/
noncomputable def yield (dt : ℝ) (b : Block) : ℝ := if b.bilateral = true ∧ 0 < b.kappa then 1 / b.kappa / dt else 0

/-- `lam` is how fast the constraint opens when it pushes its bodies with a unit multiplier and nothing else does. -/
def Response (mu dt : ℝ) (bodies : List Sylinder) (b : Block) (lam : ℝ) : Prop :=
  ∃ U W : ℤ → V3, (∀ x ∈ bodies, Moves mu x (unitForce b x.globalIndex, unitTorque b x.globalIndex) (U x.globalIndex, W x.globalIndex)) ∧
    lam = gapRate U W b + yield dt b

end Verif.Spec.Dilute
