import Verif.Model.Collector
/-! Meaning of the constraint matrix, the stress totals and the numbering (independent of how they are computed). -/
namespace Verif.Spec.Collector
open Verif.Collector Verif.V3

/-- Rate of change of the separation of a constraint when body `g` moves with velocity `U g` and angular velocity
`W g`. -/
noncomputable def gapRate (U W : ℤ → V3) (b : Block) : ℝ :=
  dot b.normI (U b.globalIndexI + cross (W b.globalIndexI) b.posI) +
    if b.oneSide then 0 else dot b.normJ (U b.globalIndexJ + cross (W b.globalIndexJ) b.posJ)

/-- Sum of a list of vectors. -/
noncomputable def vsum : List V3 → V3
  | [] => 0
  | a :: l => a + vsum l

/-- Force on body `g` of constraint `b` with unit multiplier. -/
noncomputable def unitForce (b : Block) (g : ℤ) : V3 :=
  (if b.globalIndexI = g then b.normI else 0) + (if b.oneSide = false ∧ b.globalIndexJ = g then b.normJ else 0)

/-- Torque about the centre of body `g` of constraint `b` with unit multiplier. -/
noncomputable def unitTorque (b : Block) (g : ℤ) : V3 :=
  (if b.globalIndexI = g then cross b.posI b.normI else 0) +
    (if b.oneSide = false ∧ b.globalIndexJ = g then cross b.posJ b.normJ else 0)

/-- Force on body `g` of all constraints. -/
noncomputable def force (bs : List (Block × ℝ)) (g : ℤ) : V3 := vsum (bs.map (fun p => p.2 • unitForce p.1 g))

/-- Torque on body `g` of all constraints. -/
noncomputable def torque (bs : List (Block × ℝ)) (g : ℤ) : V3 := vsum (bs.map (fun p => p.2 • unitTorque p.1 g))

/-- `x` is the vector of velocities and angular velocities, six entries per body. -/
structure IsVelocity (x : ℤ → ℝ) (U W : ℤ → V3) : Prop where
  ux : ∀ g, x (6 * g) = (U g).x
  uy : ∀ g, x (6 * g + 1) = (U g).y
  uz : ∀ g, x (6 * g + 2) = (U g).z
  wx : ∀ g, x (6 * g + 3) = (W g).x
  wy : ∀ g, x (6 * g + 4) = (W g).y
  wz : ∀ g, x (6 * g + 5) = (W g).z

/-- Is a block part of the total asked for. -/
def counted (withOneSide bilateral : Bool) (b : Block) : Bool :=
  (withOneSide || !b.oneSide) && (b.bilateral == bilateral)

/-- Entry `(i, j)` of the sum of the stresses of the counted blocks. -/
noncomputable def stressTotal (withOneSide bilateral : Bool) (bs : List Block) (i j : Fin 3) : ℝ :=
  ((bs.filter (counted withOneSide bilateral)).map (fun b => b.stress ⟨3 * i + j, by omega⟩)).sum

end Verif.Spec.Collector
