import Verif.Model.Sim
import Verif.Spec.Mobility
import Verif.Spec.Near
/-! What a whole run has to be like. -/
namespace Verif.Sim
open Domain Near Collector RunStep Mobility

/-- What a body is: its id, group, whether it is immovable, radius and length. -/
def kind (b : Sylinder) : ℤ × ℤ × Bool × ℝ × ℝ := (b.gid, b.group, b.isImmovable, b.radius, b.length)

/-- The bodies of all ranks. -/
def all (n : ℕ) (P : ℕ → List Sylinder) : List Sylinder := (List.range n).flatMap P

/-- A body with the sizes for collisions that the configuration says. -/
noncomputable def sized (C : Cfg) (b : Sylinder) : Sylinder :=
  { b with radiusCollision := b.radius * C.place.diameterColRatio, lengthCollision := b.length * C.place.lengthColRatio, colBuf := C.place.colBuf }

/-- What a monolayer needs: one layer of ranks, with the plane in the box (`C83_monolayer_false`); no Brownian motion (`C88_false_monolayer`); a projection that keeps the
orientations unit quaternions.  The projection of the code does so for bodies that are not exactly upright (`C65_plane_partial`, `C65_upright_false`). -/
structure Level (C : Cfg) : Prop where
  layer : C.place.g.nz = 1
  inside : C.place.root.low.z ≤ C.place.monoZ ∧ C.place.monoZ < C.place.root.high.z
  cold : C.mob.KBT ≤ 0
  flat : ∀ q, Spec.UnitQuat q → Spec.UnitQuat (C.place.flat q)

/-- What the configuration and the bodies at the beginning have to be like.

* `mono`: no monolayer, or one as described by `Level`.
* `place`, `fdps`: the box, the ranks, the parameters of FDPS; at least as many bodies as ranks.
* `valid`, `body`: radius positive, length not negative, unit orientation, and a body that is a sphere for collisions is found by the search (`C40_false`).
* `largest`: no overlap is too large as a first guess for a multiplier.
* `links`: the second body of a link exists. -/
structure Sound (C : Cfg) (pbc : Fin 3 → Bool) (low high : Fin 3 → ℝ) (P₀ : ℕ → List Sylinder) : Prop where
  place : Place.Sound C.place pbc low high
  mono : C.place.monolayer = false ∧ C.mob.monolayer = false ∨ Level C
  enough : C.place.g.n ≤ Place.total P₀ C.place.g.n
  viscosity : 0 < C.mob.viscosity
  dt : 0 < C.mob.dt
  valid : ∀ b ∈ all C.place.g.n P₀, Spec.Mobility.Valid b
  body : ∀ b ∈ all C.place.g.n P₀, Collide.Body (sized C b)
  fdps : Collide.Limits C.F C.place fun r => (P₀ r).map (sized C)
  largest : ∃ R, (∀ b ∈ all C.place.g.n P₀, Spec.Near.Rad (EP.copyFromFP (sized C b)) ≤ R ∧ b.radius ≤ R) ∧ 2 * R ≤ BCQP.dblMax / 10 ∧
    2 * R + C.link.linkGap ≤ BCQP.dblMax / 10
  links : ∀ l ∈ C.linkMap, ∃ b ∈ all C.place.g.n P₀, b.gid = l.2
  linkBox : C.link.pbc = pbc ∧ C.link.low = low ∧ C.link.high = high

/-- The steps of a run are made with such a configuration and such bodies. -/
abbrev Ok (pbc : Fin 3 → Bool) (low high : Fin 3 → ℝ) (C : Cfg) (P : ℕ → List Sylinder) : Prop := Sound C pbc low high P

/-- The constraint solver converged in a step that left `out`: the residual `res` after the last iteration is below the tolerance, and no multiplier is at its
upper bound (about a tenth of the largest number). -/
def Converged (C : Cfg) (fl : ℝ → ℝ) (out : Out) (res : ℝ) : Prop :=
  ∃ last, out.history.getLast? = some last ∧ last.res = res ∧ res < C.ctl.res ∧ (C.ctl.choice = 1 → res < BCQP.dblMax ∧ 2 ≤ out.history.length) ∧
    ∀ p ∈ out.pools, ∀ b ∈ p.flatten, b.gamma ≤ fl (BCQP.dblMax / 10 - BCQP.dblEps * 100)

end Verif.Sim
