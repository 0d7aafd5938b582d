import Verif.Spec.Momentum
import Verif.Spec.Work
import Verif.Spec.Resume
/-! Steps of programs that differ in the distribution of the bodies over ranks and threads. -/
namespace Verif.Spec.Layout
open Verif.Collector Verif.Sim Verif.V3 Verif.RunStep Verif.Mobility Verif.Spec.Mobility

/-- A constraint without the numbers of the bodies in the distributed vectors. -/
def forget (b : Block) : Block := { b with globalIndexI := 0, globalIndexJ := 0 }

/-- Two programs simulate the same: the numbers and the grid of ranks, the threads, the parameters of FDPS and of the decomposition, the order of the links, and
the solver and its tolerance may be different.  Neither simulates a monolayer. -/
structure SamePhysics (C D : Sim.Cfg) : Prop where
  mono : (C.place.monolayer = false ∧ C.mob.monolayer = false) ∧ D.place.monolayer = false ∧ D.mob.monolayer = false
  diameterColRatio : D.place.diameterColRatio = C.place.diameterColRatio
  lengthColRatio : D.place.lengthColRatio = C.place.lengthColRatio
  colBuf : D.place.colBuf = C.place.colBuf
  link : D.link = C.link
  linkMap : D.linkMap.Perm C.linkMap
  bounds : D.bounds.Perm C.bounds
  viscosity : D.mob.viscosity = C.mob.viscosity
  dt : D.mob.dt = C.mob.dt

/-- The velocities of bodies, by their ids. -/
def Velocities (bodies : List Sylinder) (U W : ℤ → V3) : Prop := ∀ u ∈ bodies, U u.gid = u.vel ∧ W u.gid = u.omega

/-- The forces and velocities that are given for the bodies of a step, by their ids (zero if none are given). -/
def Loads (n : ℕ) (q : Place.Sys) (ranks : List RankIn) (G V : ℤ → V3 × V3) : Prop :=
  ∀ (r : ℕ) (rk : RankIn) (i : ℕ) (x : Sylinder), ranks[r]? = some rk → (numbered n q.P r)[i]? = some x →
    at6 (rk.force.getD []) i = G x.gid ∧ at6 (rk.velPart.getD []) i = V x.gid

/-- The rate at which the separation of a constraint changes when the body with the id `g` moves at `U g` and turns at `W g`. -/
noncomputable def gapOf (U W : ℤ → V3) (b : Block) : ℝ :=
  dot b.normI (U b.gidI + cross (W b.gidI) b.posI) + if b.oneSide then 0 else dot b.normJ (U b.gidJ + cross (W b.gidJ) b.posJ)

/-- A lower bound of the power that the drag takes from a body that moves at `T`: the smaller drag coefficient for its speed, and the rotational one for its angular speed. -/
noncomputable def lag (mu : ℝ) (b : Sylinder) (T : V3 × V3) : ℝ :=
  if b.isImmovable then 0 else match b.calcDragCoeff Pi mu with
    | none => 0
    | some (para, perp, rot) => min para perp * dot T.1 T.1 + rot * dot T.2 T.2

open Classical in
/-- How far from exact a solution can be at a constraint: `tol` is the tolerance of the solver, `tol'` that of another one, multipliers below `small` are taken as zero, `δ` is the
separation after the step, `g` the multiplier. -/
noncomputable def loose (dt tol tol' small : ℝ) (b : Block) (δ g : ℝ) : ℝ :=
  if b.bilateral = true ∧ 0 < b.kappa then b.kappa / 2 * (dt * tol) ^ 2 else |g| * (dt * (tol + tol')) + small * max δ 0

end Verif.Spec.Layout
