import Verif.Spec.Layout
/-! Programs that use different units of force and time. -/
namespace Verif.Spec.Units
open Verif.Collector Verif.Sim Verif.V3 Verif.RunStep Verif.Mobility

/-- The program `D` simulates the same as `C`, in other units: a force of one unit of `C` is `φ` units of `D`, a time of one unit of `C` is `τ` units of `D`.  The unit of length is
the same.  The numbers and the grid of ranks, the threads, the parameters of FDPS and of the decomposition, the order of the links, and the solver and its tolerance may be different.
Neither simulates a monolayer. -/
structure OtherUnits (φ τ : ℝ) (C D : Sim.Cfg) : Prop where
  force : 0 < φ
  time : 0 < τ
  mono : (C.place.monolayer = false ∧ C.mob.monolayer = false) ∧ D.place.monolayer = false ∧ D.mob.monolayer = false
  diameterColRatio : D.place.diameterColRatio = C.place.diameterColRatio
  lengthColRatio : D.place.lengthColRatio = C.place.lengthColRatio
  colBuf : D.place.colBuf = C.place.colBuf
  linkGap : D.link.linkGap = C.link.linkGap
  linkMap : D.linkMap.Perm C.linkMap
  bounds : D.bounds.Perm C.bounds
  /-- A force per length. -/
  linkKappa : D.link.linkKappa = φ * C.link.linkKappa
  /-- A force times a time per area. -/
  viscosity : D.mob.viscosity = φ * τ * C.mob.viscosity
  /-- A time. -/
  dt : D.mob.dt = τ * C.mob.dt

/-- A constraint with its stiffness in other units. -/
noncomputable def stiff (φ : ℝ) (b : Block) : Block := { b with kappa := φ * b.kappa }

/-- A number times a pair of vectors. -/
noncomputable def multiple (c : ℝ) (F : V3 × V3) : V3 × V3 := (c • F.1, c • F.2)

end Verif.Spec.Units
