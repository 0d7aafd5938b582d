import Verif.Spec.Sim
/-! Bodies that an application may add to a run. -/
namespace Verif.Sim
open Near Collector

/-- A body that fits into a run with the configuration `C`: what `Sound` asks of the bodies at the beginning. -/
structure Fits (C : Cfg) (b : Sylinder) : Prop where
  valid : Spec.Mobility.Valid b
  body : Collide.Body (sized C b)
  short : C.place.d.periodic 0 = true → (EP.copyFromFP (sized C b)).getRSearch < 9998 * (C.place.d.high 0 - C.place.d.low 0)
  small : ∃ R, Spec.Near.Rad (EP.copyFromFP (sized C b)) ≤ R ∧ b.radius ≤ R ∧ 2 * R ≤ BCQP.dblMax / 10 ∧ 2 * R + C.link.linkGap ≤ BCQP.dblMax / 10

/-- The ids of the bodies of all ranks. -/
def ids (n : ℕ) (P : ℕ → List Sylinder) : List ℤ := (all n P).map Sylinder.gid

end Verif.Sim
