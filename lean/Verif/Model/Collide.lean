import Verif.Model.Place
import Verif.Model.Force
import Verif.Model.Near
/-! Sylinder/SylinderSystem.cpp:1150-1161 `collectPairCollision` on all ranks: FDPS `calcForceAll` with the functor `CalcSylinderNearForce`. -/
namespace Verif.Collide
open Tree Image Let Near Collector

/-- What `copyFromFP` (Sylinder/SylinderNear.hpp:74-90) gives, as FDPS sees it. -/
noncomputable def toEp (s : Sylinder) : Ep EP := ⟨(EP.copyFromFP s).pos, (EP.copyFromFP s).getRSearch, EP.copyFromFP s⟩

/-- What the functor gets: FDPS changes the position of images by `setPos` (Sylinder/SylinderNear.hpp:118-122). -/
def ofEp (p : Ep EP) : EP := { p.data with pos := p.pos }

/-- What FDPS uses of `DomainInfo`. -/
noncomputable def dinfo (c : Place.Cfg) (dom : ℕ → Box) : Dinfo := ⟨⟨c.d.periodic 0, c.d.periodic 1, c.d.periodic 2⟩, c.root, dom, c.g.n⟩

/-- SylinderSystem.cpp:1150-1161 on rank `b`.  `thr i` is the thread that makes call number `i`, `pool` the content of the queues of this rank.
The results of the functor (`ForceNear`, all zero) are not used. -/
noncomputable def collectPairCollision (F : Force.Config) (d : Dinfo) (S : ℕ → List Sylinder) (X : ℕ → Force.RankExec EP) (thr : ℕ → ℕ) (b fuel : ℕ)
    (pool : Pool) : Option Pool :=
  match Force.calcForceAll F d (fun r => (S r).map toEp) X (fun ei ej => (ei.map fun _ => (), [(ei.map ofEp, ej.map ofEp)])) b fuel with
  | none => none
  | some (_, out) => Near.collect pool (out.zipIdx.map fun q => ⟨thr q.2, q.1.1, q.1.2⟩)

end Verif.Collide
