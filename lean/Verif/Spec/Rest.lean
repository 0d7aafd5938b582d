import Verif.Spec.Sim
import Verif.Spec.Springs
import Verif.Spec.Collide
import Verif.Spec.BoundaryCol
import Verif.Props.Links
/-! Configurations in which nothing should move. -/
namespace Verif.Rest
open Near

/-- How far the image `m` of a body is from it. -/
noncomputable def away (C : Sim.Cfg) (m : Image.Idx) : V3 :=
  ⟨m.x * (C.place.d.high 0 - C.place.d.low 0), m.y * (C.place.d.high 1 - C.place.d.low 1), m.z * (C.place.d.high 2 - C.place.d.low 2)⟩

/-- The bodies `l` violate no constraint: different bodies and their images do not overlap, no end is beyond a boundary (or on it, or at a singular point of it), the ends that a
link joins are as far apart as they should be. -/
structure Calm (C : Sim.Cfg) (l : List Sylinder) : Prop where
  finite : ∀ x ∈ l, ∀ k, |Near.comp x.pos k| < Stats.largeFloat
  pairs : ∀ x ∈ l, ∀ y ∈ l, x.gid ≠ y.gid → ∀ m : Image.Idx, (C.place.d.periodic 0 = false → m.x = 0) → (C.place.d.periodic 1 = false → m.y = 0) →
    (C.place.d.periodic 2 = false → m.z = 0) → ∀ P Q, Spec.Near.Core (EP.copyFromFP x) P → Spec.Near.Core (EP.copyFromFP y) Q →
      Spec.Near.Rad (EP.copyFromFP x) + Spec.Near.Rad (EP.copyFromFP y) ≤ (P - (Q + away C m)).norm
  bounds : ∀ b ∈ C.bounds, Spec.BoundaryCol.ValidBound b ∧ ∀ x ∈ l, ∀ p, Spec.BoundaryCol.End x p → ¬ Spec.BoundaryCol.Singular b p ∧ Spec.BoundaryCol.Rad x ≤ Spec.BoundaryCol.sd b p
  links : ∀ e ∈ C.linkMap, ∀ x ∈ l, ∀ z ∈ l, x.gid = e.1 → z.gid = e.2 → ∀ D, NearestImage C.link x.pos z.pos (z.pos + D) →
    (Spec.Springs.minusEnd z D - Spec.Springs.plusEnd x).norm = x.radius + z.radius + C.link.linkGap

end Verif.Rest
