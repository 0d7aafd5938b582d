import Verif.Spec.RenameQuery
import Verif.Spec.Displace
import Verif.Model.DCP
/-! Configurations in which the bodies have other names (ids). -/
namespace Verif.Spec.Rename
open Verif.Collector Verif.Sim Verif.V3 Verif.Spec.Resume Verif.Spec.Displace

/-- A body that is called `f g` instead of `g`. -/
def named (f : ℤ → ℤ) (b : Sylinder) : Sylinder := { b with gid := f b.gid }

/-- The bodies of `L'` are those of `L`, in any order, with other names. -/
def Renamed (f : ℤ → ℤ) (L L' : List Sylinder) : Prop := (L.map fun b => seen (named f b)).Perm (L'.map seen)

/-- A constraint between bodies with other names. -/
def name (f : ℤ → ℤ) (b : Block) : Block := { b with gidI := f b.gidI, gidJ := f b.gidJ }

/-- A constraint with its two sides exchanged. -/
def exchange (b : Block) : Block :=
  { b with gidI := b.gidJ, gidJ := b.gidI, globalIndexI := b.globalIndexJ, globalIndexJ := b.globalIndexI, normI := b.normJ, normJ := b.normI
           posI := b.posJ, posJ := b.posI, labI := b.labJ, labJ := b.labI }

/-- A constraint with other names.  A contact of two bodies has the one with the smaller name on its first side. -/
def under (f : ℤ → ℤ) (b : Block) : Block :=
  if b.oneSide = true ∨ b.bilateral = true ∨ f b.gidI < f b.gidJ then name f b else exchange (name f b)

/-- Two programs simulate the same, with other names of the bodies in the links. -/
structure SameUnder (f : ℤ → ℤ) (C D : Sim.Cfg) : Prop where
  physics : Spec.Layout.SamePhysics C { D with linkMap := C.linkMap }
  links : D.linkMap.Perm (C.linkMap.map fun l => (f l.1, f l.2))

/-- The ends of the axis of a body, in the size for collisions. -/
noncomputable def tail (C : Sim.Cfg) (b : Sylinder) : V3 := b.pos - (0.5 * (b.length * C.place.lengthColRatio)) • b.direction
@[inherit_doc tail] noncomputable def head (C : Sim.Cfg) (b : Sylinder) : V3 := b.pos + (0.5 * (b.length * C.place.lengthColRatio)) • b.direction

/-- The body is a rod in the search for contacts, not a sphere. -/
def Rod (C : Sim.Cfg) (b : Sylinder) : Prop := 2 * (b.radius * C.place.diameterColRatio) ≤ b.length * C.place.lengthColRatio

/-- Two rods whose order is another one under the new names are parallel, or clearly not parallel, also when one of them is displaced by periods of the box. -/
def Clear (pbc : Fin 3 → Bool) (low high : Fin 3 → ℝ) (f : ℤ → ℤ) (C : Sim.Cfg) (L : List Sylinder) : Prop :=
  ∀ a ∈ L, ∀ b ∈ L, a.gid < b.gid → f b.gid < f a.gid → Rod C a → Rod C b → ∀ w, Periods pbc low high w →
    Decided DCP.dblEps (tail C a) (head C a) (tail C b + w) (head C b + w)

end Verif.Spec.Rename
