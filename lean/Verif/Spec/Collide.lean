import Verif.Model.Collide
import Verif.Spec.Place
import Verif.Spec.Force
import Verif.Spec.Near
/-! Contacts between the bodies of all ranks, and their images. -/
namespace Verif.Collide
open Tree Image Let Near Collector Spec.Near

/-- Body number `o.2.1` of rank `o.1`, displaced by `o.2.2` box lengths. -/
noncomputable def imageAt (c : Place.Cfg) (S : ℕ → List Sylinder) (o : ℕ × ℕ × Idx) : Option EP :=
  ((S o.1)[o.2.1]?).map fun x => { EP.copyFromFP x with
    pos := x.pos + ⟨o.2.2.x * (c.d.high 0 - c.d.low 0), o.2.2.y * (c.d.high 1 - c.d.low 1), o.2.2.z * (c.d.high 2 - c.d.low 2)⟩ }

/-- An image there is. -/
def IsImage (c : Place.Cfg) (o : ℕ × ℕ × Idx) : Prop :=
  o.1 < c.g.n ∧ (c.d.periodic 0 = false → o.2.2.x = 0) ∧ (c.d.periodic 1 = false → o.2.2.y = 0) ∧ (c.d.periodic 2 = false → o.2.2.z = 0)

/-- A body as it occurs. -/
structure Body (x : Sylinder) : Prop where
  valid : Valid (EP.copyFromFP x)
  radius : 0 < x.radius
  length : 0 ≤ x.length
  colBuf : 0 ≤ x.colBuf
  size : Sphere (EP.copyFromFP x) → SizeOK (EP.copyFromFP x)

/-- `b` describes a contact of `x` and `y`: the bodies, a point on each axis, relative to the centre and in the lab frame, opposite normals along the line
of the points (of length one, or zero if the points coincide), the distance of the surfaces along it, the overlap as a guess for the multiplier. -/
structure ContactOf (x y : EP) (b : Block) : Prop where
  gid : b.gidI = x.gid ∧ b.gidJ = y.gid ∧ b.globalIndexI = x.globalIndex ∧ b.globalIndexJ = y.globalIndex
  axes : Core x b.labI ∧ Core y b.labJ
  arms : x.pos + b.posI = b.labI ∧ y.pos + b.posJ = b.labJ
  normals : b.normJ = -b.normI ∧ b.labI - b.labJ = (b.labI - b.labJ).norm • b.normI
  unit : (b.labI ≠ b.labJ → b.normI.norm = 1) ∧ (b.labI = b.labJ → b.normI = 0)
  gap : b.delta0 = (b.labI - b.labJ).norm - (Rad x + Rad y)
  kind : b.oneSide = false ∧ b.bilateral = false
  guess : b.gamma = if b.delta0 < 0 then -b.delta0 else 0

/-- What the parameters of FDPS have to be like: the number that stands for infinity is larger than the coordinates of the box, and the search
radii are less than 9998 box lengths. -/
structure Limits (F : Force.Config) (c : Place.Cfg) (S : ℕ → List Sylinder) : Prop where
  leaf : 1 ≤ F.leaf
  group : F.leaf ≤ F.group
  threads : 1 ≤ F.nt
  big : ∀ k, c.d.periodic k = true → -F.big < c.d.low k ∧ c.d.high k < F.big
  short : c.d.periodic 0 = true → ∀ r < c.g.n, ∀ x ∈ S r, (EP.copyFromFP x).getRSearch < 9998 * (c.d.high 0 - c.d.low 0)

end Verif.Collide
