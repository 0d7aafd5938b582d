import Verif.Model.Equatn
/-! Specification of rotations: the quaternion product, and Rodrigues' formula. -/
namespace Verif.Spec

/-- The Hamilton product. -/
def hamilton (a b : Quat) : Quat where
  w := a.w * b.w - a.x * b.x - a.y * b.y - a.z * b.z
  x := a.w * b.x + a.x * b.w + a.y * b.z - a.z * b.y
  y := a.w * b.y - a.x * b.z + a.y * b.w + a.z * b.x
  z := a.w * b.z + a.x * b.y - a.y * b.x + a.z * b.w

/-- A 3-vector as a purely imaginary quaternion. -/
def pureQuat (v : V3) : Quat := ⟨0, v.x, v.y, v.z⟩

/-- The conjugate. -/
def conj (q : Quat) : Quat := ⟨q.w, -q.x, -q.y, -q.z⟩

/-- The vector that a unit quaternion turns `v` into: the imaginary part of `q v q*`. -/
def turned (q : Quat) (v : V3) : V3 := (hamilton (hamilton q (pureQuat v)) (conj q)).vec

/-- Rodrigues' formula: `v` turned about the unit vector `k` by the angle `θ`. -/
noncomputable def rodrigues (k : V3) (θ : ℝ) (v : V3) : V3 :=
  Real.cos θ • v + Real.sin θ • V3.cross k v + ((1 - Real.cos θ) * V3.dot k v) • k

/-- Quaternion of unit length. -/
def UnitQuat (q : Quat) : Prop := q.w ^ 2 + q.x ^ 2 + q.y ^ 2 + q.z ^ 2 = 1

end Verif.Spec
