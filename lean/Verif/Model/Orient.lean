import Verif.Model.Equatn
/-!
Model of `Eigen::Quaternion::FromTwoVectors(a, b)` (and `setFromTwoVectors`), as used in `Sylinder/SylinderSystem.cpp`
lines 214, 340, 342, 462, 916.  Eigen is not part of the repository; this follows `Eigen/src/Geometry/Quaternion.h`.
-/
namespace Verif.Orient
open Verif.V3

/-- `NumTraits<double>::dummy_precision()`. -/
noncomputable def dummyPrecision : ℝ := 1 / 10 ^ 12

/-- `FromTwoVectors(a, b)`: `v0 = a.normalized()`, `v1 = b.normalized()`, `c = v1.dot(v0)`.  `svdAxis v0 v1` is the third
column of the matrix `V` of the singular value decomposition of the matrix with rows `v0`, `v1`. -/
noncomputable def fromTwoVectors (svdAxis : V3 → V3 → V3) (a b : V3) : Quat :=
  let v0 := a.normalized
  let v1 := b.normalized
  let c := dot v1 v0
  if c < -1 + dummyPrecision then
    let c := max c (-1)
    let axis := svdAxis v0 v1
    let w2 := (1 + c) * 0.5
    let v := Real.sqrt (1 - w2) • axis
    { w := Real.sqrt w2, x := v.x, y := v.y, z := v.z }
  else
    let axis := cross v0 v1
    let s := Real.sqrt ((1 + c) * 2)
    let invs := 1 / s
    let v := invs • axis
    { w := s * 0.5, x := v.x, y := v.y, z := v.z }

end Verif.Orient
