import Verif.Model.V3
import Mathlib.Analysis.SpecialFunctions.Trigonometric.Inverse
import Mathlib.LinearAlgebra.Matrix.Notation
/-!
Model of `Util/EquatnHelper.hpp` (quaternion helpers), of the random points of `Util/GeoUtil.hpp` lines 62-113, of
`copySwap` (`Util/EigenDef.hpp` lines 82-87) and of `Sylinder::stepEuler` (`Sylinder/Sylinder.cpp` lines 91-99).
Exact real arithmetic.
-/
namespace Verif

/-- `Eigen::Quaterniond` (`Equatn`, EigenDef.hpp:57). -/
@[ext] structure Quat where
  w : ℝ
  x : ℝ
  y : ℝ
  z : ℝ

namespace Quat

/-- `q.vec()`. -/
def vec (q : Quat) : V3 := ⟨q.x, q.y, q.z⟩

/-- `q.squaredNorm()`. -/
def normSq (q : Quat) : ℝ := q.w * q.w + q.x * q.x + q.y * q.y + q.z * q.z

/-- `q.normalize()`; Eigen leaves a quaternion of zero squared norm unchanged. -/
noncomputable def normalize (q : Quat) : Quat :=
  if 0 < normSq q then
    ⟨q.w / Real.sqrt (normSq q), q.x / Real.sqrt (normSq q), q.y / Real.sqrt (normSq q), q.z / Real.sqrt (normSq q)⟩
  else q

/-- `q * v` for a 3-vector (Eigen `_transformVector`): `v + w*uv + vec×uv` with `uv = 2 vec×v`. -/
noncomputable def rot (q : Quat) (v : V3) : V3 :=
  let uv := V3.cross q.vec v
  let uv := uv + uv
  v + q.w • uv + V3.cross q.vec uv

end Quat

namespace Equatn

/-- `std::numeric_limits<float>::epsilon()` = 2^-23. -/
noncomputable def fltEps : ℝ := 1 / 2 ^ 23

/-- The literal `3.14159265358979323846` (EquatnHelper.hpp:53, GeoUtil.hpp:76,93). -/
noncomputable def piLit : ℝ := 3.14159265358979323846

/-- EquatnHelper.hpp:50-64. -/
noncomputable def setUnitRandomEquatn (u1 u2 u3 : ℝ) : Quat :=
  let a := Real.sqrt (1 - u1)
  let b := Real.sqrt u1
  let su2 := Real.sin (2 * piLit * u2)
  let cu2 := Real.cos (2 * piLit * u2)
  let su3 := Real.sin (2 * piLit * u3)
  let cu3 := Real.cos (2 * piLit * u3)
  { w := a * su2, x := a * cu2, y := b * su3, z := b * cu3 }

/-- EquatnHelper.hpp:74-90. -/
noncomputable def rotateEquatn (q : Quat) (omega : V3) (dt : ℝ) : Quat :=
  let w := omega.norm
  if w < fltEps then q
  else
    let winv := 1 / w
    let sw := Real.sin (w * dt / 2)
    let cw := Real.cos (w * dt / 2)
    let s := q.w
    let p : V3 := ⟨q.x, q.y, q.z⟩
    let xyz := winv • ((s * sw) • omega) + cw • p + (sw * winv) • V3.cross omega p
    Quat.normalize { w := s * cw - V3.dot p omega * sw * winv, x := xyz.x, y := xyz.y, z := xyz.z }

/-- EquatnHelper.hpp:98-109. -/
def getCrossProductMatrix (p : V3) : Matrix (Fin 3) (Fin 3) ℝ :=
  !![0, -p.z, p.y; p.z, 0, -p.x; -p.y, p.x, 0]

/-- EquatnHelper.hpp:111-124. -/
noncomputable def getPsiMatFromEquatn (q : Quat) : Matrix (Fin 4) (Fin 3) ℝ :=
  !![(1 / 2) * -q.x, (1 / 2) * -q.y, (1 / 2) * -q.z;
     (1 / 2) * q.w, (1 / 2) * q.z, -(1 / 2) * q.y;
     -(1 / 2) * q.z, (1 / 2) * q.w, (1 / 2) * q.x;
     (1 / 2) * q.y, -(1 / 2) * q.x, (1 / 2) * q.w]

/-- GeoUtil.hpp:73-80. -/
noncomputable def getRandPointInCircle (radius U01a U01b : ℝ) : ℝ × ℝ :=
  let theta := 2 * piLit * U01a
  let r := radius * Real.sqrt U01b
  (r * Real.cos theta, r * Real.sin theta)

/-- GeoUtil.hpp:92-96. -/
noncomputable def getRandPointAngleOnSphere (U01a U01b : ℝ) : ℝ × ℝ :=
  (2 * piLit * U01a, Real.arccos (2 * U01b - 1))

/-- GeoUtil.hpp:107-113. -/
noncomputable def getRandPointOnSphere (radius U01a U01b : ℝ) : V3 :=
  let a := getRandPointAngleOnSphere U01a U01b
  ⟨Real.cos a.1 * Real.sin a.2 * radius, Real.sin a.1 * Real.sin a.2 * radius, Real.cos a.2 * radius⟩

/-- EigenDef.hpp:82-87: the contents of `a` and `b` after the call. -/
def copySwap {T : Type} (a b : T) : T × T :=
  let _temp := b
  let b := a
  let a := b
  (a, b)

/-- Sylinder.cpp:91-99: the position and orientation after the step. -/
noncomputable def stepEuler (pos vel omega : V3) (orientation : Quat) (dt : ℝ) : V3 × Quat :=
  (pos + dt • vel, rotateEquatn orientation omega dt)

end Equatn
end Verif
