import Verif.Model.Equatn

/-!
`EquatnHelper::rotateEquatn` (Util/EquatnHelper.hpp:74-90) and `Sylinder::stepEuler`
(Sylinder/Sylinder.cpp:91-99) again, now with every operation followed by a rounding.

The order of the operations is that of the source; sums of three or four terms of Eigen
(`norm`, `dot`, `squaredNorm`) are taken from left to right, without fused operations.  A double is a
real number; the exponent is not bounded (no overflow, no underflow).
-/

namespace Verif.FloatStep

open Equatn (fltEps)

/-- Arithmetic of the machine: the rounding after each operation and the library functions. -/
structure Arith where
  fl : ℝ → ℝ
  sin : ℝ → ℝ
  cos : ℝ → ℝ

/-- `omega.norm()` (Util/EquatnHelper.hpp:75). -/
noncomputable def norm (A : Arith) (v : V3) : ℝ :=
  A.fl (Real.sqrt (A.fl (A.fl (A.fl (v.x * v.x) + A.fl (v.y * v.y)) + A.fl (v.z * v.z))))

/-- `p.dot(omega)` (Util/EquatnHelper.hpp:85). -/
def dot (A : Arith) (p v : V3) : ℝ :=
  A.fl (A.fl (A.fl (p.x * v.x) + A.fl (p.y * v.y)) + A.fl (p.z * v.z))

/-- One component of `omega.cross(p)` (Util/EquatnHelper.hpp:84). -/
def crossAt (A : Arith) (a b c d : ℝ) : ℝ := A.fl (A.fl (a * b) - A.fl (c * d))

/-- One component of `s * sw * omega * winv + cw * p + sw * winv * (omega.cross(p))`
(Util/EquatnHelper.hpp:84). -/
def xyzAt (A : Arith) (s sw cw winv o p c : ℝ) : ℝ :=
  A.fl (A.fl (A.fl (A.fl (A.fl (s * sw) * o) * winv) + A.fl (cw * p)) + A.fl (A.fl (sw * winv) * c))

/-- `q.normalize()` (Eigen): divides by the square root of the squared norm if that is positive. -/
noncomputable def normalize (A : Arith) (q : Quat) : Quat :=
  let z := A.fl (A.fl (A.fl (A.fl (q.w * q.w) + A.fl (q.x * q.x)) + A.fl (q.y * q.y)) + A.fl (q.z * q.z))
  if 0 < z then
    let n := A.fl (Real.sqrt z)
    ⟨A.fl (q.w / n), A.fl (q.x / n), A.fl (q.y / n), A.fl (q.z / n)⟩
  else q

/-- The quaternion before it is normalised (Util/EquatnHelper.hpp:79-88), given the computed norm. -/
noncomputable def raw (A : Arith) (q : Quat) (omega : V3) (dt w : ℝ) : Quat :=
  let winv := A.fl (1 / w)
  let angle := A.fl (A.fl (w * dt) / 2)
  let sw := A.sin angle
  let cw := A.cos angle
  let s := q.w
  let p : V3 := ⟨q.x, q.y, q.z⟩
  { w := A.fl (A.fl (s * cw) - A.fl (A.fl (dot A p omega * sw) * winv))
    x := xyzAt A s sw cw winv omega.x p.x (crossAt A omega.y p.z omega.z p.y)
    y := xyzAt A s sw cw winv omega.y p.y (crossAt A omega.z p.x omega.x p.z)
    z := xyzAt A s sw cw winv omega.z p.z (crossAt A omega.x p.y omega.y p.x) }

/-- `rotateEquatn` (Util/EquatnHelper.hpp:74-90). -/
noncomputable def rotateEquatn (A : Arith) (q : Quat) (omega : V3) (dt : ℝ) : Quat :=
  let w := norm A omega
  if w < fltEps then q else normalize A (raw A q omega dt w)

/-- `pos += vel * dt` (Sylinder/Sylinder.cpp:92), one component. -/
def movedAt (A : Arith) (p v dt : ℝ) : ℝ := A.fl (p + A.fl (v * dt))

/-- `stepEuler` (Sylinder/Sylinder.cpp:91-99). -/
noncomputable def stepEuler (A : Arith) (pos vel omega : V3) (q : Quat) (dt : ℝ) : V3 × Quat :=
  (⟨movedAt A pos.x vel.x dt, movedAt A pos.y vel.y dt, movedAt A pos.z vel.z dt⟩, rotateEquatn A q omega dt)

/-- What a body is given in a step. -/
structure Move where
  vel : V3
  omega : V3
  dt : ℝ

/-- Any number of steps. -/
noncomputable def run (A : Arith) (pos : V3) (q : Quat) (moves : List Move) : V3 × Quat :=
  moves.foldl (fun s m => stepEuler A s.1 m.vel m.omega s.2 m.dt) (pos, q)

end Verif.FloatStep
