import Verif.Model.Equatn
import Mathlib.Analysis.SpecialFunctions.Log.Basic
/-!
Model of the class `Sylinder` (`Sylinder/Sylinder.hpp` lines 41-82, `Sylinder/Sylinder.cpp` lines 8-82, 91-99).  Exact
real arithmetic.  `radiusSearch` is never set nor used and is left out; printing is left out.
-/
namespace Verif

/-- `GEO_INVALID_INDEX` (Util/GeoCommon.h) -/
def geoInvalidIndex : ℤ := -1

/-- `std::numeric_limits<double>::max()` -/
noncomputable def dblMax : ℝ := (2 - 1 / 2 ^ 52) * 2 ^ 1023

/-- Sylinder.hpp:41-82 -/
structure Sylinder where
  gid : ℤ := geoInvalidIndex
  globalIndex : ℤ := geoInvalidIndex
  rank : ℤ := -1
  group : ℤ := -1
  isImmovable : Bool := false
  radius : ℝ
  radiusCollision : ℝ
  length : ℝ
  lengthCollision : ℝ
  sepmin : ℝ
  colBuf : ℝ
  pos : V3
  orientation : Quat
  vel : V3
  omega : V3
  velCol : V3
  omegaCol : V3
  velBi : V3
  omegaBi : V3
  velNonB : V3
  omegaNonB : V3
  force : V3
  torque : V3
  forceCol : V3
  torqueCol : V3
  forceBi : V3
  torqueBi : V3
  forceNonB : V3
  torqueNonB : V3
  velBrown : V3
  omegaBrown : V3

namespace Sylinder

/-- Sylinder.cpp:34-59 -/
noncomputable def clear (s : Sylinder) : Sylinder :=
  { s with
    vel := 0, omega := 0, velCol := 0, omegaCol := 0, velBi := 0, omegaBi := 0, velNonB := 0, omegaNonB := 0
    force := 0, torque := 0, forceCol := 0, torqueCol := 0, forceBi := 0, torqueBi := 0, forceNonB := 0, torqueNonB := 0
    velBrown := 0, omegaBrown := 0
    sepmin := dblMax, globalIndex := geoInvalidIndex, rank := -1 }

/-- Sylinder.cpp:8-32; `colBuf` is not set by the constructor: any value. -/
noncomputable def make (gid : ℤ) (radius radiusCollision length lengthCollision : ℝ) (pos : V3 := 0)
    (orientation : Quat := ⟨1, 0, 0, 0⟩) (colBuf : ℝ := 0) : Sylinder :=
  { gid, radius, radiusCollision, length, lengthCollision, pos, orientation, colBuf
    sepmin := dblMax
    vel := 0, omega := 0, velCol := 0, omegaCol := 0, velBi := 0, omegaBi := 0, velNonB := 0, omegaNonB := 0
    force := 0, torque := 0, forceCol := 0, torqueCol := 0, forceBi := 0, torqueBi := 0, forceNonB := 0, torqueNonB := 0
    velBrown := 0, omegaBrown := 0 }

/-- Sylinder.cpp:61-67 -/
noncomputable def isSphere (s : Sylinder) (collision : Bool := false) : Bool :=
  if collision then decide (s.lengthCollision < s.radiusCollision * 2) else decide (s.length < s.radius * 2)

/-- Sylinder.cpp:69-82; `pi` is the constant `Pi` of Util/EigenDef.hpp:30:
`(dragPara, dragPerp, dragRot)`; a division by zero, or the logarithm of a number that is not positive, is `none`. -/
noncomputable def calcDragCoeff (s : Sylinder) (pi viscosity : ℝ) : Option (ℝ × ℝ × ℝ) :=
  if s.isSphere then
    let rad := 0.5 * s.length + s.radius
    let dragPara := 6 * pi * rad * viscosity
    some (dragPara, dragPara, 8 * pi * rad * rad * rad * viscosity)
  else if s.length = 0 ∨ s.radius / s.length ≤ 0 then none
  else
    let b := -(1 + 2 * Real.log (s.radius / s.length))
    if 2 * b = 0 ∨ b + 2 = 0 then none
    else some (8 * pi * s.length * viscosity / (2 * b), 8 * pi * s.length * viscosity / (b + 2),
      2 * pi * viscosity * s.length * s.length * s.length / (3 * (b + 2)))

/-- Sylinder.cpp:91-99 -/
noncomputable def stepEuler (s : Sylinder) (dt : ℝ) : Sylinder :=
  { s with
    pos := (Equatn.stepEuler s.pos s.vel s.omega s.orientation dt).1
    orientation := (Equatn.stepEuler s.pos s.vel s.omega s.orientation dt).2 }

/-- `orientation * Evec3(0, 0, 1)` -/
noncomputable def direction (s : Sylinder) : V3 := s.orientation.rot ⟨0, 0, 1⟩

end Sylinder
end Verif
