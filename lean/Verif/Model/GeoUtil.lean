import Mathlib.Data.Real.Basic
import Verif.Model.Loop
/-!
Model of `Util/GeoUtil.hpp`: periodic images (lines 26-60).

Every arithmetic operation is followed by a rounding function `fl`; `fl = id` is exact arithmetic.  The
loops may fail to terminate, so the functions are relations `... x x'` "the call terminates and leaves x'".
-/
namespace Verif.GeoUtil

/-- GeoUtil.hpp:27-35, `findPBCImage(lb, ub, x)` with `L = ub - lb`: the call terminates and leaves `x'`. -/
def FindPBCImage (fl : ℝ → ℝ) (lb ub x x' : ℝ) : Prop :=
  ∃ y, WhileEnds (fun x => x ≥ ub) (fun x => fl (x - fl (ub - lb))) x y ∧
       WhileEnds (fun x => x < lb) (fun x => fl (x + fl (ub - lb))) y x'

/-- GeoUtil.hpp:51-60, `findPBCImage(lb, ub, x, trg)`: the call terminates and leaves `x'` and `trg'`.  The
inner call of line 54 uses the bounds `0.0` and `ub - lb`; `(ub - lb) * 0.5` on line 55 is exact in binary
floating point, so no rounding is modelled there. -/
def FindPBCImageNear (fl : ℝ → ℝ) (lb ub x trg x' trg' : ℝ) : Prop :=
  FindPBCImage fl lb ub trg trg' ∧
  ∃ dist, FindPBCImage fl 0 (fl (ub - lb)) (fl (x - trg')) dist ∧
    x' = if dist > fl (ub - lb) * (1 / 2) then fl (fl (trg' + dist) - fl (ub - lb)) else fl (trg' + dist)

end Verif.GeoUtil
