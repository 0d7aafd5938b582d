import Mathlib.Data.Real.Basic
/-! Periodic images on a line with period `L`. -/
namespace Verif.GeoUtil.Spec

/-- `y` is a periodic image of `x` for period `L`. -/
def IsImage (L x y : ℝ) : Prop := ∃ k : ℤ, y = x + k * L

end Verif.GeoUtil.Spec
