import Mathlib.Data.Real.Basic

/-!
What is to be in the file.
-/

namespace Verif.Dump.Spec

/-- A point and its values. -/
structure Point where
  x : ℝ
  y : ℝ
  z : ℝ
  values : List ℝ

/-- Its line. -/
def Point.line (fmt : ℝ → List Char) (p : Point) : List Char :=
  fmt p.x ++ " ".toList ++ fmt p.y ++ " ".toList ++ fmt p.z ++ ";".toList ++ (p.values.map fun v => " ".toList ++ fmt v).flatten ++ " \n".toList

/-- The coordinates as they are stored. -/
def Point.coords (p : Point) : List ℝ := [p.x, p.y, p.z]

end Verif.Dump.Spec
