import Verif.Model.RootCell
import Verif.Spec.Image
import Verif.Spec.Morton
import Verif.Spec.Box
/-! What the root cell is for. -/
namespace Verif.RootCell
open Tree Image

/-- Along one axis (`c` takes the coordinate), the bounding interval of the search ranges of the particles `all` meets the
interval from `lo` to `hi`. -/
def Spans {α : Type} (all : List (Ep α)) (c : V3 → ℝ) (lo hi : ℝ) : Prop :=
  (∃ e ∈ all, c e.pos - e.rs ≤ hi) ∧ ∃ e ∈ all, lo ≤ c e.pos + e.rs

/-- The search ranges of the particles `all` extend into the root domain displaced by `s`, along every axis. -/
def Reaches {α : Type} (root : Box) (all : List (Ep α)) (s : Idx) : Prop :=
  Spans all V3.x (root.low.x + s.x * (root.high.x - root.low.x)) (root.high.x + s.x * (root.high.x - root.low.x)) ∧
  Spans all V3.y (root.low.y + s.y * (root.high.y - root.low.y)) (root.high.y + s.y * (root.high.y - root.low.y)) ∧
  Spans all V3.z (root.low.z + s.z * (root.high.z - root.low.z)) (root.high.z + s.z * (root.high.z - root.low.z))

end Verif.RootCell
