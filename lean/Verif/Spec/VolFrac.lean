import Verif.Model.Sylinder
import Verif.Spec.Equatn
import Mathlib.MeasureTheory.Measure.Haar.InnerProductSpace
import Mathlib.Topology.MetricSpace.Thickening
import Mathlib.Analysis.Convex.Segment

/-!
Bodies and boxes as sets of points of space, and their volumes (Lebesgue measure).
-/

namespace Verif.VolFrac.Spec

open MeasureTheory

/-- Space. -/
abbrev Space := EuclideanSpace ℝ (Fin 3)

/-- A point of space. -/
noncomputable def point (v : V3) : Space := !₂[v.x, v.y, v.z]

/-- The axis of a body. -/
noncomputable def axis (s : Sylinder) : Set Space :=
  segment ℝ (point (s.pos - (s.length / 2) • s.orientation.rot ⟨0, 0, 1⟩)) (point (s.pos + (s.length / 2) • s.orientation.rot ⟨0, 0, 1⟩))

/-- The points that are nearer to the axis than the radius. -/
noncomputable def body (s : Sylinder) : Set Space := {p | ∃ a ∈ axis s, dist p a < s.radius}

/-- What a body needs to be one. -/
def Valid (s : Sylinder) : Prop := Verif.Spec.UnitQuat s.orientation ∧ 0 ≤ s.length ∧ 0 ≤ s.radius

/-- The axes are not nearer to each other than the sum of the radii. -/
def Apart (s t : Sylinder) : Prop := ∀ a ∈ axis s, ∀ b ∈ axis t, s.radius + t.radius ≤ dist a b

/-- The box. -/
def box (low high : V3) : Set Space := {p | low.x ≤ p 0 ∧ p 0 ≤ high.x ∧ low.y ≤ p 1 ∧ p 1 ≤ high.y ∧ low.z ≤ p 2 ∧ p 2 ≤ high.z}

/-- The part of space that some body takes. -/
def taken (bodies : List Sylinder) : Set Space := {p | ∃ s ∈ bodies, p ∈ body s}

/-- Volume of a set. -/
noncomputable def vol (A : Set Space) : ℝ := (volume A).toReal

end Verif.VolFrac.Spec
