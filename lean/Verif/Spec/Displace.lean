import Verif.Spec.Layout
import Verif.Model.BoundaryCol
/-! Configurations that are displaced as a whole. -/
namespace Verif.Spec.Displace
open Verif.Collector Verif.Sim Verif.V3

/-- The bodies of `L'` are those of `L`, in any order, each displaced by `v` and by any number of periods of the box along the periodic directions. -/
def Displaced (pbc : Fin 3 → Bool) (low high : Fin 3 → ℝ) (v : V3) (L L' : List Sylinder) : Prop :=
  ∃ M : List Sylinder, M.Perm L' ∧ List.Forall₂ (fun a b : Sylinder => kind b = kind a ∧ b.direction = a.direction ∧
    ∀ k, ∃ m : ℤ, (pbc k = false → m = 0) ∧ Near.comp b.pos k = Near.comp a.pos k + Near.comp v k + m * (high k - low k)) L M

/-- A constraint without the numbers of the bodies in the distributed vectors and without the places of its points in space (the points relative to the centres remain). -/
def bare (b : Block) : Block := { b with globalIndexI := 0, globalIndexJ := 0, labI := 0, labJ := 0 }

/-- The boundary `b'` is `b`, displaced by `v`: it says of a displaced point what `b` says of the point. -/
def Carried (v : V3) (b b' : BoundaryCol.Bound) : Prop := ∀ p, b'.project (p + v) = (b.project p).map fun r => (r.1 + v, r.2)

/-- One period of the box along the direction `k`. -/
def period (low high : Fin 3 → ℝ) (k : Fin 3) : V3 :=
  ⟨if k = 0 then high 0 - low 0 else 0, if k = 1 then high 1 - low 1 else 0, if k = 2 then high 2 - low 2 else 0⟩

/-- Two programs simulate the same, with the boundaries of one displaced by `v`.  A period of the box along a periodic direction carries each boundary onto itself. -/
structure Shifted (pbc : Fin 3 → Bool) (low high : Fin 3 → ℝ) (v : V3) (C D : Sim.Cfg) : Prop where
  physics : Spec.Layout.SamePhysics C { D with bounds := C.bounds }
  bounds : ∃ M : List BoundaryCol.Bound, M.Perm D.bounds ∧ List.Forall₂ (Carried v) C.bounds M
  periods : ∀ b ∈ C.bounds, ∀ k, pbc k = true → Carried (period low high k) b b

/-- Any number of periods of the box, along the periodic directions. -/
def Periods (pbc : Fin 3 → Bool) (low high : Fin 3 → ℝ) (w : V3) : Prop :=
  ∀ k, ∃ m : ℤ, (pbc k = false → m = 0) ∧ Near.comp w k = m * (high k - low k)

end Verif.Spec.Displace
