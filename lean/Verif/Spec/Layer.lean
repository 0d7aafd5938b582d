import Verif.Spec.Sim
import Verif.Model.Layer
/-! Runs of a monolayer in which no body is upright when a step starts. -/
namespace Verif.Sim
open Domain Near Collector RunStep Mobility

/-- A body with this orientation stands exactly upright. -/
def Upright (q : Quat) : Prop := (q.rot ⟨0, 0, 1⟩).x = 0 ∧ (q.rot ⟨0, 0, 1⟩).y = 0

open Classical in
/-- The same program, except for the projection of upright bodies. -/
noncomputable def Cfg.mend (C : Cfg) : Cfg :=
  { C with place := { C.place with flat := fun q => if Upright q then ⟨1, 0, 0, 0⟩ else C.place.flat q } }

/-- No body is upright. -/
def Leaning (C : Cfg) (s : State) : Prop := ∀ b ∈ all C.place.g.n s.sys.P, ¬ Upright b.orientation

/-- The runs, as in `Run`, in which no body is upright when a step starts. -/
inductive Lying (Ok : Cfg → (ℕ → List Sylinder) → Prop) (fl : ℝ → ℝ) (C₀ : Cfg) (B : ℕ → List Sylinder) : Cfg → (ℕ → List Sylinder) → ℕ → State → Prop
  | start (junk x y s1 s2) : Ok C₀ B → Place.Valid C₀.place x → Place.Valid C₀.place y → Place.DecomposeDomain C₀.place x ⟨⟨true, junk⟩, B⟩ s1 →
    Place.ExchangeSylinder C₀.place y s1 s2 → Lying Ok fl C₀ B C₀ B 0 ⟨s2, Links.Dir.empty, 0⟩
  | resume (svd blank d R s) : Ok C₀ B → Resumes C₀ svd blank d R s → B = onRoot R.bodies → Lying Ok fl C₀ B C₀ B C₀.initPreSteps s
  | pre (C P k s q ranks out s') : Lying Ok fl C₀ B C P k s → Ok C P → k < C.initPreSteps → C.mob.sylinderFixed = false → s.stepCount = 0 →
    Leaning C s → Step C fl true s q ranks out s' → Lying Ok fl C₀ B C P (k + 1) s'
  | step (C P k s q ranks out s') : Lying Ok fl C₀ B C P k s → Ok C P → (C.mob.sylinderFixed = false → k = C.initPreSteps) → Leaning C s → Step C fl false s q ranks out s' →
    Lying Ok fl C₀ B C P k s'
  | bodies (C P k s new ids s') : Lying Ok fl C₀ B C P k s → (C.mob.sylinderFixed = false → k = C.initPreSteps) → AddBodies C.place.g.n s new ids s' →
    Lying Ok fl C₀ B C (fun r => P r ++ added new ids r) k s'
  | links (C P k s new) : Lying Ok fl C₀ B C P k s → (C.mob.sylinderFixed = false → k = C.initPreSteps) → Lying Ok fl C₀ B (C.addLinks new) P k s

/-- The body is in the plane of the monolayer. -/
def InPlane (C : Cfg) (b : Sylinder) : Prop := b.pos.z = C.place.monoZ ∧ b.direction.z = 0

/-- The boundary is perpendicular to the plane at height `z`: an upright wall, a shell with its centre in the plane, an upright tube or a tube with its axis in the plane. -/
def Perpendicular (z : ℝ) : BoundaryCol.Bound → Prop
  | .sphere b => b.center.z = z
  | .wall b => b.norm.z = 0
  | .tube b => (b.axis.x = 0 ∧ b.axis.y = 0 ∧ b.axis.norm = 1) ∨ (b.axis.z = 0 ∧ b.center.z = z)

/-- A monolayer: `monolayer` is set (one option of the code, which is used in two parts of the model), the projection is that of the code, the box is not periodic along z, and the boundaries
are perpendicular to the plane. -/
structure Planar (svd : V3 → V3 → V3) (pbc : Fin 3 → Bool) (C : Cfg) : Prop where
  on : C.place.monolayer = true ∧ C.mob.monolayer = true
  flat : C.place.flat = Sim.flat svd
  open_z : pbc 2 = false
  bounds : ∀ b ∈ C.bounds, Perpendicular C.place.monoZ b

end Verif.Sim
