import Verif.Spec.Sim
import Verif.Spec.Grow
import Verif.Spec.Snapshot
/-! Runs that are stopped and resumed. -/
namespace Verif.Spec.Resume
open Verif.Sim

/-- What of a body the next step depends on. -/
noncomputable def seen (b : Sylinder) : (ℤ × ℤ × Bool × ℝ × ℝ) × V3 × V3 := (kind b, b.pos, b.direction)

/-- What no step changes of a body, the sizes in single precision. -/
def rounded (r32 : ℝ → ℝ) (b : Sylinder) : ℤ × ℤ × Bool × ℝ × ℝ := (b.gid, b.group, b.isImmovable, r32 b.radius, r32 b.length)

/-- `u`, read from a snapshot, is the body `v` of the run after the step, up to the relative error `ε` of single precision. -/
structure Near (ε dt : ℝ) (u v : Sylinder) : Prop where
  gid : u.gid = v.gid
  group : u.group = v.group
  isImmovable : u.isImmovable = v.isImmovable
  radius : |u.radius - v.radius| ≤ ε * |v.radius|
  length : |u.length - v.length| ≤ ε * |v.length|
  pos : V3.norm (u.pos - v.pos) ≤ ε * (dt * V3.norm v.vel)
  direction : V3.norm (u.direction - v.direction) ≤ 2 * ε + dt * (ε * V3.norm v.omega + Equatn.fltEps)
  unit : Spec.UnitQuat u.orientation

/-- Programs that follow one another.  The first has the configuration `C₁` and is given the bodies `B₁`; each other one has read the snapshot that the one before it wrote in
some step (the last it finished; what it did after that is lost), with the same number of ranks and the same time step.  `C`, `B`: what the last program starts with.
`given`: the bodies given to any of the programs before the snapshots were written, `linked`: likewise the links. -/
inductive Life (Ok : Cfg → (ℕ → List Sylinder) → Prop) (fl : ℝ → ℝ) (F : Snapshot.Fmt) (r32 : ℝ → ℝ) (svd : V3 → V3 → V3) (C₁ : Cfg) (B₁ : ℕ → List Sylinder) :
    Cfg → (ℕ → List Sylinder) → List Sylinder → List (ℤ × ℤ) → Prop
  | first : Life Ok fl F r32 svd C₁ B₁ C₁ B₁ (all C₁.place.g.n B₁) C₁.linkMap
  | again (C₀ B given linked C P k s q ranks out s' new ls C' blank) (seed snap : ℕ) (d d' R z) : Life Ok fl F r32 svd C₁ B₁ C₀ B given linked →
    Run Ok fl C₀ B C P k s → Ok C P → (∀ r, P r = B r ++ new r) → C.linkMap = C₀.linkMap ++ ls → Step C fl false s q ranks out s' →
    (snap : ℤ) + 400 ≤ Output.intMax → (s.stepCount : ℤ) < Output.intMax → seed < 2 ^ 32 → (∀ l ∈ C.linkMap, Spec.Snapshot.Int32 l.1 ∧ Spec.Snapshot.Int32 l.2) →
    Snapshot.writeResult F r32 C.mob.dt seed s.stepCount snap (out.steps.map Verif.Mobility.StepOut.summed) C.linkMap d = some d' →
    C'.place.g.n = C.place.g.n → Resumes C' svd blank d' R z →
    Life Ok fl F r32 svd C₁ B₁ C' (onRoot R.bodies) (given ++ all C.place.g.n new) (linked ++ ls)

end Verif.Spec.Resume
