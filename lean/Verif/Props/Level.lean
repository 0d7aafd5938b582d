import Verif.Props.Momentum
import Verif.Props.Mobility
import Verif.Model.Layer
import Verif.Spec.Layer
/-! C91: runs of a monolayer. -/
namespace Verif
open Domain Near Collector RunStep Mobility Sim

namespace Sim
variable {C C₀ : Cfg} {pbc : Fin 3 → Bool} {low high : Fin 3 → ℝ} {P B : ℕ → List Sylinder}

/-- The projection of the code, for a body that is not upright. -/
theorem flat_spec (svd : V3 → V3 → V3) (q : Quat) (hq : ¬ Upright q) : Spec.UnitQuat (flat svd q) ∧ ((flat svd q).rot ⟨0, 0, 1⟩).z = 0 ∧
    ∃ c : ℝ, 0 < c ∧ (flat svd q).rot ⟨0, 0, 1⟩ = c • (⟨(q.rot ⟨0, 0, 1⟩).x, (q.rot ⟨0, 0, 1⟩).y, 0⟩ : V3) := by
  obtain ⟨-, h1, h2, h3⟩ := C65_plane_partial svd (C43_cfg true) 0 { C42_rod with orientation := q } rfl (by
    unfold Upright at hq
    by_cases hx : (q.rot ⟨0, 0, 1⟩).x = 0
    · exact Or.inr fun hy => hq ⟨hx, hy⟩
    · exact Or.inl hx)
  exact ⟨h1, h2, h3⟩

/-- Without the projection. -/
def Cfg.loose (C : Cfg) : Cfg := { C with place := { C.place with monolayer := false }, mob := { C.mob with monolayer := false } }

theorem Sound.loose (h : Sound C.mend pbc low high P) : Sound C.loose pbc low high P :=
  ⟨⟨h.place.1, h.place.2, h.place.3, h.place.4, h.place.5, h.place.6, h.place.7, h.place.8⟩, .inl ⟨rfl, rfl⟩, h.enough, h.viscosity, h.dt, h.valid, h.body, ⟨h.fdps.1, h.fdps.2, h.fdps.3, h.fdps.4, h.fdps.5⟩, h.largest, h.links, h.linkBox⟩

theorem Inv.loose {s : Place.Sys} (h : Inv C.mend P s) : Inv C.loose P s := ⟨h.dec, h.kinds, h.unit⟩

/-- Without the places of ranks that do not exist. -/
def cut (n : ℕ) (q : Place.Sys) : Place.Sys := ⟨q.dec, fun r => if r < n then q.P r else []⟩

theorem cut_P {n : ℕ} (q : Place.Sys) {r : ℕ} (hr : r < n) : (cut n q).P r = q.P r := by simp [cut, hr]

/-- With another projection of orientations. -/
def Cfg.withFlat (C : Cfg) (f : Quat → Quat) : Cfg := { C with place := { C.place with flat := f } }

theorem project_flat {f : Quat → Quat} (hf : ∀ q, ¬ Upright q → f q = C.place.flat q) {b : Sylinder} (h : ¬ Upright b.orientation) : Place.project (C.withFlat f).place b = Place.project C.place b := by
  have e : (C.withFlat f).place.flat b.orientation = C.place.flat b.orientation := by
    exact hf _ h
  unfold Place.project
  rw [e]
  rfl

theorem prepare_flat {f : Quat → Quat} (hf : ∀ q, ¬ Upright q → f q = C.place.flat q) (h : Sound C.loose pbc low high P) {s q : Place.Sys} (hi : Inv C.loose P s) {x : Place.Exec} (hx : Place.Valid C.place x) {k : ℕ}
    (hq : Place.PrepareStep C.place x k s q) (hl : ∀ b ∈ all C.place.g.n s.P, ¬ Upright b.orientation) : Place.PrepareStep (C.withFlat f).place x k s (cut C.place.g.n q) ∧
    ∀ r < C.place.g.n, ∀ b ∈ q.P r, ∃ w : Sylinder, ¬ Upright w.orientation ∧ b = Place.project C.place w := by
  obtain ⟨P', s2, s3, h1, h2, h3, rfl⟩ := hq
  have hq0 : Place.PrepareStep C.loose.place x k s ⟨s3.dec, fun r => (s3.P r).map fun b => Place.refresh C.place r b⟩ := by
    refine ⟨P', s2, s3, h1, ?_, h3, rfl⟩
    split_ifs at h2 ⊢
    · exact Place.decompose_congr (c := C.place) (c' := C.loose.place) rfl rfl rfl rfl rfl h2
    · exact h2
  have hor : ∀ r < C.place.g.n, ∀ b ∈ s3.P r, ¬ Upright b.orientation := by
    intro r hr b hb
    obtain ⟨a, ha, -, e, -⟩ := prepare_pos h rfl hi hx hq0 (Place.refresh C.place r b) (mem_all.2 ⟨r, hr, List.mem_map_of_mem hb⟩)
    have e' : b.orientation = a.orientation := e
    rw [e']
    exact hl a ha
  constructor
  · refine ⟨P', s2, cut C.place.g.n s3, h1, ?_, ?_, ?_⟩
    · split_ifs at h2 ⊢
      · exact Place.decompose_congr (c := C.place) (c' := (C.withFlat f).place) rfl rfl rfl rfl rfl h2
      · exact h2
    · obtain ⟨Q, k1, k2, k3⟩ := h3
      refine ⟨Q, k1, k2, fun r hr => ?_⟩
      obtain ⟨l, e1, e2⟩ := k3 r hr
      exact ⟨l, e1, (cut_P (n := C.place.g.n) s3 hr).trans e2⟩
    · show (⟨s3.dec, _⟩ : Place.Sys) = ⟨s3.dec, _⟩
      congr 1
      funext r
      by_cases hr : r < C.place.g.n
      · simp only [cut, hr, if_true]
        refine List.map_congr_left fun b hb => ?_
        have : ¬ Upright (Place.refresh C.place r b).orientation := hor r hr b hb
        exact (project_flat hf this).symm
      · simp [cut, hr]
  · intro r hr b hb
    obtain ⟨w, hw, rfl⟩ := List.mem_map.1 hb
    exact ⟨Place.refresh C.place r w, hor r hr w hw, rfl⟩

theorem numbered_cut (n : ℕ) (q : Place.Sys) : numbered n (cut n q).P = numbered n q.P := by
  have hs : sizes n (cut n q).P = sizes n q.P := by
    unfold sizes
    refine List.map_congr_left fun r hr => ?_
    rw [cut_P q (List.mem_range.1 hr)]
  funext r
  by_cases hr : r < n
  · unfold numbered
    rw [hs, cut_P q hr]
  · unfold numbered
    rw [hs, List.getD_eq_default _ _ (by
      simp only [TpetraUtil.updateSylinderMap, sizes, List.length_map, List.length_zip, List.length_range]
      omega), List.zipWith_nil_right, List.zipWith_nil_right]

theorem total_cut (n : ℕ) (q : Place.Sys) {r : ℕ} (hr : r ≤ n) : Place.total (cut n q).P r = Place.total q.P r :=
  Place.total_congr _ fun i hi => by rw [cut_P q (by omega)]

theorem Step.flat {f : Quat → Quat} {fl : ℝ → ℝ} {pre : Bool} {s s' : State} {q : Place.Sys} {ranks : List RankIn} {out : Out} (hf : ∀ q, ¬ Upright q → f q = C.place.flat q) (h : Sound C.loose pbc low high P) (hi : Inv C.loose P s.sys)
    (hl : Leaning C s) (hs : Step C fl pre s q ranks out s') : Step (C.withFlat f) fl pre s (cut C.place.g.n q) ranks out s' ∧
    ∀ r < C.place.g.n, ∀ b ∈ q.P r, ∃ w : Sylinder, ¬ Upright w.orientation ∧ b = Place.project C.place w := by
  obtain ⟨x, hx, hq⟩ := hs.prepare
  obtain ⟨h1, h2⟩ := prepare_flat hf h hi hx hq hl
  refine ⟨⟨⟨x, hx, h1⟩, ?_, hs.size, ?_, ?_, hs.given, ?_, hs.matrix, hs.vector, hs.run, hs.moved, hs.count⟩, h2⟩
  · show ∃ order : List (ℤ × EP), order.Perm ((List.range C.place.g.n).flatMap fun r => Links.published (numbered C.place.g.n (cut C.place.g.n q).P r)) ∧ _
    rw [numbered_cut]
    exact hs.publish
  · show ∀ r rk, ranks[r]? = some rk → rk.bodies.map Prod.snd = numbered C.place.g.n (cut C.place.g.n q).P r
    rw [numbered_cut]
    exact hs.bodies
  · show ∃ X : ℕ → Force.RankExec EP, (∀ r < C.place.g.n, (X r).Valid C.F ((numbered C.place.g.n (cut C.place.g.n q).P r).map Collide.toEp)) ∧
      ∀ r rk, ranks[r]? = some rk → Collects (C.withFlat f) q.dec.dom (numbered C.place.g.n (cut C.place.g.n q).P) s'.dir X r rk.pool
    rw [numbered_cut]
    exact hs.collect
  · intro r rk hrk
    have hr : r < C.place.g.n := by
      rw [← hs.size]
      exact (List.getElem?_eq_some_iff.1 hrk).1
    rw [total_cut _ q hr.le, total_cut _ q hr]
    exact hs.mobMin r rk hrk

theorem mend_flat (q : Quat) (hq : ¬ Upright q) : C.mend.place.flat q = C.place.flat q := by
  unfold Cfg.mend
  simp only [hq, if_false]

theorem Step.mend {fl : ℝ → ℝ} {pre : Bool} {s s' : State} {q : Place.Sys} {ranks : List RankIn} {out : Out} (h : Sound C.mend pbc low high P) (hi : Inv C.mend P s.sys)
    (hl : Leaning C s) (hs : Step C fl pre s q ranks out s') : Step C.mend fl pre s (cut C.place.g.n q) ranks out s' ∧
    ∀ r < C.place.g.n, ∀ b ∈ q.P r, ∃ w : Sylinder, ¬ Upright w.orientation ∧ b = Place.project C.place w :=
  Step.flat (f := C.mend.place.flat) mend_flat h.loose hi.loose hl hs

/-- And a step of the mended program is one of the program. -/
theorem Step.unmend {fl : ℝ → ℝ} {pre : Bool} {s s' : State} {q : Place.Sys} {ranks : List RankIn} {out : Out} (h : Sound C.mend pbc low high P) (hi : Inv C.mend P s.sys)
    (hl : Leaning C s) (hs : Step C.mend fl pre s q ranks out s') : Step C fl pre s (cut C.place.g.n q) ranks out s' :=
  (Step.flat (C := C.mend) (f := C.place.flat) (fun q hq => (mend_flat q hq).symm)
    ⟨⟨h.place.1, h.place.2, h.place.3, h.place.4, h.place.5, h.place.6, h.place.7, h.place.8⟩, .inl ⟨rfl, rfl⟩, h.enough, h.viscosity, h.dt, h.valid, h.body, ⟨h.fdps.1, h.fdps.2, h.fdps.3, h.fdps.4, h.fdps.5⟩, h.largest, h.links, h.linkBox⟩
    ⟨hi.dec, hi.kinds, hi.unit⟩ hl hs).1

/-- A run in which no body is upright when a step starts is a run of the mended program. -/
theorem Lying.run {fl : ℝ → ℝ} {k : ℕ} {s : State} (h : Lying (fun C P => Sound C.mend pbc low high P) fl C₀ B C P k s) :
    Run (Ok pbc low high) fl C₀.mend B C.mend P k s := by
  induction h with
  | start junk x y s1 s2 h1 h2 h3 h4 h5 => exact .start junk x y s1 s2 h1 h2 h3 (Place.decompose_congr (c := C₀.place) (c' := C₀.mend.place) rfl rfl rfl rfl rfl h4) h5
  | resume svd blank d R s h1 h2 h3 =>
    obtain ⟨r1, r2, junk, x, y, Q, s1, s2, hx, hy, hQ, d1, d2, rfl⟩ := h2
    exact .resume svd blank d R _ h1 ⟨r1, r2, junk, x, y, Q, s1, s2, hx, hy, hQ, Place.decompose_congr (c := C₀.place) (c' := C₀.mend.place) rfl rfl rfl rfl rfl d1, d2, rfl⟩ h3
  | pre C P k s q ranks out s' h1 h2 h3 h4 h5 h6 h7 ih => exact .pre _ P k s _ ranks out s' ih h2 h3 h4 h5 (h7.mend h2 (run_inv ih) h6).1
  | step C P k s q ranks out s' h1 h2 h3 h4 h5 ih => exact .step _ P k s _ ranks out s' ih h2 h3 (h5.mend h2 (run_inv ih) h4).1
  | bodies C P k s new ids s' h1 h2 h3 ih => exact .bodies _ P k s new ids s' ih h2 h3
  | links C P k s new h1 h2 ih => exact .links _ P k s new ih h2

theorem all_cut (n : ℕ) (q : Place.Sys) : all n (cut n q).P = all n q.P := by
  unfold all
  refine List.flatMap_congr fun r hr => ?_
  rw [cut_P q (List.mem_range.1 hr)]

/-- With the projection of the code, one layer of ranks, the plane in the box, and no Brownian motion, the mended program fits a run. -/
theorem level_mend (svd : V3 → V3 → V3) (hz : C.place.g.nz = 1) (hin : C.place.root.low.z ≤ C.place.monoZ ∧ C.place.monoZ < C.place.root.high.z) (hk : C.mob.KBT ≤ 0)
    (hf : C.place.flat = flat svd) : Level C.mend := by
  refine ⟨hz, hin, hk, fun q hq => ?_⟩
  unfold Cfg.mend
  simp only [hf]
  split_ifs with hu
  · norm_num [Spec.UnitQuat, Quat.normSq]
  · exact (flat_spec svd q hu).1

end Sim

section
variable {C C₀ : Sim.Cfg} {pbc : Fin 3 → Bool} {low high : Fin 3 → ℝ} {P B : ℕ → List Sylinder}

/-- C91, monolayers.  In every run (of a program in which only the projection of exactly upright bodies may be unsound) in which no body is upright when a step starts:
the bodies are those that were given, with unit orientations; when forces are computed in a step the domains tile the box, every body is on the rank that owns its
place, in the plane of the monolayer, and its director is horizontal. -/
theorem C91_layer (svd : V3 → V3 → V3) (hf : C.place.flat = Sim.flat svd) (hm : C.place.monolayer = true) (h : Sim.Sound C.mend pbc low high P) (fl : ℝ → ℝ) (k : ℕ) (s : Sim.State)
    (hr : Lying (fun C P => Sim.Sound C.mend pbc low high P) fl C₀ B C P k s) :
    (((all C.place.g.n s.sys.P).map kind).Perm ((all C.place.g.n P).map kind) ∧ ∀ b ∈ all C.place.g.n s.sys.P, Spec.UnitQuat b.orientation) ∧
    ∀ pre q ranks out s', Leaning C s → Sim.Step C fl pre s q ranks out s' →
      ((all C.place.g.n q.P).map kind).Perm ((all C.place.g.n P).map kind) ∧ Tiles C.place.root C.place.g.n q.dec.dom ∧
      ∀ r rk, ranks[r]? = some rk → ∀ x ∈ rk.bodies.map Prod.snd, Box.MemHalf x.pos (q.dec.dom r) ∧ Spec.UnitQuat x.orientation ∧
        x.pos.z = C.place.monoZ ∧ x.direction.z = 0 := by
  obtain ⟨h1, h2⟩ := C91_bodies h fl k s hr.run
  refine ⟨h1, fun pre q ranks out s' hl hs => ?_⟩
  obtain ⟨g1, g2⟩ := hs.mend h (Sim.run_inv hr.run) hl
  obtain ⟨k1, k2, -, k3⟩ := h2 pre _ ranks out s' g1
  refine ⟨?_, k2, fun r rk hrk x hx => ?_⟩
  · rw [← Sim.all_cut]
    exact k1
  · obtain ⟨m1, m2, -⟩ := k3 r rk hrk x hx
    refine ⟨m1, m2, ?_⟩
    have hrn : r < C.place.g.n := by
      rw [← hs.size]
      exact (List.getElem?_eq_some_iff.1 hrk).1
    rw [hs.bodies r rk hrk] at hx
    obtain ⟨b, hb, g, rfl⟩ := numbered_mem _ _ _ _ hx
    obtain ⟨w, hw, rfl⟩ := g2 r hrn b hb
    have e : Place.project C.place w = { w with pos := ⟨w.pos.x, w.pos.y, C.place.monoZ⟩, orientation := Sim.flat svd w.orientation } := by
      unfold Place.project
      rw [hm, hf]
      rfl
    rw [e]
    exact ⟨rfl, (Sim.flat_spec svd _ hw).2.1⟩

/-- C91, monolayers.  The distances of the bodies after a step that converges are those of `C91_no_overlap_partial`. -/
theorem C91_layer_no_overlap_partial (h : Sim.Sound C.mend pbc low high P) (hfree : C.mob.sylinderFixed = false) (fl : ℝ → ℝ) (k : ℕ) (s : Sim.State)
    (hr : Lying (fun C P => Sim.Sound C.mend pbc low high P) fl C₀ B C P k s) (hl : Leaning C s)
    (pre : Bool) (q : Place.Sys) (ranks : List RankIn) (out : Out) (s' : Sim.State) (hs : Sim.Step C fl pre s q ranks out s') (res : ℝ) (hc : Sim.Converged C fl out res)
    (r i : ℕ) (o : ℕ × ℕ × Image.Idx) (x : Sylinder) (y : EP) (hrn : r < C.place.g.n) (hx : (numbered C.place.g.n q.P r)[i]? = some x)
    (hy : Collide.imageAt C.place (numbered C.place.g.n q.P) o = some y) (ho : Collide.IsImage C.place o) (hg : x.gid < y.gid)
    (hqe : ¬ Spec.Near.Sphere (EP.copyFromFP x) ∧ ¬ Spec.Near.Sphere y → Near.QueryExact (EP.copyFromFP x) y) :
    ∃ x' z' y', (s'.sys.P r)[i]? = some x' ∧ (s'.sys.P o.1)[o.2.1]? = some z' ∧ Collide.imageAt C.place s'.sys.P o = some y' ∧
      kind x' = kind x ∧ y'.gid = y.gid ∧
      (Spec.Near.Close (EP.copyFromFP x) y → ∀ d, Spec.Near.Separation (EP.copyFromFP x') y' d →
        -(C.mob.dt * (res + x'.omega.norm * Spec.NoOverlap.arm (EP.copyFromFP x) + z'.omega.norm * Spec.NoOverlap.arm y)) ≤ d) ∧
      (¬ Spec.Near.Close (EP.copyFromFP x) y → ∀ d, Spec.Near.Separation (EP.copyFromFP x') y' d →
        Spec.Near.bufferOf (EP.copyFromFP x) y - C.mob.dt * (x'.vel.norm + z'.vel.norm + (x'.omega.norm * Spec.NoOverlap.arm (EP.copyFromFP x) + z'.omega.norm * Spec.NoOverlap.arm y) / 2) ≤ d) := by
  obtain ⟨g1, -⟩ := hs.mend h (Sim.run_inv hr.run) hl
  have hn := Sim.numbered_cut C.place.g.n q
  exact C91_no_overlap_partial h hfree fl k s hr.run pre _ ranks out s' g1 res hc r i o x y hrn (by rw [← hn] at hx; exact hx) (by rw [← hn] at hy; exact hy) ho hg hqe

end

namespace Sim

/-- A body that leans. -/
noncomputable def tilt (b : Sylinder) : Sylinder := { b with orientation := ⟨4 / 5, 3 / 5, 0, 0⟩ }

theorem tilt_unit : Spec.UnitQuat ⟨4 / 5, 3 / 5, 0, 0⟩ := by norm_num [Spec.UnitQuat, Quat.normSq]

theorem tilt_leans : ¬ Upright ⟨4 / 5, 3 / 5, 0, 0⟩ := by norm_num [Upright, Quat.rot, Quat.vec, V3.cross]

theorem tilt_all (n : ℕ) (P : ℕ → List Sylinder) : all n (fun r => (P r).map tilt) = (all n P).map tilt := by
  unfold all
  rw [List.map_flatMap]

theorem tilt_like (C : Cfg) (b : Sylinder) : Like C b (sized C (tilt b)) := ⟨rfl, rfl, rfl, rfl⟩

/-- A monolayer with two linked bodies. -/
noncomputable def layerCfg (c : Place.Cfg) (svd : V3 → V3 → V3) : Cfg :=
  { twoBallsCfg { c with monolayer := true, flat := flat svd } with bounds := [], mob := { C88_cfg with monolayer := true } }

/-- A monolayer of two linked bodies on two ranks, a step in which a force acts on every body. -/
theorem layered (svd : V3 → V3 → V3) (D : Draws) : ∃ (C : Cfg) (P : ℕ → List Sylinder) (s s' : State) (q : Place.Sys) (ranks : List RankIn) (out : Out),
    (C.place.flat = flat svd ∧ C.place.monolayer = true ∧ C.mob.sylinderFixed = false ∧ C.mob.monolayer = true ∧ C.bounds = [] ∧
      (∀ b ∈ all C.place.g.n P, ¬ Upright b.orientation) ∧ ∀ Ok : Cfg → (ℕ → List Sylinder) → Prop, Ok C P → Run Ok id C P C P 0 s) ∧
    Sound C.mend (fun _ => false) (fun _ => 0) (fun _ => 1) P ∧
    Lying (fun C P => Sound C.mend (fun _ => false) (fun _ => 0) (fun _ => 1) P) id C P C P 0 s ∧ Leaning C s ∧ Step C id false s q ranks out s' ∧
    C.linkMap = [(7, 9)] ∧ (all C.place.g.n P).length = 2 ∧ ∀ rk ∈ ranks, rk.force = some (List.replicate (6 * rk.bodies.length) 1) := by
  obtain ⟨c, h, hn, hper, k1, k2, k3, k4, hz, hm⟩ := twoBalls_sound
  obtain ⟨C, hC⟩ : ∃ C, C = layerCfg c svd := ⟨_, rfl⟩
  obtain ⟨P, hP⟩ : ∃ P : ℕ → List Sylinder, P = fun r => (twoBalls r).map tilt := ⟨_, rfl⟩
  have hall : all C.place.g.n P = (all c.g.n twoBalls).map tilt := by rw [hC, hP]; exact tilt_all _ _
  have hlev : Level C.mend := by
    refine level_mend svd (by rw [hC]; exact hz) ?_ ?_ (by rw [hC]; rfl)
    · rw [hC]; exact hm
    · rw [hC]; exact le_refl (0 : ℝ)
  have hS : Sound C.mend (fun _ => false) (fun _ => 0) (fun _ => 1) P := by
    refine ⟨?_, .inr hlev, ?_, ?_, ?_, ?_, ?_, ?_, ?_, ?_, ?_⟩
    · rw [hC]
      exact ⟨h.place.1, h.place.2, h.place.3, h.place.4, h.place.5, h.place.6, h.place.7, h.place.8⟩
    · have e : Place.total P c.g.n = Place.total twoBalls c.g.n := Place.total_congr _ fun r hr => by rw [hP, List.length_map]
      rw [hC]
      exact h.enough.trans_eq e.symm
    · rw [hC]; exact h.viscosity
    · rw [hC]; exact h.dt
    · intro b hb
      rw [show all C.mend.place.g.n P = _ from hall] at hb
      obtain ⟨a, ha, rfl⟩ := List.mem_map.1 hb
      have := h.valid a ha
      exact ⟨this.radius, this.length, tilt_unit⟩
    · intro b hb
      rw [show all C.mend.place.g.n P = _ from hall] at hb
      obtain ⟨a, ha, rfl⟩ := List.mem_map.1 hb
      have := (tilt_like (twoBallsCfg c) a).body (h.body a ha) tilt_unit
      rw [hC]
      exact this
    · rw [hC]
      refine ⟨h.fdps.1, h.fdps.2, h.fdps.3, h.fdps.4, fun hk => ?_⟩
      exact absurd hk (by rw [show (layerCfg c svd).mend.place.d.periodic 0 = false from hper 0]; simp)
    · obtain ⟨R, r1, r2, r3⟩ := h.largest
      refine ⟨R, ?_, r2, by rw [hC]; exact r3⟩
      intro b hb
      rw [show all C.mend.place.g.n P = _ from hall] at hb
      obtain ⟨a, ha, rfl⟩ := List.mem_map.1 hb
      have e := (tilt_like (twoBallsCfg c) a).rad
      refine ⟨?_, (r1 a ha).2⟩
      rw [hC]
      exact e.trans_le (r1 a ha).1
    · intro l hl
      obtain ⟨b, hb, e⟩ := h.links l (by rw [hC] at hl; exact hl)
      refine ⟨tilt b, ?_, e⟩
      rw [show all C.mend.place.g.n P = _ from hall]
      exact List.mem_map_of_mem hb
    · rw [hC]; exact h.linkBox
  have hn' : C.mend.place.g.n = 2 := by rw [hC]; exact hn
  have hb0 : C.mend.bounds = [] := by rw [hC]; rfl
  have hch : C.mend.ctl.choice ≠ 1 := by rw [hC]; simp [Cfg.mend, layerCfg, twoBallsCfg]
  have hres : 0 < C.mend.ctl.res := by rw [hC]; show (0 : ℝ) < 1 / 10 ^ 5; norm_num
  obtain ⟨s1, s2, d1, d2⟩ := (C83_progress C.mend.place _ _ _ hS.place P hS.enough).1 (fun _ => C.place.root) _ _ (Place.plain_valid _) (Place.plain_valid _)
  have hrun : Lying (fun C P => Sound C.mend (fun _ => false) (fun _ => 0) (fun _ => 1) P) id C P C P 0 ⟨s2, Links.Dir.empty, 0⟩ :=
    .start _ _ _ s1 s2 hS (Place.plain_valid C.place) (Place.plain_valid C.place) (Place.decompose_congr (c := C.mend.place) (c' := C.place) rfl rfl rfl rfl rfl d1) d2
  have hlean : Leaning C ⟨s2, Links.Dir.empty, 0⟩ := by
    intro b hb
    obtain ⟨a, ha, -, e, -⟩ := start_pos hS (Place.plain_valid C.place) (Place.plain_valid C.place) d1 d2 b hb
    rw [show all C.mend.place.g.n P = _ from hall] at ha
    obtain ⟨a, -, rfl⟩ := List.mem_map.1 ha
    rw [e]
    exact tilt_leans
  have h2 : (all C.mend.place.g.n P).length = 2 := by
    rw [show all C.mend.place.g.n P = _ from hall, List.length_map, hn, twoBalls_all]
    rfl
  obtain ⟨q, ranks, out, s', hst, hf⟩ := Momentum.steps hS hn' (by rw [hC]; exact hper) hb0 (by rw [hC]; rfl) hch hres (by rw [hC]; exact fun l => (twoBalls_pairs c l).1) h2 D hrun.run
  refine ⟨C, P, _, s', _, ranks, out, ⟨by rw [hC]; rfl, by rw [hC]; rfl, by rw [hC]; rfl, by rw [hC]; rfl, by rw [hC]; rfl, ?_, fun Ok hok => .start _ _ _ s1 s2 hok (Place.plain_valid C.place) (Place.plain_valid C.place)
    (Place.decompose_congr (c := C.mend.place) (c' := C.place) rfl rfl rfl rfl rfl d1) d2⟩, hS, hrun, hlean, hst.unmend hS (run_inv hrun.run) hlean, by rw [hC]; rfl, h2, hf⟩
  intro b hb
  rw [hall] at hb
  obtain ⟨a, -, rfl⟩ := List.mem_map.1 hb
  exact tilt_leans

end Sim

/-- The hypotheses of `C91_layer` and `C91_layer_no_overlap_partial` can be met: two linked bodies on two ranks, a step in which a force acts on every body. -/
example (svd : V3 → V3 → V3) (D : Draws) : ∃ (C : Sim.Cfg) (P : ℕ → List Sylinder) (s s' : Sim.State) (q : Place.Sys) (ranks : List RankIn) (out : Out),
    (C.place.flat = Sim.flat svd ∧ C.place.monolayer = true ∧ C.mob.sylinderFixed = false) ∧ Sim.Sound C.mend (fun _ => false) (fun _ => 0) (fun _ => 1) P ∧
    Lying (fun C P => Sim.Sound C.mend (fun _ => false) (fun _ => 0) (fun _ => 1) P) id C P C P 0 s ∧ Leaning C s ∧ Sim.Step C id false s q ranks out s' ∧
    C.linkMap = [(7, 9)] ∧ (all C.place.g.n P).length = 2 ∧ ∀ rk ∈ ranks, rk.force = some (List.replicate (6 * rk.bodies.length) 1) := by
  obtain ⟨C, P, s, s', q, ranks, out, ⟨h1, h2, h3, -⟩, h4⟩ := Sim.layered svd D
  exact ⟨C, P, s, s', q, ranks, out, ⟨h1, h2, h3⟩, h4⟩

end Verif
