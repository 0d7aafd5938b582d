import Verif.Lemmas.Resume
/-!
C98: runs that are stopped and resumed from a snapshot.
-/
namespace Verif
open Domain Near Collector RunStep Mobility Sim Spec.Resume Spec.Snapshot Spec.Momentum

section
variable {C C₀ : Sim.Cfg} {pbc : Fin 3 → Bool} {low high : Fin 3 → ℝ} {P B : ℕ → List Sylinder}

theorem Resume.resumes {C : Sim.Cfg} (h : Sim.Sound C pbc low high B) {svd : V3 → V3 → V3} {blank : Sylinder} {d : Snapshot.Disk} {R : Snapshot.Restarted}
    (hR : Snapshot.reinitialize svd blank C.mob.sylinderFixed C.mob.dt C.place.g.n d = some R) (hl : C.linkMap = R.links) (hB : B = onRoot R.bodies) :
    ∃ z, Resumes C svd blank d R z := by
  subst hB
  obtain ⟨Q, hQ⟩ := Place.wraps_exists h.place (onRoot R.bodies)
  obtain ⟨s1, s2, d1, d2⟩ := (C83_progress C.place _ _ _ h.place Q (wrapped_enough h.place hQ h.enough)).1 (fun _ => C.place.root) _ _
    (Place.plain_valid C.place) (Place.plain_valid C.place)
  exact ⟨_, hR, hl, _, _, _, Q, s1, s2, Place.plain_valid _, Place.plain_valid _, hQ, d1, d2, rfl⟩

/-- The bodies when the next step starts. -/
theorem Resume.next (h : Sim.Sound C pbc low high P) (hmono : C.place.monolayer = false) {s : Place.Sys} (hs : Inv C P s) {x : Place.Exec} (hx : Place.Valid C.place x) {k : ℕ} {q : Place.Sys}
    (hq : Place.PrepareStep C.place x k s q) (hb : ∀ b ∈ all C.place.g.n s.P, ∀ k, pbc k = false → |Near.comp b.pos k| < Stats.largeFloat) :
    ((all C.place.g.n q.P).map seen).Perm ((all C.place.g.n s.P).map (Resume.seenHome pbc low high)) := by
  obtain ⟨a1, a2, W, a3, a4⟩ := (Place.prepareStep_spec h.place hx k s (hs.enough h.enough) hs.dec.1 hs.dec.2).2 _ hq
  have hproj : ∀ b, Place.project C.place b = b := fun b => project_off hmono b
  have hp := Place.settled_perm h.place hx _ a2 W fun r hr => (a3 r hr).2
  obtain ⟨-, -, W', h1, h2⟩ := prepare_parts h hs hx hq
  simp only [hproj] at h2
  have h3 := (Resume.seen_carry h.place h1 h2 hb).1
  refine (List.Perm.of_eq (List.map_congr_left fun b hb => ?_)).trans h3
  obtain ⟨r, hr, hb⟩ := mem_all.1 hb
  rw [a4 r hr] at hb
  obtain ⟨w, hw, rfl⟩ := List.mem_map.1 hb
  have hw' : w ∈ (List.range C.place.g.n).flatMap W := hp.1.mem_iff.1 (List.mem_flatMap.2 ⟨r, by simpa using hr, hw⟩)
  obtain ⟨r', hr', hw''⟩ := List.mem_flatMap.1 hw'
  rw [hproj]
  unfold seen Resume.seenHome
  have e : (Place.refresh C.place r w).pos = w.pos := rfl
  rw [e, Resume.home_mem h.place ((a3 r' (by simpa using hr')).2 w hw'')]

/-- C98 (partial).  A run is stopped after any step, and another program with the same configuration reads the snapshot written in that step.  It counts the steps on, with the
same links; its bodies are those that the run has after the step; they fit a run; they can be distributed, however the ranks are scheduled.  Whatever is done after that, and in
the run that was not stopped, is covered by the other theorems about runs, and both start their next step with the same bodies (if the bodies stay, along axes
that are not periodic, within the largest `float`), though perhaps in another order and on other ranks.

Missing, as for C46: values stored in single precision are assumed to be single precision numbers; directions nearly opposite to z are excluded; the number of ranks is the
same. -/
theorem C98_resume_partial (h : Sim.Sound C pbc low high P) (fl : ℝ → ℝ) (k : ℕ) (s : Sim.State) (hr : Sim.Run (Sim.Ok pbc low high) fl C₀ B C P k s)
    (q : Place.Sys) (ranks : List RankIn) (out : Out) (s' : Sim.State) (hs : Sim.Step C fl false s q ranks out s')
    (F : Snapshot.Fmt) (r8 : ℝ → ℝ) (hF : FmtOk F r8) (r32 : ℝ → ℝ) (svd : V3 → V3 → V3) (hsvd : SvdOk svd) (blank : Sylinder) (seed snap : ℕ) (d : Snapshot.Disk)
    (hsnap : (snap : ℤ) + 400 ≤ Output.intMax) (hstep : (s.stepCount : ℤ) < Output.intMax) (hseed : seed < 2 ^ 32) (hl : ∀ l ∈ C.linkMap, Int32 l.1 ∧ Int32 l.2)
    (hb : ∀ t ∈ loaded out, Regular t.direction ∧ Stored r32 t) :
    ∃ d' R, Snapshot.writeResult F r32 C.mob.dt seed s.stepCount snap (out.steps.map StepOut.summed) C.linkMap d = some d' ∧
      Snapshot.reinitialize svd blank C.mob.sylinderFixed C.mob.dt C.place.g.n d' = some R ∧
      R.stepCount = s'.stepCount ∧ R.snapID = snap + 1 ∧ R.seed = (seed + 1) % 2 ^ 32 ∧ R.links = C.linkMap ∧
      List.Forall₂ Same R.bodies (all C.place.g.n s'.sys.P) ∧ Sim.Sound C pbc low high (onRoot R.bodies) ∧ (∃ z, Resumes C svd blank d' R z) ∧
      ∀ z, Resumes C svd blank d' R z → z.stepCount = s'.stepCount ∧
        Sim.Run (Sim.Ok pbc low high) fl C (onRoot R.bodies) C (onRoot R.bodies) C.initPreSteps z ∧
        (C.place.monolayer = false → (∀ b ∈ all C.place.g.n s'.sys.P, ∀ k, pbc k = false → |Near.comp b.pos k| < Stats.largeFloat) → ∀ x y q₁ q₂, Place.Valid C.place x → Place.Valid C.place y →
          Place.PrepareStep C.place x s'.stepCount s'.sys q₁ → Place.PrepareStep C.place y z.stepCount z.sys q₂ →
          ((all C.place.g.n q₂.P).map seen).Perm ((all C.place.g.n q₁.P).map seen)) := by
  have hi := run_inv hr
  have hq := hs.prepared h hi
  have hi' := step_inv hs h hq
  have hlen : (out.steps.map StepOut.summed).length = C.place.g.n := by rw [List.length_map]; exact (step_bodies hs h hq).1
  have hfl : (out.steps.map StepOut.summed).flatten = loaded out := by unfold loaded; rw [List.flatMap_def]
  have hcount : s'.stepCount = s.stepCount + 1 := by rw [hs.count]; rfl
  obtain ⟨d', R, h1, h2, h3, h4, h5, h6, h7⟩ := C46_restart_partial F r8 hF r32 svd hsvd blank C.mob.sylinderFixed C.mob.dt seed s.stepCount snap
    (out.steps.map StepOut.summed) C.linkMap d hsnap hstep hseed hl (by
      rw [hfl]
      intro t ht
      exact ⟨Resume.loaded_unit hs h hq t ht, hb t ht⟩)
  rw [hfl, ← Resume.after_eq hs h hq] at h7
  rw [hlen] at h2
  have hkind : R.bodies.map kind = (all C.place.g.n s'.sys.P).map kind := by
    clear h2
    generalize R.bodies = l at h7
    generalize all C.place.g.n s'.sys.P = l' at h7
    induction h7 with
    | nil => rfl
    | cons hab _ ih =>
      rw [List.map_cons, List.map_cons, ih]
      congr 1
      unfold kind
      rw [hab.gid, hab.group, hab.isImmovable, hab.radius, hab.length]
  have hunit : ∀ b ∈ R.bodies, Spec.UnitQuat b.orientation := by
    intro b hb
    obtain ⟨i, hi, rfl⟩ := List.getElem_of_mem hb
    obtain ⟨hl, hg⟩ := List.forall₂_iff_get.1 h7
    exact (hg i hi (by omega)).unit
  have hsound : Sim.Sound C pbc low high (onRoot R.bodies) := Resume.sound_onRoot h R.bodies (by rw [hkind]; exact hi'.kinds) hunit
  refine ⟨d', R, h1, h2, by rw [h4, hcount], h5, h3, h6, h7, hsound, Resume.resumes hsound h2 h6.symm rfl, fun z hz => ⟨?_, .resume svd blank d' R z hsound hz rfl, ?_⟩⟩
  · obtain ⟨-, -, junk, x, y, Q, s1, s2, -, -, -, -, -, rfl⟩ := hz
    rw [hcount]
    exact h4
  · intro hmono hbd x y q₁ q₂ hx hy p1 p2
    have hn := Resume.ranks_pos h.place
    obtain ⟨-, -, W, w1, w2⟩ := resume_parts h.place hsound.enough hz
    rw [Resume.all_onRoot hn] at w1
    have hsee : R.bodies.map (Resume.seenHome pbc low high) = (all C.place.g.n s'.sys.P).map (Resume.seenHome pbc low high) ∧
        ∀ b ∈ R.bodies, ∀ k, pbc k = false → |Near.comp b.pos k| < Stats.largeFloat := by
      clear h2 hz w1 hkind hunit hsound p1 hi'
      generalize R.bodies = l at h7
      generalize all C.place.g.n s'.sys.P = l' at h7 hbd
      induction h7 with
      | nil => exact ⟨rfl, by simp⟩
      | @cons a b l l' hab _ ih =>
        obtain ⟨i1, i2⟩ := ih fun b hb => hbd b (List.mem_cons_of_mem _ hb)
        constructor
        · rw [List.map_cons, List.map_cons, i1]
          congr 1
          unfold Resume.seenHome kind
          rw [hab.gid, hab.group, hab.isImmovable, hab.radius, hab.length, hab.pos, hab.direction]
        · intro c hc
          rcases List.mem_cons.1 hc with rfl | hc
          · rw [hab.pos]
            exact hbd b (by simp)
          · exact i2 c hc
    obtain ⟨v1, v2⟩ := Resume.seen_carry h.place w1 w2 hsee.2
    have e2 := Resume.next hsound hmono (resume_inv hsound hz) hy p2 v2
    have e1 := Resume.next h hmono hi' hx p1 hbd
    refine e2.trans (v1.trans ?_)
    rw [hsee.1]
    exact e1.symm

/-- C98 (partial).  As `C98_resume_partial`, for any bodies, with the error of single precision: the bodies read are those of the run after the step, up to the
relative error `ε` in their sizes and in the motion of the last step, and `2 ε` in their directions.  Missing: directions nearly opposite to z are excluded; the number of
ranks is the same. -/
theorem C98_rounded_partial (h : Sim.Sound C pbc low high P) (fl : ℝ → ℝ) (k : ℕ) (s : Sim.State) (hr : Sim.Run (Sim.Ok pbc low high) fl C₀ B C P k s)
    (q : Place.Sys) (ranks : List RankIn) (out : Out) (s' : Sim.State) (hs : Sim.Step C fl false s q ranks out s')
    (F : Snapshot.Fmt) (r8 : ℝ → ℝ) (hF : FmtOk F r8) (r32 : ℝ → ℝ) (ε : ℝ) (hε : 0 ≤ ε) (hε1 : ε < 1) (h32 : ∀ x, |r32 x - x| ≤ ε * |x|) (svd : V3 → V3 → V3)
    (blank : Sylinder) (seed snap : ℕ) (d : Snapshot.Disk)
    (hsnap : (snap : ℤ) + 400 ≤ Output.intMax) (hstep : (s.stepCount : ℤ) < Output.intMax) (hseed : seed < 2 ^ 32) (hl : ∀ l ∈ C.linkMap, Int32 l.1 ∧ Int32 l.2)
    (hb : ∀ t ∈ loaded out, -1 + 2 * ε + 1 / 10 ^ 12 ≤ t.direction.z) :
    ∃ d' R, Snapshot.writeResult F r32 C.mob.dt seed s.stepCount snap (out.steps.map StepOut.summed) C.linkMap d = some d' ∧
      Snapshot.reinitialize svd blank C.mob.sylinderFixed C.mob.dt C.place.g.n d' = some R ∧
      R.stepCount = s'.stepCount ∧ R.links = C.linkMap ∧ List.Forall₂ (Spec.Resume.Near ε C.mob.dt) R.bodies (all C.place.g.n s'.sys.P) ∧
      (Sim.Sound C pbc low high (onRoot R.bodies) → (∃ z, Resumes C svd blank d' R z) ∧
        ∀ z, Resumes C svd blank d' R z → z.stepCount = s'.stepCount ∧
          Sim.Run (Sim.Ok pbc low high) fl C (onRoot R.bodies) C (onRoot R.bodies) C.initPreSteps z) := by
  have hq := hs.prepared h (run_inv hr)
  have hlen : (out.steps.map StepOut.summed).length = C.place.g.n := by rw [List.length_map]; exact (step_bodies hs h hq).1
  have hfl : (out.steps.map StepOut.summed).flatten = loaded out := by unfold loaded; rw [List.flatMap_def]
  have hcount : s'.stepCount = s.stepCount + 1 := by rw [hs.count]; rfl
  obtain ⟨d', h1, h2⟩ := Snapshot.reinit_eq F r8 hF r32 svd blank C.mob.sylinderFixed C.mob.dt seed s.stepCount snap (out.steps.map StepOut.summed) C.linkMap d
    hsnap hstep hseed hl
  rw [hlen, hfl] at h2
  refine ⟨d', _, h1, h2, hcount.symm, rfl, ?_, fun hsound => ⟨Resume.resumes hsound h2 rfl rfl, fun z hz => ⟨?_, .resume svd blank d' _ z hsound hz rfl⟩⟩⟩
  · simp only
    rw [Resume.after_eq hs h hq]
    have hun := Resume.loaded_unit hs h hq
    have key : ∀ t ∈ loaded out, Spec.Resume.Near ε C.mob.dt (Snapshot.fromRecord svd blank (Snapshot.record r32 t)) t ∧
        Spec.Resume.Near ε C.mob.dt ((Snapshot.fromRecord svd blank (Snapshot.record r32 t)).stepEuler C.mob.dt) (t.stepEuler C.mob.dt) := by
      intro t ht
      obtain ⟨c1, c2, c3, c4, c5, c6, c7, c8, c9, c10⟩ := C46_rounded_partial r32 ε hε hε1 h32 svd blank t (hun t ht) (hb t ht) C.mob.dt h.dt.le
      have hf := Equatn.fltEps_pos
      refine ⟨⟨c1, c2, c3, c4, c5, ?_, c8.trans ?_, c9⟩, ⟨c1, c2, c3, c4, c5, c7, c10, C13_unit _ _ _ c9⟩⟩
      · rw [c6]
        have : V3.norm (t.pos - t.pos) = 0 := by rw [V3.norm_eq_zero]; ext <;> simp
        rw [this]
        exact mul_nonneg hε (mul_nonneg h.dt.le (V3.norm_nonneg _))
      · have := mul_nonneg h.dt.le (add_nonneg (mul_nonneg hε (V3.norm_nonneg t.omega)) hf.le)
        linarith
    cases C.mob.sylinderFixed
    · simp only [Bool.false_eq_true, if_false, List.forall₂_map_left_iff, List.forall₂_map_right_iff]
      rw [List.forall₂_same]
      exact fun t ht => (key t ht).2
    · simp only [if_true, List.forall₂_map_left_iff, List.forall₂_map_right_iff]
      rw [List.forall₂_same]
      exact fun t ht => (key t ht).1
  · obtain ⟨-, -, junk, x, y, Q, s1, s2, -, -, -, -, -, rfl⟩ := hz
    rw [hcount]

theorem Resume.rounded_kind (r32 : ℝ → ℝ) {l l' : List Sylinder} (h : (l.map kind).Perm (l'.map kind)) : (l.map (rounded r32)).Perm (l'.map (rounded r32)) := by
  have := h.map fun k : ℤ × ℤ × Bool × ℝ × ℝ => (k.1, k.2.1, k.2.2.1, r32 k.2.2.2.1, r32 k.2.2.2.2)
  rw [List.map_map, List.map_map] at this
  exact this

theorem Resume.ids_rounded (r32 : ℝ → ℝ) {l l' : List Sylinder} (h : (l.map (rounded r32)).Perm (l'.map (rounded r32))) : (l.map Sylinder.gid).Perm (l'.map Sylinder.gid) := by
  have := h.map Prod.fst
  rw [List.map_map, List.map_map] at this
  exact this

theorem Resume.all_append (n : ℕ) {P B new : ℕ → List Sylinder} (hP : ∀ r, P r = B r ++ new r) : (all n P).Perm (all n B ++ all n new) := by
  have e : P = fun r => B r ++ new r := funext hP
  rw [e]
  exact perm_flatMap_append (List.range n) B new

theorem Resume.bodies_rounded (r32 : ℝ → ℝ) (hr : ∀ x, r32 (r32 x) = r32 x) (svd : V3 → V3 → V3) (blank : Sylinder) (fixed : Bool) (dt : ℝ) (l : List Sylinder) :
    (if fixed then l.map (fun s => Snapshot.fromRecord svd blank (Snapshot.record r32 s))
      else l.map (fun s => (Snapshot.fromRecord svd blank (Snapshot.record r32 s)).stepEuler dt)).map (rounded r32) = l.map (rounded r32) := by
  have key : ∀ s : Sylinder, rounded r32 (Snapshot.fromRecord svd blank (Snapshot.record r32 s)) = rounded r32 s := by
    intro s
    have e : (Snapshot.fromRecord svd blank (Snapshot.record r32 s)).isImmovable = s.isImmovable := by
      simp only [Snapshot.fromRecord, Snapshot.record]
      exact flag_back _
    unfold rounded
    rw [e]
    simp only [Snapshot.fromRecord, Snapshot.record, hr]
  cases fixed
  · simp only [Bool.false_eq_true, if_false, List.map_map]
    exact List.map_congr_left fun s _ => key s
  · simp only [if_true, List.map_map]
    exact List.map_congr_left fun s _ => key s

theorem Resume.life {fl : ℝ → ℝ} {F : Snapshot.Fmt} {r8 : ℝ → ℝ} (hF : FmtOk F r8) {r32 : ℝ → ℝ} (h32 : ∀ x, r32 (r32 x) = r32 x) {svd : V3 → V3 → V3} {C₁ : Sim.Cfg}
    {B₁ : ℕ → List Sylinder} {given : List Sylinder} {linked : List (ℤ × ℤ)} (hl : Life (Sim.Ok pbc low high) fl F r32 svd C₁ B₁ C₀ B given linked)
    (hB : (ids C₁.place.g.n B₁).Nodup) : C₀.place.g.n = C₁.place.g.n ∧ C₀.linkMap = linked ∧
      ((all C₁.place.g.n B).map (rounded r32)).Perm (given.map (rounded r32)) ∧ (ids C₁.place.g.n B).Nodup := by
  induction hl with
  | first => exact ⟨rfl, rfl, List.Perm.refl _, hB⟩
  | again C₀ B given linked C P k s q ranks out s' new ls C' blank seed snap d d' R z _ hr h hP hC hs b1 b2 b3 b4 hw hn hz ih =>
    obtain ⟨i1, i2, i3, i4⟩ := ih
    have hg := Sim.grown hr
    have hCn : C.place.g.n = C₁.place.g.n := by rw [hg.1, i1]
    have hi := run_inv hr
    have hq := hs.prepared h hi
    have hi' := step_inv hs h hq
    have hlen : (out.steps.map StepOut.summed).length = C.place.g.n := by rw [List.length_map]; exact (step_bodies hs h hq).1
    have hfl : (out.steps.map StepOut.summed).flatten = loaded out := by unfold loaded; rw [List.flatMap_def]
    obtain ⟨d2, e1, e2⟩ := Snapshot.reinit_any F r8 hF r32 svd blank C'.mob.sylinderFixed C.mob.dt C'.mob.dt seed s.stepCount snap (out.steps.map StepOut.summed) C.linkMap d b1 b2 b3 b4
    rw [hw, Option.some.injEq] at e1
    subst e1
    obtain ⟨hz1, hz2, -⟩ := hz
    rw [hn, ← hlen, e2, Option.some.injEq] at hz1
    have hbod := congrArg Snapshot.Restarted.bodies hz1
    have hlink := congrArg Snapshot.Restarted.links hz1
    simp only at hbod hlink
    have hround : R.bodies.map (rounded r32) = (loaded out).map (rounded r32) := by
      rw [← hbod, hfl]
      exact Resume.bodies_rounded r32 h32 svd blank _ _ _
    have hmoved : (all C.place.g.n s'.sys.P).map kind = (loaded out).map kind := Work.moved_loaded hs h hq kind fun _ => rfl
    have hperm : ((all C₁.place.g.n (onRoot R.bodies)).map (rounded r32)).Perm ((given ++ all C.place.g.n new).map (rounded r32)) := by
      rw [Resume.all_onRoot (by rw [← hCn]; exact Resume.ranks_pos h.place), hround]
      have k1 := Resume.rounded_kind r32 (List.Perm.of_eq hmoved.symm)
      have k2 := Resume.rounded_kind r32 hi'.kinds
      have k3 := (Resume.all_append C.place.g.n hP).map (rounded r32)
      refine k1.trans (k2.trans (k3.trans ?_))
      rw [List.map_append, List.map_append]
      rw [hCn]
      exact List.Perm.append_right _ i3
    refine ⟨by rw [hn, hCn], by rw [hz2, ← hlink, hC, i2], hperm, ?_⟩
    have hids := (C94_ids fl k s hr (by rw [i1]; exact i4)).1
    rw [i1] at hids
    have k1 := Resume.ids_rounded r32 hperm
    have k0 : (ids C₁.place.g.n s.sys.P).Perm (((given ++ all C.place.g.n new)).map Sylinder.gid) := by
      have k2 := Resume.rounded_kind r32 hi.kinds
      have k3 := (Resume.all_append C.place.g.n hP).map (rounded r32)
      refine Resume.ids_rounded r32 (l := all C₁.place.g.n s.sys.P) ?_
      rw [← hCn]
      refine k2.trans (k3.trans ?_)
      rw [List.map_append, List.map_append]
      rw [hCn]
      exact List.Perm.append_right _ i3
    show ((all C₁.place.g.n (onRoot R.bodies)).map Sylinder.gid).Nodup
    rw [k1.nodup_iff, ← k0.nodup_iff]
    exact hids

/-- C98.  Programs that follow one another, each of which reads the snapshot of the one before it, with additions of bodies and links in any of them: in every state of the
last one the bodies of all ranks are those given to any of the programs up to its snapshot, and those given to the last one since, with their ids, groups and flags, and with
their sizes in single precision; no id occurs twice; and no link is lost. -/
theorem C98_life {fl : ℝ → ℝ} {F : Snapshot.Fmt} {r8 : ℝ → ℝ} (hF : FmtOk F r8) {r32 : ℝ → ℝ} (h32 : ∀ x, r32 (r32 x) = r32 x) {svd : V3 → V3 → V3} {C₁ : Sim.Cfg}
    {B₁ : ℕ → List Sylinder} {given : List Sylinder} {linked : List (ℤ × ℤ)} (hl : Life (Sim.Ok pbc low high) fl F r32 svd C₁ B₁ C₀ B given linked)
    (hB : (ids C₁.place.g.n B₁).Nodup) (k : ℕ) (s : Sim.State) (hr : Sim.Run (Sim.Ok pbc low high) fl C₀ B C P k s) :
    ∃ new : ℕ → List Sylinder, (∀ r, P r = B r ++ new r) ∧ ((all C₁.place.g.n s.sys.P).map (rounded r32)).Perm ((given ++ all C₁.place.g.n new).map (rounded r32)) ∧
      (ids C₁.place.g.n s.sys.P).Nodup ∧ ∃ ls, C = { C₀ with linkMap := linked ++ ls } := by
  obtain ⟨i1, i2, i3, i4⟩ := Resume.life hF h32 hl hB
  obtain ⟨g1, ⟨new, g2⟩, ls, g3⟩ := Sim.grown hr
  have hCn : C.place.g.n = C₁.place.g.n := by rw [g1, i1]
  refine ⟨new, g2, ?_, ?_, ls, by rw [g3, i2]⟩
  · have k2 := Resume.rounded_kind r32 (run_inv hr).kinds
    have k3 := (Resume.all_append C.place.g.n g2).map (rounded r32)
    rw [hCn] at k2 k3
    refine k2.trans (k3.trans ?_)
    rw [List.map_append, List.map_append]
    exact List.Perm.append_right _ i3
  · have := (C94_ids fl k s hr (by rw [i1]; exact i4)).1
    rw [i1] at this
    exact this

end

/-- The hypotheses of C98 can be met: the run of `Sim.witness` is stopped after its step, and resumed. -/
theorem Resume.witness (D : Draws) : ∃ (C : Sim.Cfg) (P₀ : ℕ → List Sylinder) (s s' : Sim.State) (q : Place.Sys)
    (ranks : List RankIn) (out : Out), Sim.Sound C (fun _ => false) (fun _ => 0) (fun _ => 1) P₀ ∧
    Sim.Run (Sim.Ok (fun _ => false) (fun _ => 0) (fun _ => 1)) id C P₀ C P₀ 0 s ∧ Sim.Step C id false s q ranks out s' ∧ s.stepCount = 0 ∧
    (∀ l ∈ C.linkMap, Int32 l.1 ∧ Int32 l.2) ∧ C.linkMap = [(7, 9)] ∧ (∀ t ∈ loaded out, t.direction = ⟨0, 0, 1⟩ ∧ Stored id t) ∧ (ids C.place.g.n P₀).Nodup := by
  obtain ⟨C, P₀, s, s', q, ranks, out, h1, -, -, -, h3, h4, -, -, -, -, -, e1, -, -, -, -, ⟨-, -, e2, e3, -⟩, e4⟩ := Sim.witness D
  have hq := h4.prepared h1 (run_inv h3)
  obtain ⟨h5, h6⟩ := step_bodies h4 h1 hq
  refine ⟨C, P₀, s, s', q, ranks, out, h1, h3, h4, e2, ?_, e1, ?_, ?_⟩
  · intro l hl
    rw [e1, List.mem_singleton] at hl
    rw [hl]
    exact ⟨⟨by norm_num, by norm_num⟩, ⟨by norm_num, by norm_num⟩⟩
  · intro t ht
    refine ⟨?_, rfl, rfl, rfl, rfl, rfl⟩
    obtain ⟨so, hso, ht⟩ := List.mem_flatMap.1 ht
    obtain ⟨r, hr, rfl⟩ := List.getElem_of_mem hso
    obtain ⟨so', k1, k2, -, k3⟩ := h6 r (by omega)
    rw [List.getElem?_eq_getElem hr, Option.some.injEq] at k1
    subst k1
    obtain ⟨i, hi, rfl⟩ := List.getElem_of_mem ht
    have hi' : i < (numbered C.place.g.n q.P r).length := by rw [numbered_length _ _ _ (by omega)]; omega
    obtain ⟨t', u, m1, -, -, -, -, m2, -⟩ := k3 i _ (List.getElem?_eq_getElem hi')
    rw [List.getElem?_eq_getElem hi, Option.some.injEq] at m1
    unfold Sylinder.direction
    rw [m1, m2, (e4 r (by omega) _ (List.getElem_mem hi')).2.2]
    ext <;> norm_num [Quat.rot, Quat.vec, V3.cross]
  · unfold ids
    rw [e3]
    decide

/-- C98: the hypotheses of `C98_rounded_partial`, with any rounding that has the error of single precision. -/
example (D : Draws) : ∃ (C : Sim.Cfg) (P₀ : ℕ → List Sylinder) (s s' : Sim.State) (q : Place.Sys) (ranks : List RankIn) (out : Out),
    Sim.Sound C (fun _ => false) (fun _ => 0) (fun _ => 1) P₀ ∧ Sim.Run (Sim.Ok (fun _ => false) (fun _ => 0) (fun _ => 1)) id C P₀ C P₀ 0 s ∧
    Sim.Step C id false s q ranks out s' ∧ ∀ t ∈ loaded out, -1 + 2 * (1 / 2 ^ 24) + 1 / 10 ^ 12 ≤ t.direction.z := by
  obtain ⟨C, P₀, s, s', q, ranks, out, h1, h3, h4, -, -, -, e5, -⟩ := Resume.witness D
  exact ⟨C, P₀, s, s', q, ranks, out, h1, h3, h4, fun t ht => by rw [(e5 t ht).1]; norm_num⟩

/-- C98: two programs, the second resumes the first, with the same two spheres and the link. -/
example (D : Draws) (d : Snapshot.Disk) (blank : Sylinder) : ∃ (C : Sim.Cfg) (P₀ B : ℕ → List Sylinder) (given : List Sylinder) (z : Sim.State),
    Life (Sim.Ok (fun _ => false) (fun _ => 0) (fun _ => 1)) id gridFmt id someAxis C P₀ C B given [(7, 9)] ∧ (ids C.place.g.n P₀).Nodup ∧
    Sim.Run (Sim.Ok (fun _ => false) (fun _ => 0) (fun _ => 1)) id C B C B C.initPreSteps z ∧ z.stepCount = 1 := by
  obtain ⟨C, P₀, s, s', q, ranks, out, h1, h3, h4, e2, e3, e4, e5, e6⟩ := Resume.witness D
  have hst : (s.stepCount : ℤ) < Output.intMax := by rw [e2]; unfold Output.intMax; norm_num
  have hsn : ((0 : ℕ) : ℤ) + 400 ≤ Output.intMax := by unfold Output.intMax; norm_num
  obtain ⟨d', R, w1, w2, w3, -, -, w4, -, -, ⟨z, hz⟩, w5⟩ := C98_resume_partial h1 id 0 s h3 q ranks out s' h4 gridFmt gridRound gridFmt_ok id someAxis someAxis_ok blank 5 0 d
    hsn hst (by norm_num) e3 fun t ht => ⟨Or.inl (by rw [(e5 t ht).1]; norm_num), (e5 t ht).2⟩
  obtain ⟨w6, w7, -⟩ := w5 z hz
  refine ⟨C, P₀, onRoot R.bodies, all C.place.g.n P₀ ++ all C.place.g.n (fun _ => []), z, ?_, e6, w7, by rw [w6, h4.count, e2]; rfl⟩
  have := Life.again (Ok := Sim.Ok (fun _ => false) (fun _ => 0) (fun _ => 1)) C P₀ _ _ C P₀ 0 s q ranks out s' (fun _ => []) [] C blank 5 0 d d' R z
    (Life.first (fl := id) (F := gridFmt) (r32 := id) (svd := someAxis) (C₁ := C) (B₁ := P₀)) h3 h1 (fun r => by simp) (by simp) h4 hsn hst (by norm_num) e3 w1 rfl hz
  rw [List.append_nil, e4] at this
  exact this

end Verif
