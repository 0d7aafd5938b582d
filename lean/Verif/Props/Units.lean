import Verif.Lemmas.Units
import Verif.Props.Alike
/-!
C117: the units of force and time do not matter.
-/
namespace Verif
open Near Collector RunStep Mobility Sim Spec.Resume Spec.Momentum Spec.Layout Spec.Mobility Spec.Motion Layout Spec.Units Units

section
variable {C D C₀ D₀ : Sim.Cfg} {pbc : Fin 3 → Bool} {low high : Fin 3 → ℝ} {P Q B E : ℕ → List Sylinder}

theorem Units.constraints_perm (h : Sim.Sound C pbc low high P) (h' : Sim.Sound D pbc low high Q) {φ τ : ℝ} (hp : OtherUnits φ τ C D) (hid : ((all C.place.g.n P).map Sylinder.gid).Nodup)
    {fl fl' : ℝ → ℝ} {pre pre' : Bool} {s s' t t' : Sim.State} {q q' : Place.Sys} {ranks ranks' : List RankIn} {out out' : Out}
    (hq : Sim.Prepared C P q) (hq' : Sim.Prepared D Q q') (hs : Sim.Step C fl pre s q ranks out s') (hs' : Sim.Step D fl' pre' t q' ranks' out' t')
    (hV : ((all C.place.g.n q.P).map seen).Perm ((all D.place.g.n q'.P).map seen)) :
    ((constraints ranks).map fun b => forget (stiff φ b)).Perm ((constraints ranks').map forget) := by
  have hv := views_nodup hq hid
  have hid' : ((all D.place.g.n Q).map Sylinder.gid).Nodup := by
    have h1 := (hV.map fun v => v.1.1).nodup_iff.1 hv
    have h2 := hq'.kinds.map fun k => k.1
    simp only [List.map_map] at h1 h2
    exact h2.nodup_iff.1 h1
  have hd : D.place.d = C.place.d := by
    have := h.place.dinfo
    rw [h'.place.dinfo] at this
    exact Option.some.inj this
  have hcfg : D.place.diameterColRatio = C.place.diameterColRatio ∧ D.place.lengthColRatio = C.place.lengthColRatio ∧ D.place.colBuf = C.place.colBuf ∧ D.place.d = C.place.d :=
    ⟨hp.diameterColRatio, hp.lengthColRatio, hp.colBuf, hd⟩
  obtain ⟨K, B1, N1, e1, k1, f1, c1, l1⟩ := step_parts hs h hq hid
  obtain ⟨K', B2, N2, e2, k2, f2, c2, l2⟩ := step_parts hs' h' hq' hid'
  have f2' : List.Forall₂ (fun k b => PairOf C.place ((all C.place.g.n q.P).map seen) k (forget b)) K' B2 :=
    f2.imp fun k b hb => PairOf.same ⟨hcfg.1.symm, hcfg.2.1.symm, hcfg.2.2.1.symm, hcfg.2.2.2.symm⟩ hV _ _ hb
  have hK : K.Perm K' := by
    rw [List.perm_ext_iff_of_nodup k1 k2]
    intro k
    constructor
    · intro hk
      obtain ⟨i, hi, rfl⟩ := List.getElem_of_mem hk
      obtain ⟨hl, hg⟩ := List.forall₂_iff_get.1 f1
      exact c2 _ _ (PairOf.same hcfg hV.symm _ _ (hg i hi (by omega)))
    · intro hk
      obtain ⟨i, hi, rfl⟩ := List.getElem_of_mem hk
      obtain ⟨hl, hg⟩ := List.forall₂_iff_get.1 f2'
      exact c1 _ _ (hg i hi (by omega))
  have hB : (B1.map forget).Perm (B2.map forget) := by
    refine perm_of_rel (PairOf.unique (c := C.place) hv) (k := K) (k' := K') ?_ ?_ hK
    · rw [List.forall₂_map_right_iff]; exact f1
    · rw [List.forall₂_map_right_iff]; exact f2'
  have l1' : List.Forall₂ (fun (p : Sylinder × ℤ) b => LinkOf D.link D.place ((all D.place.g.n q'.P).map seen) (seen p.1, p.2) (forget (stiff φ b)))
      (linkPairs C.linkMap (everyone C.place.g.n q.P)) N1 := by
    refine l1.imp fun k b hb => ?_
    obtain ⟨o1, o2, o3⟩ := h.linkBox
    obtain ⟨o4, o5, o6⟩ := h'.linkBox
    exact link_stiff hp.linkGap hp.linkKappa (o4.trans o1.symm) (o5.trans o2.symm) (o6.trans o3.symm) _ _ (LinkOf.same ⟨hcfg.1, hcfg.2.1, hcfg.2.2.1⟩ hV.symm _ _ hb)
  have hE : ((everyone C.place.g.n q.P).map seen).Perm ((everyone D.place.g.n q'.P).map seen) := by
    rw [everyone_seen, everyone_seen]
    exact hV
  have hv' : (((all D.place.g.n q'.P).map seen).map fun v : View => v.1.1).Nodup := (hV.map fun v => v.1.1).nodup_iff.1 hv
  have hN : (N1.map fun b => forget (stiff φ b)).Perm (N2.map forget) := by
    refine perm_of_rel (LinkOf.unique (cfg := D.link) (c := D.place) hv') (k := (linkPairs C.linkMap (everyone C.place.g.n q.P)).map fun p => (seen p.1, p.2))
      (k' := (linkPairs D.linkMap (everyone D.place.g.n q'.P)).map fun p => (seen p.1, p.2)) ?_ ?_ (Layout.linkPairs_perm hp.linkMap hE)
    · rw [List.forall₂_map_right_iff, List.forall₂_map_left_iff]; exact l1'
    · rw [List.forall₂_map_right_iff, List.forall₂_map_left_iff]; exact l2
  have hB' : (B1.map fun b => forget (stiff φ b)) = B1.map forget := by
    refine List.map_congr_left fun b hb => ?_
    obtain ⟨i, hi, rfl⟩ := List.getElem_of_mem hb
    obtain ⟨hl, hg⟩ := List.forall₂_iff_get.1 f1
    obtain ⟨v, -, w, -, -, -, -, -, hrec⟩ := hg i (by omega) hi
    exact stiff_zero (φ := φ) (contact_kappa _ _ _ hrec)
  have hW : ((C.bounds.flatMap fun b => (everyone C.place.g.n q.P).flatMap fun y => (BoundaryCol.bodyBlocks b C.place.colBuf y).getD []).map fun b => forget (stiff φ b)) =
      (C.bounds.flatMap fun b => (everyone C.place.g.n q.P).flatMap fun y => (BoundaryCol.bodyBlocks b C.place.colBuf y).getD []).map forget := by
    refine List.map_congr_left fun b hb => ?_
    obtain ⟨w, -, hb⟩ := List.mem_flatMap.1 hb
    obtain ⟨y, -, hb⟩ := List.mem_flatMap.1 hb
    rw [stiff_zero (wall_kappa _ _ _ _ hb)]
  refine (e1.map fun b => forget (stiff φ b)).trans (List.Perm.trans ?_ (e2.map forget).symm)
  simp only [List.map_append]
  rw [hB', hW]
  refine (hB.append ?_).append hN
  rw [List.map_flatMap, List.map_flatMap]
  refine List.Perm.trans ?_ (hp.bounds.symm.flatMap_right _)
  refine List.Perm.flatMap_left _ fun b _ => ?_
  rw [List.map_flatMap, List.map_flatMap]
  refine flatMap_perm hE _ _ fun x hx y hy hxy => List.Perm.of_eq ?_
  obtain ⟨x1, x2⟩ := Layout.sizes C hq hx
  obtain ⟨y1, y2⟩ := Layout.sizes D hq' hy
  rw [hp.colBuf]
  exact bodyBlocks_forget b _ x y hxy (by rw [x1, y1, hxy, hp.diameterColRatio]) (by rw [x2, y2, hxy, hp.lengthColRatio])

/-- C117, constraints.  Two programs simulate the same with other units of force and time and have the same bodies at the same places.  In the next step they collect the same constraints,
in any order, except that the stiffness of the springs is in the units of each. -/
theorem C117_constraints (h : Sim.Sound C pbc low high P) (h' : Sim.Sound D pbc low high Q) {φ τ : ℝ} (hp : OtherUnits φ τ C D) (hid : ((all C.place.g.n P).map Sylinder.gid).Nodup)
    (fl fl' : ℝ → ℝ) (k k' : ℕ) (s t : Sim.State) (hr : Sim.Run (Sim.Ok pbc low high) fl C₀ B C P k s) (hr' : Sim.Run (Sim.Ok pbc low high) fl' D₀ E D Q k' t)
    (hsame : ((all C.place.g.n s.sys.P).map seen).Perm ((all D.place.g.n t.sys.P).map seen))
    (hbig : ∀ b ∈ all C.place.g.n s.sys.P, ∀ k, pbc k = false → |Near.comp b.pos k| < Stats.largeFloat)
    (pre pre' : Bool) (q q' : Place.Sys) (ranks ranks' : List RankIn) (out out' : Out) (s' t' : Sim.State) (hs : Sim.Step C fl pre s q ranks out s')
    (hs' : Sim.Step D fl' pre' t q' ranks' out' t') :
    ((all C.place.g.n q.P).map seen).Perm ((all D.place.g.n q'.P).map seen) ∧ ((constraints ranks).map fun b => forget (stiff φ b)).Perm ((constraints ranks').map forget) := by
  have hV := Layout.start_perm h h' hp.mono.1.1 hp.mono.2.1 (Sim.run_inv hr) (Sim.run_inv hr') hsame hbig hs.prepare hs'.prepare
  exact ⟨hV, Units.constraints_perm h h' hp hid (hs.prepared h (Sim.run_inv hr)) (hs'.prepared h' (Sim.run_inv hr')) hs hs' hV⟩

/-- C117, motion.  Take steps of two programs that simulate the same in other units, without Brownian motion, in which both solvers converged with no spring or rigid link at the cap of `-10⁸`.
The given forces are `φ` times as large in the second, the given velocities `1 / τ` times.  Then the immovable bodies move alike, `U = τ U'`, and the others as far as the tolerances
allow: `dt` times the sum over all bodies of the smaller drag coefficient times `|U - τ U'|²`, plus the rotational one times `|W - τ W'|²`, is at most what the tolerances leave open, the part of the second
program in its own units, divided by `φ`. -/
theorem C117_motion (h : Sim.Sound C pbc low high P) (h' : Sim.Sound D pbc low high Q) {φ τ : ℝ} (hp : OtherUnits φ τ C D) (hid : ((all C.place.g.n P).map Sylinder.gid).Nodup)
    (fl fl' : ℝ → ℝ) (k k' : ℕ) (s t : Sim.State) (hr : Sim.Run (Sim.Ok pbc low high) fl C₀ B C P k s) (hr' : Sim.Run (Sim.Ok pbc low high) fl' D₀ E D Q k' t)
    (hsame : ((all C.place.g.n s.sys.P).map seen).Perm ((all D.place.g.n t.sys.P).map seen))
    (hbig : ∀ b ∈ all C.place.g.n s.sys.P, ∀ k, pbc k = false → |Near.comp b.pos k| < Stats.largeFloat)
    (pre pre' : Bool) (q q' : Place.Sys) (ranks ranks' : List RankIn) (out out' : Out) (s' t' : Sim.State) (hs : Sim.Step C fl pre s q ranks out s')
    (hs' : Sim.Step D fl' pre' t q' ranks' out' t')
    (hT : pre = true ∨ C.mob.KBT ≤ 0) (hT' : pre' = true ∨ D.mob.KBT ≤ 0) (hfree : C.mob.sylinderFixed = false) (hfree' : D.mob.sylinderFixed = false)
    (htol : 0 ≤ C.ctl.res) (htol' : 0 ≤ D.ctl.res) (res res' : ℝ) (hc : Sim.Converged C fl out res) (hc' : Sim.Converged D fl' out' res')
    (hlow : ∀ p ∈ out.pools, ∀ b ∈ p.flatten, b.bilateral = true → fl (-(10 : ℝ) ^ 8 + BCQP.dblEps * 100) ≤ b.gamma)
    (hlow' : ∀ p ∈ out'.pools, ∀ b ∈ p.flatten, b.bilateral = true → fl' (-(10 : ℝ) ^ 8 + BCQP.dblEps * 100) ≤ b.gamma)
    (G V : ℤ → V3 × V3) (hG : Loads C.place.g.n q ranks G V) (hG' : Loads D.place.g.n q' ranks' (fun g => multiple φ (G g)) (fun g => multiple τ⁻¹ (V g)))
    (U W U' W' : ℤ → V3) (hU : Velocities (all C.place.g.n s'.sys.P) U W) (hU' : Velocities (all D.place.g.n t'.sys.P) U' W') :
    (∀ x ∈ all C.place.g.n q.P, x.isImmovable = true → U x.gid = τ • U' x.gid ∧ W x.gid = τ • W' x.gid) ∧
    C.mob.dt * ((all C.place.g.n q.P).map fun x => lag C.mob.viscosity x (U x.gid - τ • U' x.gid, W x.gid - τ • W' x.gid)).sum ≤
      (((constraints ranks).zip ((out.pools.flatMap fun p => p.flatten).map Block.gamma)).map fun x =>
        loose C.mob.dt C.ctl.res (τ * D.ctl.res) |fl (BCQP.dblEps * 100)| x.1 (x.1.delta0 + C.mob.dt * gapOf U W x.1) x.2).sum +
      φ⁻¹ * (((constraints ranks').zip ((out'.pools.flatMap fun p => p.flatten).map Block.gamma)).map fun x =>
        loose D.mob.dt D.ctl.res (C.ctl.res / τ) |fl' (BCQP.dblEps * 100)| x.1 (x.1.delta0 + D.mob.dt * gapOf U' W' x.1) x.2).sum := by
  have hq := hs.prepared h (Sim.run_inv hr)
  have hq' := hs'.prepared h' (Sim.run_inv hr')
  obtain ⟨hV, hcon⟩ := C117_constraints h h' hp hid fl fl' k k' s t hr hr' hsame hbig pre pre' q q' ranks ranks' out out' s' t' hs hs'
  obtain ⟨a1, a2, a3, a4⟩ := one h hs hq hfree hc hlow (fun r hrn i x hx => by
    obtain ⟨rk, D, u, g1, g2, g3, g4, -, g5⟩ := (Layout.moving h hp.mono.1.2 hfree hr hs hT r hrn).2 i x hx
    exact ⟨rk, D, u, g1, g2, g3, congrArg Prod.fst g4, g5⟩) hU hG
  obtain ⟨b1, b2, b3, b4⟩ := one h' hs' hq' hfree' hc' hlow' (fun r hrn i x hx => by
    obtain ⟨rk, D, u, g1, g2, g3, g4, -, g5⟩ := (Layout.moving h' hp.mono.2.2 hfree' hr' hs' hT' r hrn).2 i x hx
    exact ⟨rk, D, u, g1, g2, g3, congrArg Prod.fst g4, g5⟩) hU' hG'
  obtain ⟨last, -, -, hlt, -⟩ := hc
  obtain ⟨last', -, -, hlt', -⟩ := hc'
  rw [hp.viscosity] at b1
  rw [hp.dt] at b3
  obtain ⟨c1, c2⟩ := two_units hp.force hp.time h.dt (fun x hx => by
    obtain ⟨r, hrn, hx⟩ := mem_everyone.1 hx
    exact hq.valid h hrn hx) (by rw [everyone_seen, everyone_seen]; exact hV) (by rw [a4, b4]; exact hcon) htol htol' a1 b1 a2 b2
    (fun p hp => Meets.of h.dt hlt.le (a3 p hp).1 (a3 p hp).2.1 (a3 p hp).2.2)
    (fun p hp' => Meets.of (mul_pos hp.time h.dt) hlt'.le (b3 p hp').1 (b3 p hp').2.1 (b3 p hp').2.2)
  rw [← hp.dt] at c2
  constructor
  · intro x hx him
    have : seen x ∈ (everyone C.place.g.n q.P).map seen := by rw [everyone_seen]; exact List.mem_map_of_mem hx
    obtain ⟨y, hy, hyx⟩ := List.mem_map.1 this
    have e1 : y.gid = x.gid := by have := congrArg (fun v : View => v.1.1) hyx; exact this
    have e2 : y.isImmovable = x.isImmovable := by have := congrArg (fun v : View => v.1.2.2.1) hyx; exact this
    rw [← e1]
    exact c1 y hy (e2.trans him)
  · rw [Layout.map_seen (everyone_seen C.place.g.n q.P) (fun x => lag C.mob.viscosity x (U x.gid - τ • U' x.gid, W x.gid - τ • W' x.gid)) (fun a b hab => by
      have e1 : a.gid = b.gid := by have := congrArg (fun v : View => v.1.1) hab; exact this
      rw [Layout.lag_seen _ (by have := congrArg Prod.fst hab; exact this), e1])] at c2
    exact c2

/-- C117, positions.  After such steps the place of each body is the same in both programs, and it has turned by the same angle, as far as the tolerances allow. -/
theorem C117_positions (h : Sim.Sound C pbc low high P) (h' : Sim.Sound D pbc low high Q) {φ τ : ℝ} (hp : OtherUnits φ τ C D) (hid : ((all C.place.g.n P).map Sylinder.gid).Nodup)
    (fl fl' : ℝ → ℝ) (k k' : ℕ) (s t : Sim.State) (hr : Sim.Run (Sim.Ok pbc low high) fl C₀ B C P k s) (hr' : Sim.Run (Sim.Ok pbc low high) fl' D₀ E D Q k' t)
    (hsame : ((all C.place.g.n s.sys.P).map seen).Perm ((all D.place.g.n t.sys.P).map seen))
    (hbig : ∀ b ∈ all C.place.g.n s.sys.P, ∀ k, pbc k = false → |Near.comp b.pos k| < Stats.largeFloat)
    (pre pre' : Bool) (q q' : Place.Sys) (ranks ranks' : List RankIn) (out out' : Out) (s' t' : Sim.State) (hs : Sim.Step C fl pre s q ranks out s')
    (hs' : Sim.Step D fl' pre' t q' ranks' out' t')
    (hT : pre = true ∨ C.mob.KBT ≤ 0) (hT' : pre' = true ∨ D.mob.KBT ≤ 0) (hfree : C.mob.sylinderFixed = false) (hfree' : D.mob.sylinderFixed = false)
    (htol : 0 ≤ C.ctl.res) (htol' : 0 ≤ D.ctl.res) (res res' : ℝ) (hc : Sim.Converged C fl out res) (hc' : Sim.Converged D fl' out' res')
    (hlow : ∀ p ∈ out.pools, ∀ b ∈ p.flatten, b.bilateral = true → fl (-(10 : ℝ) ^ 8 + BCQP.dblEps * 100) ≤ b.gamma)
    (hlow' : ∀ p ∈ out'.pools, ∀ b ∈ p.flatten, b.bilateral = true → fl' (-(10 : ℝ) ^ 8 + BCQP.dblEps * 100) ≤ b.gamma)
    (G V : ℤ → V3 × V3) (hG : Loads C.place.g.n q ranks G V) (hG' : Loads D.place.g.n q' ranks' (fun g => multiple φ (G g)) (fun g => multiple τ⁻¹ (V g)))
    (U W U' W' : ℤ → V3) (hU : Velocities (all C.place.g.n s'.sys.P) U W) (hU' : Velocities (all D.place.g.n t'.sys.P) U' W')
    (u u' : Sylinder) (hu : u ∈ all C.place.g.n s'.sys.P) (hu' : u' ∈ all D.place.g.n t'.sys.P) (huu : u.gid = u'.gid) :
    lag C.mob.viscosity u (u.pos - u'.pos, C.mob.dt • u.omega - D.mob.dt • u'.omega) ≤ C.mob.dt * (
      (((constraints ranks).zip ((out.pools.flatMap fun p => p.flatten).map Block.gamma)).map fun x =>
        loose C.mob.dt C.ctl.res (τ * D.ctl.res) |fl (BCQP.dblEps * 100)| x.1 (x.1.delta0 + C.mob.dt * gapOf U W x.1) x.2).sum +
      φ⁻¹ * (((constraints ranks').zip ((out'.pools.flatMap fun p => p.flatten).map Block.gamma)).map fun x =>
        loose D.mob.dt D.ctl.res (C.ctl.res / τ) |fl' (BCQP.dblEps * 100)| x.1 (x.1.delta0 + D.mob.dt * gapOf U' W' x.1) x.2).sum) ∧
    (u.isImmovable = true → u.pos = u'.pos) := by
  have hq := hs.prepared h (Sim.run_inv hr)
  obtain ⟨hV, -⟩ := C117_constraints h h' hp hid fl fl' k k' s t hr hr' hsame hbig pre pre' q q' ranks ranks' out out' s' t' hs hs'
  obtain ⟨hfix, hsum⟩ := C117_motion h h' hp hid fl fl' k k' s t hr hr' hsame hbig pre pre' q q' ranks ranks' out out' s' t' hs hs' hT hT' hfree hfree' htol htol' res res' hc hc'
    hlow hlow' G V hG hG' U W U' W' hU hU'
  obtain ⟨x, hx, hxv, x1, x2⟩ := Layout.before h hp.mono.1.2 hfree hr hs hT hu
  obtain ⟨x', hx', -, y1, y2⟩ := Layout.before h' hp.mono.2.2 hfree' hr' hs' hT' hu'
  have g1 : u.gid = x.gid := congrArg Prod.fst x1
  have g2 : u'.gid = x'.gid := congrArg Prod.fst y1
  have hxx : seen x = seen x' := by
    have hv := views_nodup hq hid
    exact view_unique hv (List.mem_map_of_mem hx) (hV.mem_iff.2 (List.mem_map_of_mem hx')) (by
      show x.gid = x'.gid
      rw [← g1, huu, g2])
  have hpos : x.pos = x'.pos := by have := congrArg (fun v : View => v.2.1) hxx; exact this
  obtain ⟨v1, v2⟩ := hU u hu
  obtain ⟨v3, v4⟩ := hU' u' hu'
  have hdiff : u.pos - u'.pos = C.mob.dt • (u.vel - τ • u'.vel) := by
    rw [x2, y2, hpos, hp.dt]
    ext <;> simp <;> ring
  have hturn : C.mob.dt • u.omega - D.mob.dt • u'.omega = C.mob.dt • (u.omega - τ • u'.omega) := by
    rw [hp.dt]
    ext <;> simp <;> ring
  constructor
  · rw [hdiff, hturn, Layout.lag_smul (T := (u.vel - τ • u'.vel, u.omega - τ • u'.omega)), Layout.lag_seen _ x1, pow_two, mul_assoc]
    refine mul_le_mul_of_nonneg_left (le_trans (mul_le_mul_of_nonneg_left ?_ h.dt.le) hsum) h.dt.le
    have hone : lag C.mob.viscosity x (u.vel - τ • u'.vel, u.omega - τ • u'.omega) = lag C.mob.viscosity x (U x.gid - τ • U' x.gid, W x.gid - τ • W' x.gid) := by
      rw [← g1, v1, v2, huu, v3, v4]
    rw [hone]
    refine List.single_le_sum ?_ _ (List.mem_map_of_mem (f := fun x => lag C.mob.viscosity x (U x.gid - τ • U' x.gid, W x.gid - τ • W' x.gid)) hx)
    intro y hy
    obtain ⟨z, hz, rfl⟩ := List.mem_map.1 hy
    have hz2 : seen z ∈ (everyone C.place.g.n q.P).map seen := by rw [everyone_seen]; exact List.mem_map_of_mem hz
    obtain ⟨z', hz', hzz⟩ := List.mem_map.1 hz2
    obtain ⟨r, hrn, hz'⟩ := mem_everyone.1 hz'
    rw [← Layout.lag_seen _ (a := z') (by have := congrArg Prod.fst hzz; exact this)]
    exact Layout.lag_nonneg h.viscosity (hq.valid h hrn hz') _
  · intro him
    have hi : x.isImmovable = true := by
      have : u.isImmovable = x.isImmovable := congrArg (fun v : ℤ × ℤ × Bool × ℝ × ℝ => v.2.2.1) x1
      rw [← this]; exact him
    obtain ⟨f1, -⟩ := hfix x hx hi
    rw [← g1, v1, huu, v3] at f1
    rw [x2, y2, hpos, hp.dt, f1]
    ext <;> simp <;> ring

end

end Verif
