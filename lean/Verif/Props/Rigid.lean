import Verif.Lemmas.Rigid
import Verif.Props.Displace
import Verif.Props.Init
/-!
C115: a step does not depend on how the configuration is turned or mirrored.
-/
namespace Verif
open Near Collector RunStep Mobility Sim Spec.Resume Spec.Momentum Spec.Layout Spec.Rigid Spec.Mobility Spec.Motion Layout Rigid

section
variable {C D C₀ D₀ : Sim.Cfg} {pbc : Fin 3 → Bool} {low high : Fin 3 → ℝ} {P Q B E : ℕ → List Sylinder} {R : Collector.Mat3} {v : V3}

theorem Rigid.same_place (h : Sim.Sound C pbc low high P) (h' : Sim.Sound D pbc low high Q) (hp : Turned R v C D) :
    D.place.diameterColRatio = C.place.diameterColRatio ∧ D.place.lengthColRatio = C.place.lengthColRatio ∧ D.place.colBuf = C.place.colBuf ∧ D.place.d = C.place.d := by
  have hd : D.place.d = C.place.d := by
    have := h.place.dinfo
    rw [h'.place.dinfo] at this
    exact Option.some.inj this
  exact ⟨hp.physics.diameterColRatio, hp.physics.lengthColRatio, hp.physics.colBuf, hd⟩

theorem Rigid.moved_iff {L L' : List Sylinder} : Moved R v L L' ↔ ((L.map seen).map (move R v)).Perm (L'.map seen) := by
  constructor
  · rintro ⟨M, hM, hf⟩
    refine List.Perm.trans (List.Perm.of_eq ?_) (hM.map seen)
    clear hM
    induction hf with
    | nil => rfl
    | cons hab _ ih =>
      simp only [List.map_cons]
      rw [ih]
      congr 1
      exact (Prod.ext hab.1 (Prod.ext hab.2.2 hab.2.1)).symm
  · intro h
    rw [List.map_map] at h
    obtain ⟨M, h1, h2⟩ := align h
    refine ⟨M, h1, h2.imp fun a b hab => ?_⟩
    exact ⟨(congrArg Prod.fst hab).symm, (congrArg (fun w : View => w.2.2) hab).symm, (congrArg (fun w : View => w.2.1) hab).symm⟩

theorem Rigid.home_flat (hflat : ∀ k, pbc k = false) (L : List Sylinder) : L.map (Resume.seenHome pbc low high) = L.map seen := by
  refine List.map_congr_left fun b _ => ?_
  refine Prod.ext rfl (Prod.ext ?_ rfl)
  show Resume.home pbc low high b.pos = b.pos
  unfold Resume.home Resume.homeAt
  simp only [hflat]
  ext <;> simp

/-- The bodies of two programs when the next step starts. -/
theorem Rigid.start (hflat : ∀ k, pbc k = false) (h : Sim.Sound C pbc low high P) (h' : Sim.Sound D pbc low high Q) (hmono : C.place.monolayer = false) (hmono' : D.place.monolayer = false)
    {s t q q' : Place.Sys} (hi : Sim.Inv C P s) (hi' : Sim.Inv D Q t) (hmove : Moved R v (all C.place.g.n s.P) (all D.place.g.n t.P))
    (hbig : ∀ b ∈ all C.place.g.n s.P, ∀ k, |Near.comp b.pos k| < Stats.largeFloat) (hbig' : ∀ b ∈ all D.place.g.n t.P, ∀ k, |Near.comp b.pos k| < Stats.largeFloat)
    {k k' : ℕ} (hq : ∃ x, Place.Valid C.place x ∧ Place.PrepareStep C.place x k s q) (hq' : ∃ x, Place.Valid D.place x ∧ Place.PrepareStep D.place x k' t q') :
    (((all C.place.g.n q.P).map seen).map (move R v)).Perm ((all D.place.g.n q'.P).map seen) := by
  obtain ⟨x, hx, hq⟩ := hq
  obtain ⟨x', hx', hq'⟩ := hq'
  have n1 := Resume.next h hmono hi hx hq fun b hb k _ => hbig b hb k
  have n2 := Resume.next h' hmono' hi' hx' hq' fun b hb k _ => hbig' b hb k
  rw [home_flat hflat] at n1 n2
  exact (n1.map _).trans ((moved_iff.1 hmove).trans n2.symm)

/-- The constraints of two steps. -/
theorem Rigid.constraints_perm (hflat : ∀ k, pbc k = false) (hR : Orth R) (h : Sim.Sound C pbc low high P) (h' : Sim.Sound D pbc low high Q) (hp : Turned R v C D)
    (hid : ((all C.place.g.n P).map Sylinder.gid).Nodup) {fl fl' : ℝ → ℝ} {pre pre' : Bool} {s s' t t' : Sim.State} {q q' : Place.Sys} {ranks ranks' : List RankIn} {out out' : Out}
    (hq : Sim.Prepared C P q) (hq' : Sim.Prepared D Q q') (hs : Sim.Step C fl pre s q ranks out s') (hs' : Sim.Step D fl' pre' t q' ranks' out' t')
    (hV : (((all C.place.g.n q.P).map seen).map (move R v)).Perm ((all D.place.g.n q'.P).map seen)) :
    ((constraints ranks).map fun b => forget (carryBlock R v b)).Perm ((constraints ranks').map forget) := by
  have hv := views_nodup hq hid
  have hv' : (((all D.place.g.n q'.P).map seen).map fun w => w.1.1).Nodup := by
    have h1 := hV.map fun w => w.1.1
    rw [List.map_map] at h1
    exact h1.nodup_iff.1 hv
  have hid' : ((all D.place.g.n Q).map Sylinder.gid).Nodup := by
    have h2 := hq'.kinds.map fun k => k.1
    simp only [List.map_map] at h2 hv'
    exact h2.nodup_iff.1 hv'
  have hcfg := Rigid.same_place h h' hp
  obtain ⟨-, x2, -, -⟩ := h.place.extent
  have hd : ∀ k, C.place.d.periodic k = false := fun k => by rw [x2]; exact hflat k
  have hfwd : ∀ w ∈ (all C.place.g.n q.P).map seen, move R v w ∈ (all D.place.g.n q'.P).map seen := fun w hw => hV.mem_iff.1 (List.mem_map_of_mem hw)
  have hbwd : ∀ w ∈ (all D.place.g.n q'.P).map seen, move R.transpose (-turn R.transpose v) w ∈ (all C.place.g.n q.P).map seen := by
    intro w hw
    obtain ⟨w₀, h1, rfl⟩ := List.mem_map.1 (hV.mem_iff.2 hw)
    rw [move_back hR]
    exact h1
  obtain ⟨K, B1, N1, e1, k1, f1, c1, l1⟩ := step_parts hs h hq hid
  obtain ⟨K', B2, N2, e2, k2, f2, c2, l2⟩ := step_parts hs' h' hq' hid'
  have hK : K.Perm K' := by
    rw [List.perm_ext_iff_of_nodup k1 k2]
    intro k
    constructor
    · intro hk
      obtain ⟨i, hi, rfl⟩ := List.getElem_of_mem hk
      obtain ⟨hl, hg⟩ := List.forall₂_iff_get.1 f1
      exact c2 _ _ (pair_move hR hcfg hd v hfwd _ _ (hg i hi (by omega)))
    · intro hk
      obtain ⟨i, hi, rfl⟩ := List.getElem_of_mem hk
      obtain ⟨hl, hg⟩ := List.forall₂_iff_get.1 f2
      exact c1 _ _ (pair_move (c := D.place) (c' := C.place) hR.back ⟨hcfg.1.symm, hcfg.2.1.symm, hcfg.2.2.1.symm, hcfg.2.2.2.symm⟩ (by rw [hcfg.2.2.2]; exact hd) _ hbwd _ _ (hg i hi (by omega)))
  have hB : (B1.map fun b => forget (carryBlock R v b)).Perm (B2.map forget) := by
    refine perm_of_pair ?_ f1 f2 hK
    intro k _ b b' hb hb'
    have := PairOf.unique (c := D.place) hv' _ _ _ (pair_move hR hcfg hd v hfwd _ _ hb) hb'
    exact this
  have hE : (((everyone C.place.g.n q.P).map seen).map (move R v)).Perm ((everyone D.place.g.n q'.P).map seen) := by
    rw [everyone_seen, everyone_seen]
    exact hV
  have l2' : List.Forall₂ (fun (p : Sylinder × ℤ) b => LinkOf C.link D.place ((all D.place.g.n q'.P).map seen) (seen p.1, p.2) (forget b))
      (linkPairs D.linkMap (everyone D.place.g.n q'.P)) N2 := by
    refine l2.imp fun k b hb => ?_
    rw [show D.link = C.link from hp.physics.link] at hb
    exact hb
  have hN : (N1.map fun b => forget (carryBlock R v b)).Perm (N2.map forget) := by
    have hkk : (((linkPairs C.linkMap (everyone C.place.g.n q.P)).map fun p => (seen p.1, p.2)).map fun p : View × ℤ => (move R v p.1, p.2)).Perm
        ((linkPairs D.linkMap (everyone D.place.g.n q'.P)).map fun p => (seen p.1, p.2)) := by
      rw [Layout.linkPairs_seen, Layout.linkPairs_seen]
      refine List.Perm.trans ?_ (hE.flatMap_right _)
      rw [List.map_flatMap, List.flatMap_map, List.flatMap_map, List.flatMap_map]
      refine List.Perm.flatMap_left _ fun x _ => ?_
      rw [List.map_map]
      have hl : D.linkMap.Perm C.linkMap := hp.physics.linkMap
      have : (Links.nexts C.linkMap (seen x).1.1).Perm (Links.nexts D.linkMap (seen x).1.1) := by
        unfold Links.nexts
        exact ((hl.filter _).map _).symm
      exact this.map _
    refine perm_of_pair (R := fun p b => ∃ w g, p = (move R v w, g) ∧ LinkOf C.link C.place ((all C.place.g.n q.P).map seen) (w, g) (forget b))
      (R' := fun p b => LinkOf C.link D.place ((all D.place.g.n q'.P).map seen) p (forget b)) ?_ ?_ (List.forall₂_map_left_iff.2 l2') hkk
    · rintro _ - b b' ⟨w, g, rfl, hb⟩ hb'
      have := link_move (cfg := C.link) hR (fun k => by rw [h.linkBox.1]; exact hflat k) hv' v hfwd w g _ _ hb hb'
      rw [forget_carry]
      exact this
    · rw [List.map_map, List.forall₂_map_left_iff]
      exact l1.imp fun p b hb => ⟨seen p.1, p.2, rfl, hb⟩
  refine (e1.map _).trans (List.Perm.trans ?_ (e2.map forget).symm)
  simp only [List.map_append]
  refine (hB.append ?_).append hN
  obtain ⟨M, hM, hf⟩ := hp.bounds
  rw [List.map_flatMap, List.map_flatMap]
  refine List.Perm.trans ?_ (hM.flatMap_right _)
  clear hB hN hK l2' l1 l2 e1 e2 f1 f2 c1 c2 hM
  revert hf
  generalize C.bounds = L
  intro hf
  induction hf with
  | nil => exact List.Perm.refl _
  | @cons b b' L M hb _ ih =>
    rw [List.flatMap_cons, List.flatMap_cons]
    refine List.Perm.append ?_ ih
    rw [List.map_flatMap, List.map_flatMap]
    rw [List.map_map] at hE
    refine flatMap_perm hE _ _ fun x hx y hy hxy => List.Perm.of_eq ?_
    obtain ⟨x1, x2'⟩ := Layout.sizes C hq hx
    obtain ⟨y1, y2⟩ := Layout.sizes D hq' hy
    have hk : kind y = kind x := (congrArg Prod.fst hxy).symm
    have hkk : (seen y).1 = (seen x).1 := hk
    rw [show D.place.colBuf = C.place.colBuf from hcfg.2.2.1]
    exact (bodyBlocks_move hR v b b' hb C.place.colBuf x y hk (congrArg (fun w : View => w.2.1) hxy).symm (congrArg (fun w : View => w.2.2) hxy).symm
      (by rw [x1, y1, hkk, hcfg.1]) (by rw [x2', y2, hkk, hcfg.2.1])).symm

/-- C115, start.  One program is given bodies, another the same bodies, all turned or mirrored by the orthogonal matrix `R` and displaced by `v`, each in any order and on any of its ranks; no direction is periodic.
When both have distributed the bodies, those of one are still those of the other, turned and displaced. -/
theorem C115_start (hflat : ∀ k, pbc k = false) (h : Sim.Sound C pbc low high P) (h' : Sim.Sound D pbc low high Q) (hmove : Moved R v (all C.place.g.n P) (all D.place.g.n Q))
    (hbig : ∀ b ∈ all C.place.g.n P, ∀ k, |Near.comp b.pos k| < Stats.largeFloat) (hbig' : ∀ b ∈ all D.place.g.n Q, ∀ k, |Near.comp b.pos k| < Stats.largeFloat)
    (junk junk' : ℕ → Box) (x y x' y' : Place.Exec) (s1 s2 t1 t2 : Place.Sys) (hx : Place.Valid C.place x) (hy : Place.Valid C.place y)
    (hx' : Place.Valid D.place x') (hy' : Place.Valid D.place y')
    (h1 : Place.DecomposeDomain C.place x ⟨⟨true, junk⟩, P⟩ s1) (h2 : Place.ExchangeSylinder C.place y s1 s2)
    (h1' : Place.DecomposeDomain D.place x' ⟨⟨true, junk'⟩, Q⟩ t1) (h2' : Place.ExchangeSylinder D.place y' t1 t2) :
    Moved R v (all C.place.g.n s2.P) (all D.place.g.n t2.P) ∧ (∀ b ∈ all C.place.g.n s2.P, ∀ k, |Near.comp b.pos k| < Stats.largeFloat) ∧
      ∀ b ∈ all D.place.g.n t2.P, ∀ k, |Near.comp b.pos k| < Stats.largeFloat := by
  obtain ⟨e1, e2⟩ := Layout.start_seen h hx hy h1 h2 fun b hb k _ => hbig b hb k
  obtain ⟨f1, f2⟩ := Layout.start_seen h' hx' hy' h1' h2' fun b hb k _ => hbig' b hb k
  rw [Rigid.home_flat hflat] at e1 f1
  exact ⟨Rigid.moved_iff.2 ((e1.map _).trans ((Rigid.moved_iff.1 hmove).trans f1.symm)), fun b hb k => e2 b hb k (hflat k), fun b hb k => f2 b hb k (hflat k)⟩

/-- C115, constraints.  Two programs simulate the same, each in a run of its own with any ranks and threads; no direction is periodic; the boundaries of one are those of the other turned or
mirrored by the orthogonal matrix `R` and displaced by `v` (`Turned`).  When the bodies of one are those of the other, turned and displaced, the same is true when the next step starts, and the constraints of the step
of one are those of the other, turned and displaced: the same bodies, separations, first guesses and stiffnesses, with directions, points and stresses that are turned with the bodies. -/
theorem C115_constraints (hflat : ∀ k, pbc k = false) (hR : Orth R) (h : Sim.Sound C pbc low high P) (h' : Sim.Sound D pbc low high Q) (hp : Turned R v C D)
    (hid : ((all C.place.g.n P).map Sylinder.gid).Nodup)
    (fl fl' : ℝ → ℝ) (k k' : ℕ) (s t : Sim.State) (hr : Sim.Run (Sim.Ok pbc low high) fl C₀ B C P k s) (hr' : Sim.Run (Sim.Ok pbc low high) fl' D₀ E D Q k' t)
    (hmove : Moved R v (all C.place.g.n s.sys.P) (all D.place.g.n t.sys.P))
    (hbig : ∀ b ∈ all C.place.g.n s.sys.P, ∀ k, |Near.comp b.pos k| < Stats.largeFloat) (hbig' : ∀ b ∈ all D.place.g.n t.sys.P, ∀ k, |Near.comp b.pos k| < Stats.largeFloat)
    (pre pre' : Bool) (q q' : Place.Sys) (ranks ranks' : List RankIn) (out out' : Out) (s' t' : Sim.State) (hs : Sim.Step C fl pre s q ranks out s')
    (hs' : Sim.Step D fl' pre' t q' ranks' out' t') :
    Moved R v (all C.place.g.n q.P) (all D.place.g.n q'.P) ∧ ((constraints ranks).map fun b => forget (carryBlock R v b)).Perm ((constraints ranks').map forget) := by
  have hV := Rigid.start hflat h h' hp.physics.mono.1.1 hp.physics.mono.2.1 (Sim.run_inv hr) (Sim.run_inv hr') hmove hbig hbig' hs.prepare hs'.prepare
  exact ⟨Rigid.moved_iff.2 hV, Rigid.constraints_perm hflat hR h h' hp hid (hs.prepared h (Sim.run_inv hr)) (hs'.prepared h' (Sim.run_inv hr')) hs hs' hV⟩

/-- C115, motion.  Take steps as in `C115_constraints`, both without Brownian motion, the given forces and velocities of one being those of the other turned by `R` (torques and
angular velocities by `spin`, so that with a reflection they also change their sense), in which both solvers
converged, each to its own tolerance, with no spring or rigid link at the cap of `-10⁸`.  Then the velocities and angular velocities of one are those of the other, turned in this way, up to what the
tolerances leave open, with the same bound as in `C100_motion`. -/
theorem C115_motion (hflat : ∀ k, pbc k = false) (hR : Orth R) (h : Sim.Sound C pbc low high P) (h' : Sim.Sound D pbc low high Q) (hp : Turned R v C D)
    (hid : ((all C.place.g.n P).map Sylinder.gid).Nodup)
    (fl fl' : ℝ → ℝ) (k k' : ℕ) (s t : Sim.State) (hr : Sim.Run (Sim.Ok pbc low high) fl C₀ B C P k s) (hr' : Sim.Run (Sim.Ok pbc low high) fl' D₀ E D Q k' t)
    (hmove : Moved R v (all C.place.g.n s.sys.P) (all D.place.g.n t.sys.P))
    (hbig : ∀ b ∈ all C.place.g.n s.sys.P, ∀ k, |Near.comp b.pos k| < Stats.largeFloat) (hbig' : ∀ b ∈ all D.place.g.n t.sys.P, ∀ k, |Near.comp b.pos k| < Stats.largeFloat)
    (pre pre' : Bool) (q q' : Place.Sys) (ranks ranks' : List RankIn) (out out' : Out) (s' t' : Sim.State) (hs : Sim.Step C fl pre s q ranks out s')
    (hs' : Sim.Step D fl' pre' t q' ranks' out' t')
    (hT : pre = true ∨ C.mob.KBT ≤ 0) (hT' : pre' = true ∨ D.mob.KBT ≤ 0) (hfree : C.mob.sylinderFixed = false) (hfree' : D.mob.sylinderFixed = false)
    (htol : 0 ≤ C.ctl.res) (htol' : 0 ≤ D.ctl.res) (res res' : ℝ) (hc : Sim.Converged C fl out res) (hc' : Sim.Converged D fl' out' res')
    (hlow : ∀ p ∈ out.pools, ∀ b ∈ p.flatten, b.bilateral = true → fl (-(10 : ℝ) ^ 8 + BCQP.dblEps * 100) ≤ b.gamma)
    (hlow' : ∀ p ∈ out'.pools, ∀ b ∈ p.flatten, b.bilateral = true → fl' (-(10 : ℝ) ^ 8 + BCQP.dblEps * 100) ≤ b.gamma)
    (G V : ℤ → V3 × V3) (hG : Loads C.place.g.n q ranks G V) (hG' : Loads D.place.g.n q' ranks' (fun g => (turn R (G g).1, spin R (G g).2)) (fun g => (turn R (V g).1, spin R (V g).2)))
    (U W U' W' : ℤ → V3) (hU : Velocities (all C.place.g.n s'.sys.P) U W) (hU' : Velocities (all D.place.g.n t'.sys.P) U' W') :
    (∀ x ∈ all C.place.g.n q.P, x.isImmovable = true → turn R (U x.gid) = U' x.gid ∧ spin R (W x.gid) = W' x.gid) ∧
    C.mob.dt * ((all C.place.g.n q.P).map fun x => lag C.mob.viscosity x (turn R (U x.gid) - U' x.gid, spin R (W x.gid) - W' x.gid)).sum ≤
      (((constraints ranks).zip ((out.pools.flatMap fun p => p.flatten).map Block.gamma)).map fun x =>
        loose C.mob.dt C.ctl.res D.ctl.res |fl (BCQP.dblEps * 100)| x.1 (x.1.delta0 + C.mob.dt * gapOf U W x.1) x.2).sum +
      (((constraints ranks').zip ((out'.pools.flatMap fun p => p.flatten).map Block.gamma)).map fun x =>
        loose C.mob.dt D.ctl.res C.ctl.res |fl' (BCQP.dblEps * 100)| x.1 (x.1.delta0 + C.mob.dt * gapOf U' W' x.1) x.2).sum := by
  have hq := hs.prepared h (Sim.run_inv hr)
  have hq' := hs'.prepared h' (Sim.run_inv hr')
  obtain ⟨hV, hcon⟩ := C115_constraints hflat hR h h' hp hid fl fl' k k' s t hr hr' hmove hbig hbig' pre pre' q q' ranks ranks' out out' s' t' hs hs'
  obtain ⟨a1, a2, a3, a4⟩ := one h hs hq hfree hc hlow (fun r hrn i x hx => by
    obtain ⟨rk, D, u, g1, g2, g3, g4, -, g5⟩ := (Layout.moving h hp.physics.mono.1.2 hfree hr hs hT r hrn).2 i x hx
    exact ⟨rk, D, u, g1, g2, g3, congrArg Prod.fst g4, g5⟩) hU hG
  obtain ⟨b1, b2, b3, b4⟩ := one h' hs' hq' hfree' hc' hlow' (fun r hrn i x hx => by
    obtain ⟨rk, D, u, g1, g2, g3, g4, -, g5⟩ := (Layout.moving h' hp.physics.mono.2.2 hfree' hr' hs' hT' r hrn).2 i x hx
    exact ⟨rk, D, u, g1, g2, g3, congrArg Prod.fst g4, g5⟩) hU' hG'
  obtain ⟨last, -, -, hlt, -⟩ := hc
  obtain ⟨last', -, -, hlt', -⟩ := hc'
  rw [show D.mob.viscosity = C.mob.viscosity from hp.physics.viscosity] at b1
  rw [show D.mob.dt = C.mob.dt from hp.physics.dt] at b3
  have hpc : (((((constraints ranks).zip ((out.pools.flatMap fun p => p.flatten).map Block.gamma)).map Prod.fst)).map fun b => forget (carryBlock R v b)).Perm
      ((((constraints ranks').zip ((out'.pools.flatMap fun p => p.flatten).map Block.gamma)).map Prod.fst).map forget) := by
    rw [a4, b4]
    exact hcon
  have hval : ∀ x ∈ everyone C.place.g.n q.P, Valid x := fun x hx => by
    obtain ⟨r, hrn, hx⟩ := mem_everyone.1 hx
    exact hq.valid h hrn hx
  have hEE : (((everyone C.place.g.n q.P).map seen).map (move R v)).Perm ((everyone D.place.g.n q'.P).map seen) := by
    rw [everyone_seen, everyone_seen]
    exact Rigid.moved_iff.1 hV
  obtain ⟨c1, c2⟩ := Rigid.close hR v h.dt hval hEE hpc htol htol' hlt.le hlt'.le a1 b1 a2 b2 a3 b3
  constructor
  · intro x hx him
    have : seen x ∈ (everyone C.place.g.n q.P).map seen := by rw [everyone_seen]; exact List.mem_map_of_mem hx
    obtain ⟨y, hy, hyx⟩ := List.mem_map.1 this
    have e1 : y.gid = x.gid := by have := congrArg (fun v : View => v.1.1) hyx; exact this
    have e2 : y.isImmovable = x.isImmovable := by have := congrArg (fun v : View => v.1.2.2.1) hyx; exact this
    rw [← e1]
    exact c1 y hy (e2.trans him)
  · rw [Layout.map_seen (everyone_seen C.place.g.n q.P) (fun x => lag C.mob.viscosity x (turn R (U x.gid) - U' x.gid, spin R (W x.gid) - W' x.gid)) (fun a b hab => by
      have e1 : a.gid = b.gid := by have := congrArg (fun v : View => v.1.1) hab; exact this
      rw [Layout.lag_seen _ (by have := congrArg Prod.fst hab; exact this), e1])] at c2
    exact c2

/-- C115, positions.  After such steps the centres of the bodies of one program are those of the other, turned and displaced, as far as the tolerances allow: for a body `u` of one and the same
body `u'` of the other, the smaller drag coefficient times the square of the deviation, plus the rotational one times the square of the difference of the turns that were made, is at most `dt`
times the right hand side of `C115_motion`. -/
theorem C115_positions (hflat : ∀ k, pbc k = false) (hR : Orth R) (h : Sim.Sound C pbc low high P) (h' : Sim.Sound D pbc low high Q) (hp : Turned R v C D)
    (hid : ((all C.place.g.n P).map Sylinder.gid).Nodup)
    (fl fl' : ℝ → ℝ) (k k' : ℕ) (s t : Sim.State) (hr : Sim.Run (Sim.Ok pbc low high) fl C₀ B C P k s) (hr' : Sim.Run (Sim.Ok pbc low high) fl' D₀ E D Q k' t)
    (hmove : Moved R v (all C.place.g.n s.sys.P) (all D.place.g.n t.sys.P))
    (hbig : ∀ b ∈ all C.place.g.n s.sys.P, ∀ k, |Near.comp b.pos k| < Stats.largeFloat) (hbig' : ∀ b ∈ all D.place.g.n t.sys.P, ∀ k, |Near.comp b.pos k| < Stats.largeFloat)
    (pre pre' : Bool) (q q' : Place.Sys) (ranks ranks' : List RankIn) (out out' : Out) (s' t' : Sim.State) (hs : Sim.Step C fl pre s q ranks out s')
    (hs' : Sim.Step D fl' pre' t q' ranks' out' t')
    (hT : pre = true ∨ C.mob.KBT ≤ 0) (hT' : pre' = true ∨ D.mob.KBT ≤ 0) (hfree : C.mob.sylinderFixed = false) (hfree' : D.mob.sylinderFixed = false)
    (htol : 0 ≤ C.ctl.res) (htol' : 0 ≤ D.ctl.res) (res res' : ℝ) (hc : Sim.Converged C fl out res) (hc' : Sim.Converged D fl' out' res')
    (hlow : ∀ p ∈ out.pools, ∀ b ∈ p.flatten, b.bilateral = true → fl (-(10 : ℝ) ^ 8 + BCQP.dblEps * 100) ≤ b.gamma)
    (hlow' : ∀ p ∈ out'.pools, ∀ b ∈ p.flatten, b.bilateral = true → fl' (-(10 : ℝ) ^ 8 + BCQP.dblEps * 100) ≤ b.gamma)
    (G V : ℤ → V3 × V3) (hG : Loads C.place.g.n q ranks G V) (hG' : Loads D.place.g.n q' ranks' (fun g => (turn R (G g).1, spin R (G g).2)) (fun g => (turn R (V g).1, spin R (V g).2)))
    (U W U' W' : ℤ → V3) (hU : Velocities (all C.place.g.n s'.sys.P) U W) (hU' : Velocities (all D.place.g.n t'.sys.P) U' W')
    (u u' : Sylinder) (hu : u ∈ all C.place.g.n s'.sys.P) (hu' : u' ∈ all D.place.g.n t'.sys.P) (huu : u.gid = u'.gid) :
    lag C.mob.viscosity u (turn R u.pos + v - u'.pos, C.mob.dt • (spin R u.omega - u'.omega)) ≤ C.mob.dt * (
      (((constraints ranks).zip ((out.pools.flatMap fun p => p.flatten).map Block.gamma)).map fun x =>
        loose C.mob.dt C.ctl.res D.ctl.res |fl (BCQP.dblEps * 100)| x.1 (x.1.delta0 + C.mob.dt * gapOf U W x.1) x.2).sum +
      (((constraints ranks').zip ((out'.pools.flatMap fun p => p.flatten).map Block.gamma)).map fun x =>
        loose C.mob.dt D.ctl.res C.ctl.res |fl' (BCQP.dblEps * 100)| x.1 (x.1.delta0 + C.mob.dt * gapOf U' W' x.1) x.2).sum) ∧
    (u.isImmovable = true → u'.pos = turn R u.pos + v) := by
  have hq := hs.prepared h (Sim.run_inv hr)
  have hq' := hs'.prepared h' (Sim.run_inv hr')
  obtain ⟨hV, -⟩ := C115_constraints hflat hR h h' hp hid fl fl' k k' s t hr hr' hmove hbig hbig' pre pre' q q' ranks ranks' out out' s' t' hs hs'
  obtain ⟨hfix, hsum⟩ := C115_motion hflat hR h h' hp hid fl fl' k k' s t hr hr' hmove hbig hbig' pre pre' q q' ranks ranks' out out' s' t' hs hs' hT hT' hfree hfree' htol htol' res res' hc hc'
    hlow hlow' G V hG hG' U W U' W' hU hU'
  obtain ⟨x, hx, hxv, x1, x2⟩ := Layout.before h hp.physics.mono.1.2 hfree hr hs hT hu
  obtain ⟨x', hx', -, y1, y2⟩ := Layout.before h' hp.physics.mono.2.2 hfree' hr' hs' hT' hu'
  have g1 : u.gid = x.gid := congrArg Prod.fst x1
  have g2 : u'.gid = x'.gid := congrArg Prod.fst y1
  have hpos : x'.pos = turn R x.pos + v := by
    obtain ⟨w, hw, hwx⟩ := List.mem_map.1 ((Rigid.moved_iff.1 hV).mem_iff.2 (List.mem_map_of_mem hx'))
    obtain ⟨y, hy, rfl⟩ := List.mem_map.1 hw
    have hnd : ((all C.place.g.n q.P).map Sylinder.gid).Nodup := by
      have := views_nodup hq hid
      rw [List.map_map] at this
      exact this
    have hyx : y = x := by
      refine List.inj_on_of_nodup_map hnd hy hx ?_
      have e : y.gid = x'.gid := congrArg (fun w : View => w.1.1) hwx
      rw [e, ← g2, ← huu, g1]
    rw [← hyx]
    exact (congrArg (fun w : View => w.2.1) hwx).symm
  obtain ⟨v1, v2⟩ := hU u hu
  obtain ⟨v3, v4⟩ := hU' u' hu'
  have hdt : D.mob.dt = C.mob.dt := hp.physics.dt
  have hdiff : turn R u.pos + v - u'.pos = C.mob.dt • (turn R u.vel - u'.vel) := by
    rw [x2, y2, hpos, hdt, turn_add, turn_smul]
    ext <;> simp <;> ring
  refine ⟨?_, ?_⟩
  · rw [hdiff, Layout.lag_smul (T := (turn R u.vel - u'.vel, spin R u.omega - u'.omega)), Layout.lag_seen _ x1, pow_two, mul_assoc]
    refine mul_le_mul_of_nonneg_left (le_trans (mul_le_mul_of_nonneg_left ?_ h.dt.le) hsum) h.dt.le
    have hone : lag C.mob.viscosity x (turn R u.vel - u'.vel, spin R u.omega - u'.omega) = lag C.mob.viscosity x (turn R (U x.gid) - U' x.gid, spin R (W x.gid) - W' x.gid) := by
      rw [← g1, v1, v2, huu, v3, v4]
    rw [hone]
    refine List.single_le_sum ?_ _ (List.mem_map_of_mem (f := fun x => lag C.mob.viscosity x (turn R (U x.gid) - U' x.gid, spin R (W x.gid) - W' x.gid)) hx)
    intro y hy
    obtain ⟨z, hz, rfl⟩ := List.mem_map.1 hy
    have hz2 : seen z ∈ (everyone C.place.g.n q.P).map seen := by rw [everyone_seen]; exact List.mem_map_of_mem hz
    obtain ⟨z', hz', hzz⟩ := List.mem_map.1 hz2
    obtain ⟨r, hrn, hz'⟩ := mem_everyone.1 hz'
    rw [← Layout.lag_seen _ (a := z') (by have := congrArg Prod.fst hzz; exact this)]
    exact Layout.lag_nonneg h.viscosity (hq.valid h hrn hz') _
  · intro him
    have hi : x.isImmovable = true := by
      have : u.isImmovable = x.isImmovable := congrArg (fun v : ℤ × ℤ × Bool × ℝ × ℝ => v.2.2.1) x1
      rw [← this]; exact him
    obtain ⟨f1, -⟩ := hfix x hx hi
    rw [← g1, v1, huu, v3] at f1
    rw [x2, y2, hpos, hdt, turn_add, turn_smul, f1]
    ext <;> simp <;> ring

end

/-- C115, what orthogonal matrices are.  An orthogonal matrix is a rotation or a reflection; a rotation turns angular velocities and torques as it turns velocities and forces, a reflection also
changes their sign. -/
theorem C115_orthogonal (R : Collector.Mat3) : (Orth R → Rotation R ∨ Reflection R) ∧ (Rotation R → ∀ x, spin R x = turn R x) ∧ (Reflection R → ∀ x, spin R x = -turn R x) := by
  refine ⟨fun h => ?_, fun h x => ?_, fun h x => ?_⟩
  · rcases mul_self_eq_one_iff.1 h.det_sq with hd | hd
    · exact .inl ⟨h, hd⟩
    · exact .inr ⟨h, hd⟩
  · unfold spin
    rw [h.det]
    ext <;> simp
  · unfold spin
    rw [h.det]
    ext <;> simp

/-- C115, boundaries.  A boundary is turned and displaced by doing so with its centre and turning its normal or axis. -/
theorem C115_boundaries (R : Collector.Mat3) (hR : Orth R) (v : V3) :
    (∀ b : Boundary.SphereShell, Carried R v (.sphere b) (.sphere { b with center := turn R b.center + v })) ∧
    (∀ b : Boundary.Wall, Carried R v (.wall b) (.wall ⟨turn R b.center + v, turn R b.norm⟩)) ∧
    (∀ b : Boundary.Tube, Carried R v (.tube b) (.tube { b with center := turn R b.center + v, axis := turn R b.axis })) := by
  have e1 : ∀ p c : V3, turn R p + v - (turn R c + v) = turn R (p - c) := fun p c => by rw [Displace.add_sub_add, turn_sub]
  have e2 : ∀ p q : V3, turn R p + (turn R q + v) = turn R (p + q) + v := by intro p q; rw [turn_add]; ext <;> simp <;> ring
  have e6 : ∀ (P : Prop) [Decidable P] (a b : V3), (if P then turn R a else turn R b) = turn R (if P then a else b) := by intro P _ a b; split_ifs <;> rfl
  refine ⟨fun b p => ?_, fun b p => ?_, fun b p => ?_⟩
  · show Boundary.SphereShell.project _ _ = _
    unfold BoundaryCol.Bound.project Boundary.SphereShell.project
    simp only [e1, norm_turn hR, ← turn_smul, ← turn_sub, e2, ← turn_neg, e6]
    split_ifs <;> rfl
  · show some (Boundary.Wall.project _ _) = some _
    unfold Boundary.Wall.project
    congr 1
    simp only [e1, dot_turn hR, ← turn_smul, turn_sub_right, ← turn_neg, e6]
  · show some (Boundary.Tube.project _ _) = some _
    unfold Boundary.Tube.project
    congr 1
    simp only [e1, dot_turn hR, ← turn_smul, turn_add_right, normalized_turn hR, norm_turn hR, ← turn_neg, e6]

namespace Rigid
open Rest

/-- A body, turned and displaced; `o` is its new orientation. -/
noncomputable def put (R : Collector.Mat3) (o : Quat) (v : V3) (b : Sylinder) : Sylinder := { b with pos := turn R b.pos + v, orientation := o }

/-- The spheres, turned and displaced. -/
noncomputable def balls (R : Collector.Mat3) (o : Quat) (v : V3) : ℕ → List Sylinder := fun r => (twoBalls r).map (put R o v)

theorem balls_all (R : Collector.Mat3) (o : Quat) (v : V3) (n : ℕ) : all n (balls R o v) = (all n twoBalls).map (put R o v) := by
  unfold all balls
  rw [List.map_flatMap]

/-- They can be simulated too. -/
theorem balls_sound {C : Sim.Cfg} (h : Sim.Sound C (fun _ => false) (fun _ => 0) (fun _ => 1) twoBalls) (hmono : C.place.monolayer = false ∧ C.mob.monolayer = false)
    (hper : ∀ k, C.place.d.periodic k = false) (R : Collector.Mat3) {o : Quat} (ho : Spec.UnitQuat o) (v : V3) : Sim.Sound C (fun _ => false) (fun _ => 0) (fun _ => 1) (balls R o v) := by
  have hall := balls_all R o v C.place.g.n
  refine ⟨h.place, .inl hmono, ?_, h.viscosity, h.dt, ?_, ?_, ?_, ?_, ?_, h.linkBox⟩
  · have e : Place.total (balls R o v) C.place.g.n = Place.total twoBalls C.place.g.n := Place.total_congr _ fun r hr => by rw [balls, List.length_map]
    exact h.enough.trans_eq e.symm
  · intro b hb
    rw [hall] at hb
    obtain ⟨a, ha, rfl⟩ := List.mem_map.1 hb
    have := h.valid a ha
    exact ⟨this.radius, this.length, ho⟩
  · intro b hb
    rw [hall] at hb
    obtain ⟨a, ha, rfl⟩ := List.mem_map.1 hb
    have := h.body a ha
    exact ⟨⟨this.1.1, this.1.2, rot_ez_unit o ho⟩, this.2, this.3, this.4, this.5⟩
  · refine ⟨h.fdps.1, h.fdps.2, h.fdps.3, fun k hk => ?_, fun hk => ?_⟩
    · rw [hper k] at hk
      simp at hk
    · rw [hper 0] at hk
      simp at hk
  · obtain ⟨R, r1, r2, r3⟩ := h.largest
    refine ⟨R, ?_, r2, r3⟩
    intro b hb
    rw [hall] at hb
    obtain ⟨a, ha, rfl⟩ := List.mem_map.1 hb
    exact r1 a ha
  · intro l hl
    obtain ⟨b, hb, e⟩ := h.links l hl
    refine ⟨put R o v b, ?_, e⟩
    rw [hall]
    exact List.mem_map_of_mem hb

/-- They violate no constraint. -/
theorem balls_calm {C : Sim.Cfg} (hn : C.place.g.n = 2) (hper : ∀ k, C.place.d.periodic k = false) (hb : C.bounds = []) (hl : C.linkMap = [(7, 9)]) (hp : ∀ k, C.link.pbc k = false)
    (hgap : C.link.linkGap = 0.02) {R : Collector.Mat3} (hR : Orth R) {o : Quat} (v : V3)
    (hv : ∀ (k : Fin 3) (x : ℝ), |x| ≤ 1 → |Near.comp (turn R ⟨x, 0.5, 0.5⟩ + v) k| < Stats.largeFloat) : Calm C (all C.place.g.n (balls R o v)) := by
  have hmem : ∀ b ∈ all C.place.g.n (balls R o v), b = put R o v (NoOverlap.ball 7 0 0.4) ∨ b = put R o v (NoOverlap.ball 9 0 0.6) := by
    intro b hb
    rw [hn, balls_all, twoBalls_all] at hb
    simpa using hb
  have hnorm : V3.norm (⟨0.2, 0, 0⟩ : V3) = 0.2 ∧ V3.norm (⟨-0.2, 0, 0⟩ : V3) = 0.2 := by
    constructor
    · have e : V3.normSq (⟨0.2, 0, 0⟩ : V3) = 0.2 ^ 2 := by norm_num [V3.normSq, V3.dot]
      rw [V3.norm, e, Real.sqrt_sq (by norm_num)]
    · have e : V3.normSq (⟨-0.2, 0, 0⟩ : V3) = 0.2 ^ 2 := by norm_num [V3.normSq, V3.dot]
      rw [V3.norm, e, Real.sqrt_sq (by norm_num)]
  have hcore : ∀ g x P, Spec.Near.Core (EP.copyFromFP (put R o v (NoOverlap.ball g 0 x))) P → P = turn R ⟨x, 0.5, 0.5⟩ + v := by
    rintro g x P (⟨-, h⟩ | ⟨h, -⟩)
    · exact h
    · exact absurd (NoOverlap.ball_sphere g 0 x) h
  have hrad : ∀ g x, Spec.Near.Rad (EP.copyFromFP (put R o v (NoOverlap.ball g 0 x))) = 0.09 := fun g x => NoOverlap.ball_rad g 0 x
  refine ⟨?_, ?_, ?_, ?_⟩
  · have key : ∀ g x, |x| ≤ (1 : ℝ) → ∀ k, |Near.comp (put R o v (NoOverlap.ball g 0 x)).pos k| < Stats.largeFloat := by
      intro g x hx k
      exact hv k x hx
    intro x hx k
    rcases hmem x hx with rfl | rfl <;> exact key _ _ (by norm_num) k
  · intro x hx y hy hg m h0 h1 h2 P Q hP hQ
    have hm : away C m = 0 := by
      unfold away
      rw [h0 (hper 0), h1 (hper 1), h2 (hper 2)]
      ext <;> simp
    rw [hm]
    rcases hmem x hx with rfl | rfl <;> rcases hmem y hy with rfl | rfl
    · exact absurd rfl hg
    · rw [hcore _ _ _ hP, hcore _ _ _ hQ, hrad, hrad, add_zero', Displace.add_sub_add, ← turn_sub, norm_turn hR, show (⟨0.4, 0.5, 0.5⟩ - ⟨0.6, 0.5, 0.5⟩ : V3) = ⟨-0.2, 0, 0⟩ by ext <;> simp; norm_num, hnorm.2]
      norm_num
    · rw [hcore _ _ _ hP, hcore _ _ _ hQ, hrad, hrad, add_zero', Displace.add_sub_add, ← turn_sub, norm_turn hR, show (⟨0.6, 0.5, 0.5⟩ - ⟨0.4, 0.5, 0.5⟩ : V3) = ⟨0.2, 0, 0⟩ by ext <;> simp; norm_num, hnorm.1]
      norm_num
    · exact absurd rfl hg
  · rw [hb]
    intro b hb
    cases hb
  · rw [hl]
    intro e he x hx z hz ex ez D hD
    obtain rfl : e = (7, 9) := by simpa using he
    have hD0 : z.pos + D = z.pos := comp_ext fun k => (hD k).1 (hp k)
    have hx7 : x = put R o v (NoOverlap.ball 7 0 0.4) := by
      rcases hmem x hx with h | h
      · exact h
      · rw [h] at ex
        exact absurd (show (9 : ℤ) = 7 from ex) (by norm_num)
    have hz9 : z = put R o v (NoOverlap.ball 9 0 0.6) := by
      rcases hmem z hz with h | h
      · rw [h] at ez
        exact absurd (show (7 : ℤ) = 9 from ez) (by norm_num)
      · exact h
    have e1 : Spec.Springs.minusEnd z D = turn R ⟨0.6, 0.5, 0.5⟩ + v := by
      unfold Spec.Springs.minusEnd
      rw [hD0, hz9]
      show (turn R ⟨0.6, 0.5, 0.5⟩ + v : V3) - ((0 : ℝ) / 2) • _ = _
      ext <;> simp
    have e2 : Spec.Springs.plusEnd x = turn R ⟨0.4, 0.5, 0.5⟩ + v := by
      unfold Spec.Springs.plusEnd
      rw [hx7]
      show (turn R ⟨0.4, 0.5, 0.5⟩ + v : V3) + ((0 : ℝ) / 2) • _ = _
      ext <;> simp
    rw [e1, e2, hgap, Displace.add_sub_add, ← turn_sub, norm_turn hR, show (⟨0.6, 0.5, 0.5⟩ - ⟨0.4, 0.5, 0.5⟩ : V3) = ⟨0.2, 0, 0⟩ by ext <;> simp; norm_num, hnorm.1, hx7, hz9]
    show (0.2 : ℝ) = 0.09 + 0.09 + 0.02
    norm_num

/-- A step with these spheres. -/
theorem balls_step {C : Sim.Cfg} {c : Place.Cfg} (hC : C = Momentum.linkedCfg c) (h0 : Sim.Sound C (fun _ => false) (fun _ => 0) (fun _ => 1) twoBalls)
    (hmono : C.place.monolayer = false ∧ C.mob.monolayer = false) (hn : C.place.g.n = 2) (hper : ∀ k, C.place.d.periodic k = false)
    (k1 : c.diameterColRatio = 1) (k2 : c.lengthColRatio = 1) (D : Draws) {R : Collector.Mat3} (hR : Orth R) {o : Quat} (ho : Spec.UnitQuat o) (v : V3)
    (hv : ∀ (k : Fin 3) (x : ℝ), |x| ≤ 1 → |Near.comp (turn R ⟨x, 0.5, 0.5⟩ + v) k| < Stats.largeFloat) :
    ∃ (s1 s2 : Place.Sys) (q : Place.Sys) (ranks : List RankIn) (out : Out) (s' : Sim.State),
      Place.DecomposeDomain C.place (Place.plain C.place) ⟨⟨true, fun _ => C.place.root⟩, balls R o v⟩ s1 ∧ Place.ExchangeSylinder C.place (Place.plain C.place) s1 s2 ∧
      Sim.Step C id false ⟨s2, Links.Dir.empty, 0⟩ q ranks out s' ∧ Sim.Converged C id out 0 ∧ (∀ p ∈ out.pools, ∀ b ∈ p.flatten, b.gamma = 0) ∧
      ∀ rk ∈ ranks, rk.force = none ∧ rk.velPart = none := by
  have h := balls_sound h0 hmono hper R ho v
  have hb0 : C.bounds = [] := by rw [hC]; rfl
  have hch : C.ctl.choice ≠ 1 := by rw [hC]; simp [Momentum.linkedCfg, twoBallsCfg]
  have hres : 0 < C.ctl.res := by rw [hC]; show (0 : ℝ) < 1 / 10 ^ 5; norm_num
  have hcold : C.mob.KBT ≤ 0 := by rw [hC]; exact le_refl (0 : ℝ)
  have hcalm : Calm C (all C.place.g.n (balls R o v)) := balls_calm hn hper hb0 (by rw [hC]; rfl) (fun k => by rw [hC]; rfl) (by rw [hC]; rfl) hR v hv
  obtain ⟨s1, s2, d1, d2⟩ := (C83_progress C.place _ _ _ h.place (balls R o v) h.enough).1 (fun _ => C.place.root) _ _ (Place.plain_valid _) (Place.plain_valid _)
  have hrun : Sim.Run (Sim.Ok (fun _ => false) (fun _ => 0) (fun _ => 1)) id C (balls R o v) C (balls R o v) 0 ⟨s2, Links.Dir.empty, 0⟩ :=
    .start _ _ _ s1 s2 h (Place.plain_valid _) (Place.plain_valid _) d1 d2
  have h2 : (all C.place.g.n (balls R o v)).length = 2 := by rw [balls_all, hn, twoBalls_all]; rfl
  obtain ⟨q, ranks, out, s', hst, hf⟩ := Momentum.acts none h hn hper hb0 (by rw [hC]; rfl) hch hres (by rw [hC]; exact fun l => (twoBalls_pairs c l).1) h2 D hrun
  have hfree : C113_Free C (balls R o v) ranks := ⟨fun rk hrk => ⟨(hf rk hrk).1, (hf rk hrk).2.1⟩, by rw [h2]; norm_num, fun rk hrk => (hf rk hrk).2.2⟩
  have hq := hst.prepared h (Sim.run_inv hrun)
  obtain ⟨x, hx, hpq⟩ := hst.prepare
  obtain ⟨g1, g2, -⟩ := C113_step h hch hres hcold 0 _ hrun false q ranks out s' hst hfree (hcalm.congr fun b hb => by
    obtain ⟨u, hu, u1, u2, u3⟩ := prepare_pos h hmono.1 (Sim.run_inv hrun) hx hpq b hb
    obtain ⟨a, ha, a1, a2, a3⟩ := start_pos h (Place.plain_valid _) (Place.plain_valid _) d1 d2 u hu
    obtain ⟨r, hrn, hbr⟩ := mem_all.1 hb
    obtain ⟨w, hw⟩ := hq.fresh r hrn b hbr
    have hpu : u.pos = a.pos := comp_ext fun k => (a3 k).2 rfl (hcalm.finite a ha k)
    have hk : kind b = kind a := u1.trans a1
    have hk' := hk
    simp only [kind, Prod.mk.injEq] at hk'
    have hc1 : C.place.diameterColRatio = 1 := by rw [hC]; exact k1
    have hc2 : C.place.lengthColRatio = 1 := by rw [hC]; exact k2
    have hb1 : b.radiusCollision = b.radius := by
      rw [hw]
      show w.radius * C.place.diameterColRatio = w.radius
      rw [hc1, mul_one]
    have hb2 : b.lengthCollision = b.length := by
      rw [hw]
      show w.length * C.place.lengthColRatio = w.length
      rw [hc2, mul_one]
    have ha' : a.radiusCollision = a.radius ∧ a.lengthCollision = a.length := by
      rw [balls_all, hn, twoBalls_all] at ha
      simp only [List.map_cons, List.map_nil, List.mem_cons, List.not_mem_nil, or_false] at ha
      rcases ha with rfl | rfl <;> exact ⟨rfl, rfl⟩
    refine ⟨a, ha, ⟨hk, ?_, u2.trans a2, ?_, ?_⟩⟩
    · refine comp_ext fun k => ?_
      rw [(u3 k).2 rfl (by rw [hpu]; exact hcalm.finite a ha k), hpu]
    · rw [hb1, ha'.1, hk'.2.2.2.1]
    · rw [hb2, ha'.2, hk'.2.2.2.2])
  exact ⟨s1, s2, q, ranks, out, s', d1, d2, hst, g1, g2, hfree.none⟩

/-- The rotation by 120 degrees that takes the first axis to the second, the second to the third and the third to the first. -/
def cyc : Collector.Mat3 := !![0, 0, 1; 1, 0, 0; 0, 1, 0]

theorem cyc_rotation : Rotation cyc := by
  refine ⟨⟨?_⟩, ?_⟩
  · funext i j
    fin_cases i <;> fin_cases j <;> simp [cyc, Matrix.mul_apply, Fin.sum_univ_three]
  · simp [cyc, Matrix.det_fin_three]

/-- The mirror that changes the sign of the first coordinate. -/
def mirror : Collector.Mat3 := !![-1, 0, 0; 0, 1, 0; 0, 0, 1]

theorem mirror_reflection : Reflection mirror := by
  refine ⟨⟨?_⟩, ?_⟩
  · funext i j
    fin_cases i <;> fin_cases j <;> simp [mirror, Matrix.mul_apply, Fin.sum_univ_three]
  · simp [mirror, Matrix.det_fin_three]

theorem one_orth : Orth 1 := ⟨by simp⟩

theorem far_one (k : Fin 3) (x : ℝ) (hx : |x| ≤ 1) : |Near.comp (turn 1 ⟨x, 0.5, 0.5⟩ + 0) k| < Stats.largeFloat := by
  have : (6 : ℝ) < Stats.largeFloat := by norm_num [Stats.largeFloat]
  obtain ⟨h1, h2⟩ := abs_le.1 hx
  rw [turn_one, add_zero', abs_lt]
  fin_cases k
  · exact ⟨by show _ < x; linarith, by show x < _; linarith⟩
  · exact ⟨by show _ < (0.5 : ℝ); linarith, by show (0.5 : ℝ) < _; linarith⟩
  · exact ⟨by show _ < (0.5 : ℝ); linarith, by show (0.5 : ℝ) < _; linarith⟩

theorem far_cyc (k : Fin 3) (x : ℝ) (hx : |x| ≤ 1) : |Near.comp (turn cyc ⟨x, 0.5, 0.5⟩ + ⟨3, 4, 5⟩) k| < Stats.largeFloat := by
  have : (6 : ℝ) < Stats.largeFloat := by norm_num [Stats.largeFloat]
  obtain ⟨h1, h2⟩ := abs_le.1 hx
  have e : turn cyc ⟨x, 0.5, 0.5⟩ + ⟨3, 4, 5⟩ = ⟨3.5, x + 4, 5.5⟩ := by
    ext <;> simp [turn, cyc] <;> norm_num
  rw [e, abs_lt]
  fin_cases k
  · exact ⟨by show _ < (3.5 : ℝ); linarith, by show (3.5 : ℝ) < _; linarith⟩
  · exact ⟨by show _ < x + 4; linarith, by show x + 4 < _; linarith⟩
  · exact ⟨by show _ < (5.5 : ℝ); linarith, by show (5.5 : ℝ) < _; linarith⟩

theorem far_mirror (k : Fin 3) (x : ℝ) (hx : |x| ≤ 1) : |Near.comp (turn mirror ⟨x, 0.5, 0.5⟩ + ⟨3, 4, 5⟩) k| < Stats.largeFloat := by
  have : (6 : ℝ) < Stats.largeFloat := by norm_num [Stats.largeFloat]
  obtain ⟨h1, h2⟩ := abs_le.1 hx
  have e : turn mirror ⟨x, 0.5, 0.5⟩ + ⟨3, 4, 5⟩ = ⟨3 - x, 4.5, 5.5⟩ := by
    ext <;> simp [turn, mirror] <;> norm_num
    ring
  rw [e, abs_lt]
  fin_cases k
  · exact ⟨by show _ < 3 - x; linarith, by show 3 - x < _; linarith⟩
  · exact ⟨by show _ < (4.5 : ℝ); linarith, by show (4.5 : ℝ) < _; linarith⟩
  · exact ⟨by show _ < (5.5 : ℝ); linarith, by show (5.5 : ℝ) < _; linarith⟩

end Rigid

/-- Two linked spheres, and the same turned and displaced, meet the hypotheses of C115. -/
theorem Rigid.met (D : Draws) {R : Collector.Mat3} (hR : Orth R) {o : Quat} (ho1 : Spec.UnitQuat o) (hdir : o.rot ⟨0, 0, 1⟩ = turn R ⟨0, 0, 1⟩)
    (hfar : ∀ (k : Fin 3) (x : ℝ), |x| ≤ 1 → |Near.comp (turn R ⟨x, 0.5, 0.5⟩ + ⟨3, 4, 5⟩) k| < Stats.largeFloat) : ∃ (C : Sim.Cfg) (P Q : ℕ → List Sylinder) (s s' t t' : Sim.State) (q q' : Place.Sys) (ranks ranks' : List RankIn) (out out' : Out) (U W U' W' : ℤ → V3),
    C.place.g.n = 2 ∧ C.linkMap = [(7, 9)] ∧ Sim.Sound C (fun _ => false) (fun _ => 0) (fun _ => 1) P ∧ Sim.Sound C (fun _ => false) (fun _ => 0) (fun _ => 1) Q ∧
    Turned R ⟨3, 4, 5⟩ C C ∧
    Moved R ⟨3, 4, 5⟩ (all C.place.g.n s.sys.P) (all C.place.g.n t.sys.P) ∧
    Sim.Step C id false s q ranks out s' ∧ Sim.Step C id false t q' ranks' out' t' ∧ Sim.Converged C id out 0 ∧ Sim.Converged C id out' 0 ∧
    Loads C.place.g.n q ranks (fun _ => (0, 0)) (fun _ => (0, 0)) ∧ Loads C.place.g.n q' ranks' (fun _ => (0, 0)) (fun _ => (0, 0)) ∧
    Velocities (all C.place.g.n s'.sys.P) U W ∧ Velocities (all C.place.g.n t'.sys.P) U' W' ∧
    Moved R ⟨3, 4, 5⟩ (all C.place.g.n q.P) (all C.place.g.n q'.P) ∧ ((constraints ranks).map fun b => forget (carryBlock R ⟨3, 4, 5⟩ b)).Perm ((constraints ranks').map forget) ∧
    C.mob.dt * ((all C.place.g.n q.P).map fun x => lag C.mob.viscosity x (turn R (U x.gid) - U' x.gid, spin R (W x.gid) - W' x.gid)).sum ≤
      (((constraints ranks).zip ((out.pools.flatMap fun p => p.flatten).map Block.gamma)).map fun x =>
        loose C.mob.dt C.ctl.res C.ctl.res |id (BCQP.dblEps * 100)| x.1 (x.1.delta0 + C.mob.dt * gapOf U W x.1) x.2).sum +
      (((constraints ranks').zip ((out'.pools.flatMap fun p => p.flatten).map Block.gamma)).map fun x =>
        loose C.mob.dt C.ctl.res C.ctl.res |id (BCQP.dblEps * 100)| x.1 (x.1.delta0 + C.mob.dt * gapOf U' W' x.1) x.2).sum := by
  obtain ⟨c, h, hn, hper, k1, k2, k3, k4, -⟩ := twoBalls_sound
  obtain ⟨C, hC⟩ : ∃ C, C = Momentum.linkedCfg c := ⟨_, rfl⟩
  have hn : C.place.g.n = 2 := by rw [hC]; exact hn
  have hper : ∀ k, C.place.d.periodic k = false := by rw [hC]; exact hper
  have hmono : C.place.monolayer = false ∧ C.mob.monolayer = false := by rw [hC]; exact ⟨k4, rfl⟩
  have h : Sim.Sound C (fun _ => false) (fun _ => 0) (fun _ => 1) twoBalls := by
    rw [hC]
    exact ⟨h.place, .inl ⟨k4, rfl⟩, h.enough, h.viscosity, h.dt, h.valid, h.body, h.fdps, h.largest, h.links, h.linkBox⟩
  have hb0 : C.bounds = [] := by rw [hC]; rfl
  have ho0 : Spec.UnitQuat (⟨1, 0, 0, 0⟩ : Quat) := by norm_num [Spec.UnitQuat]
  obtain ⟨s1, s2, q, ranks, out, s', a1, a2, a3, a4, a5, a6⟩ := Rigid.balls_step hC h hmono hn hper k1 k2 D Rigid.one_orth ho0 0 Rigid.far_one
  obtain ⟨t1, t2, q', ranks', out', t', b1, b2, b3, b4, b5, b6⟩ := Rigid.balls_step hC h hmono hn hper k1 k2 D hR ho1 ⟨3, 4, 5⟩ hfar
  have hS := Rigid.balls_sound h hmono hper 1 ho0 0
  have hT := Rigid.balls_sound h hmono hper R ho1 ⟨3, 4, 5⟩
  have hfin : ∀ {R : Collector.Mat3} (_ : Orth R) (o : Quat) (v : V3), (∀ (k : Fin 3) (x : ℝ), |x| ≤ 1 → |Near.comp (turn R ⟨x, 0.5, 0.5⟩ + v) k| < Stats.largeFloat) →
      ∀ b ∈ all C.place.g.n (Rigid.balls R o v), ∀ k, |Near.comp b.pos k| < Stats.largeFloat :=
    fun hR o v hv b hb k => (Rigid.balls_calm hn hper hb0 (by rw [hC]; rfl) (fun k => by rw [hC]; rfl) (by rw [hC]; rfl) hR v hv).finite b hb k
  have hgive : Moved R ⟨3, 4, 5⟩ (all C.place.g.n (Rigid.balls 1 ⟨1, 0, 0, 0⟩ 0)) (all C.place.g.n (Rigid.balls R o ⟨3, 4, 5⟩)) := by
    refine ⟨_, List.Perm.refl _, ?_⟩
    rw [Rigid.balls_all, Rigid.balls_all, List.forall₂_map_left_iff, List.forall₂_map_right_iff]
    refine List.forall₂_same.2 fun b _ => ⟨rfl, ?_, ?_⟩
    · show Quat.rot o ⟨0, 0, 1⟩ = turn R (Quat.rot ⟨1, 0, 0, 0⟩ ⟨0, 0, 1⟩)
      rw [hdir]
      congr 1
      ext <;> simp [Quat.rot, Quat.vec, V3.cross]
    · show turn R b.pos + _ = turn R (turn 1 b.pos + 0) + _
      rw [turn_one, add_zero']
  obtain ⟨g1, g2, g3⟩ := C115_start (fun _ => rfl) hS hT hgive (hfin Rigid.one_orth _ _ Rigid.far_one) (hfin hR _ _ hfar) _ _ _ _ _ _ s1 s2 t1 t2 (Place.plain_valid _) (Place.plain_valid _) (Place.plain_valid _) (Place.plain_valid _) a1 a2 b1 b2
  have hp : Turned R ⟨3, 4, 5⟩ C C :=
    ⟨⟨⟨hmono, hmono⟩, rfl, rfl, rfl, rfl, List.Perm.refl _, List.Perm.refl _, rfl, rfl⟩, ⟨[], by rw [hb0], by rw [hb0]; exact .nil⟩⟩
  have hrun : Sim.Run (Sim.Ok (fun _ => false) (fun _ => 0) (fun _ => 1)) id C (Rigid.balls 1 ⟨1, 0, 0, 0⟩ 0) C (Rigid.balls 1 ⟨1, 0, 0, 0⟩ 0) 0 ⟨s2, Links.Dir.empty, 0⟩ :=
    .start _ _ _ s1 s2 hS (Place.plain_valid _) (Place.plain_valid _) a1 a2
  have hrun' : Sim.Run (Sim.Ok (fun _ => false) (fun _ => 0) (fun _ => 1)) id C (Rigid.balls R o ⟨3, 4, 5⟩) C (Rigid.balls R o ⟨3, 4, 5⟩) 0 ⟨t2, Links.Dir.empty, 0⟩ :=
    .start _ _ _ t1 t2 hT (Place.plain_valid _) (Place.plain_valid _) b1 b2
  have hid : ∀ R o v, ((all C.place.g.n (Rigid.balls R o v)).map Sylinder.gid).Nodup := by
    intro R o v
    rw [Rigid.balls_all, hn, twoBalls_all]
    show ([7, 9] : List ℤ).Nodup
    decide
  have h0 : ∀ i, at6 (([] : List ℝ)) i = (0, 0) := fun i => Prod.ext (V3.ext (by simp [at6]) (by simp [at6]) (by simp [at6])) (V3.ext (by simp [at6]) (by simp [at6]) (by simp [at6]))
  have hload : ∀ (n : ℕ) (q : Place.Sys) (ranks : List RankIn), (∀ rk ∈ ranks, rk.force = none ∧ rk.velPart = none) → Loads n q ranks (fun _ => (0, 0)) (fun _ => (0, 0)) := by
    intro n q ranks hf r rk i x hr _
    obtain ⟨e1, e2⟩ := hf rk (List.mem_of_getElem? hr)
    rw [e1, e2]
    exact ⟨h0 i, h0 i⟩
  have hvel : ∀ l : List Sylinder, (l.map Sylinder.gid).Nodup → ∃ U W, Velocities l U W := by
    intro l hl
    refine ⟨fun g => ((l.find? fun u => u.gid = g).map Sylinder.vel).getD 0, fun g => ((l.find? fun u => u.gid = g).map Sylinder.omega).getD 0, fun u hu => ?_⟩
    have hf : (l.find? fun v => v.gid = u.gid) = some u := by
      cases hf : l.find? (fun v => v.gid = u.gid) with
      | none => exact absurd (List.find?_eq_none.1 hf u hu) (by simp)
      | some v =>
        have hv1 := List.mem_of_find?_eq_some hf
        have hv2 := List.find?_some hf
        rw [List.inj_on_of_nodup_map hl hv1 hu (by simpa using hv2)]
    beta_reduce
    rw [hf]
    exact ⟨rfl, rfl⟩
  have hlow : ∀ out : Out, (∀ p ∈ out.pools, ∀ b ∈ p.flatten, b.gamma = 0) → ∀ p ∈ out.pools, ∀ b ∈ p.flatten, b.bilateral = true → id (-(10 : ℝ) ^ 8 + BCQP.dblEps * 100) ≤ b.gamma := by
    intro out hz p hp b hb _
    rw [hz p hp b hb]
    unfold BCQP.dblEps
    norm_num
  have hids : ∀ {P : ℕ → List Sylinder} {s s' : Sim.State} {q : Place.Sys} {ranks : List RankIn} {out : Out},
      Sim.Sound C (fun _ => false) (fun _ => 0) (fun _ => 1) P → Sim.Run (Sim.Ok (fun _ => false) (fun _ => 0) (fun _ => 1)) id C P C P 0 s → Sim.Step C id false s q ranks out s' →
      ((all C.place.g.n P).map Sylinder.gid).Nodup → ((all C.place.g.n s'.sys.P).map Sylinder.gid).Nodup := by
    intro P s s' q ranks out h hr hs hid
    have hi := Sim.step_inv hs h (hs.prepared h (Sim.run_inv hr))
    have := hi.kinds.map fun k => k.1
    simp only [List.map_map] at this
    exact this.nodup_iff.2 hid
  obtain ⟨U, W, hU⟩ := hvel _ (hids hS hrun a3 (hid _ _ _))
  obtain ⟨U', W', hU'⟩ := hvel _ (hids hT hrun' b3 (hid _ _ _))
  have hfree : C.mob.sylinderFixed = false := by rw [hC]; rfl
  have hcold : C.mob.KBT ≤ 0 := by rw [hC]; exact le_refl (0 : ℝ)
  have hres : 0 ≤ C.ctl.res := by rw [hC]; show (0 : ℝ) ≤ 1 / 10 ^ 5; norm_num
  have hL' : Loads C.place.g.n q' ranks' (fun _ => (turn R 0, spin R 0)) (fun _ => (turn R 0, spin R 0)) := by
    rw [turn_zero, spin_zero]
    exact hload _ _ _ b6
  obtain ⟨m1, m2⟩ := C115_constraints (fun _ => rfl) hR hS hT hp (hid _ _ _) id id 0 0 _ _ hrun hrun' g1 g2 g3 false false q q' ranks ranks' out out' s' t' a3 b3
  exact ⟨C, _, _, _, s', _, t', q, q', ranks, ranks', out, out', U, W, U', W', hn, by rw [hC]; rfl, hS, hT, hp, g1, a3, b3, a4, b4, hload _ _ _ a6, hload _ _ _ b6, hU, hU', m1, m2,
    (C115_motion (fun _ => rfl) hR hS hT hp (hid _ _ _) id id 0 0 _ _ hrun hrun' g1 g2 g3 false false q q' ranks ranks' out out' s' t' a3 b3 (Or.inr hcold) (Or.inr hcold) hfree hfree hres hres 0 0 a4 b4
      (hlow _ a5) (hlow _ b5) _ _ (hload _ _ _ a6) hL' U W U' W' hU hU').2⟩

/-- The hypotheses of C115 can be met: two linked spheres, and the same turned by 120 degrees and displaced by (3, 4, 5). -/
example (D : Draws) : ∃ (C : Sim.Cfg) (P Q : ℕ → List Sylinder) (s s' t t' : Sim.State) (q q' : Place.Sys) (ranks ranks' : List RankIn) (out out' : Out) (U W U' W' : ℤ → V3),
    C.place.g.n = 2 ∧ C.linkMap = [(7, 9)] ∧ Sim.Sound C (fun _ => false) (fun _ => 0) (fun _ => 1) P ∧ Sim.Sound C (fun _ => false) (fun _ => 0) (fun _ => 1) Q ∧
    Turned Rigid.cyc ⟨3, 4, 5⟩ C C ∧
    Moved Rigid.cyc ⟨3, 4, 5⟩ (all C.place.g.n s.sys.P) (all C.place.g.n t.sys.P) ∧
    Sim.Step C id false s q ranks out s' ∧ Sim.Step C id false t q' ranks' out' t' ∧ Sim.Converged C id out 0 ∧ Sim.Converged C id out' 0 ∧
    Loads C.place.g.n q ranks (fun _ => (0, 0)) (fun _ => (0, 0)) ∧ Loads C.place.g.n q' ranks' (fun _ => (0, 0)) (fun _ => (0, 0)) ∧
    Velocities (all C.place.g.n s'.sys.P) U W ∧ Velocities (all C.place.g.n t'.sys.P) U' W' ∧
    Moved Rigid.cyc ⟨3, 4, 5⟩ (all C.place.g.n q.P) (all C.place.g.n q'.P) ∧ ((constraints ranks).map fun b => forget (carryBlock Rigid.cyc ⟨3, 4, 5⟩ b)).Perm ((constraints ranks').map forget) ∧
    C.mob.dt * ((all C.place.g.n q.P).map fun x => lag C.mob.viscosity x (turn Rigid.cyc (U x.gid) - U' x.gid, spin Rigid.cyc (W x.gid) - W' x.gid)).sum ≤
      (((constraints ranks).zip ((out.pools.flatMap fun p => p.flatten).map Block.gamma)).map fun x =>
        loose C.mob.dt C.ctl.res C.ctl.res |id (BCQP.dblEps * 100)| x.1 (x.1.delta0 + C.mob.dt * gapOf U W x.1) x.2).sum +
      (((constraints ranks').zip ((out'.pools.flatMap fun p => p.flatten).map Block.gamma)).map fun x =>
        loose C.mob.dt C.ctl.res C.ctl.res |id (BCQP.dblEps * 100)| x.1 (x.1.delta0 + C.mob.dt * gapOf U' W' x.1) x.2).sum :=
  Rigid.met D Rigid.cyc_rotation.toOrth (o := ⟨1 / 2, 1 / 2, 1 / 2, 1 / 2⟩) (by norm_num [Spec.UnitQuat]) (by ext <;> simp [Quat.rot, Quat.vec, V3.cross, turn, Rigid.cyc] <;> norm_num) Rigid.far_cyc

/-- The hypotheses of C115 can be met: two linked spheres, and their mirror image displaced by (3, 4, 5). -/
example (D : Draws) : ∃ (C : Sim.Cfg) (P Q : ℕ → List Sylinder) (s s' t t' : Sim.State) (q q' : Place.Sys) (ranks ranks' : List RankIn) (out out' : Out) (U W U' W' : ℤ → V3),
    C.place.g.n = 2 ∧ C.linkMap = [(7, 9)] ∧ Sim.Sound C (fun _ => false) (fun _ => 0) (fun _ => 1) P ∧ Sim.Sound C (fun _ => false) (fun _ => 0) (fun _ => 1) Q ∧
    Turned Rigid.mirror ⟨3, 4, 5⟩ C C ∧
    Moved Rigid.mirror ⟨3, 4, 5⟩ (all C.place.g.n s.sys.P) (all C.place.g.n t.sys.P) ∧
    Sim.Step C id false s q ranks out s' ∧ Sim.Step C id false t q' ranks' out' t' ∧ Sim.Converged C id out 0 ∧ Sim.Converged C id out' 0 ∧
    Loads C.place.g.n q ranks (fun _ => (0, 0)) (fun _ => (0, 0)) ∧ Loads C.place.g.n q' ranks' (fun _ => (0, 0)) (fun _ => (0, 0)) ∧
    Velocities (all C.place.g.n s'.sys.P) U W ∧ Velocities (all C.place.g.n t'.sys.P) U' W' ∧
    Moved Rigid.mirror ⟨3, 4, 5⟩ (all C.place.g.n q.P) (all C.place.g.n q'.P) ∧ ((constraints ranks).map fun b => forget (carryBlock Rigid.mirror ⟨3, 4, 5⟩ b)).Perm ((constraints ranks').map forget) ∧
    C.mob.dt * ((all C.place.g.n q.P).map fun x => lag C.mob.viscosity x (turn Rigid.mirror (U x.gid) - U' x.gid, spin Rigid.mirror (W x.gid) - W' x.gid)).sum ≤
      (((constraints ranks).zip ((out.pools.flatMap fun p => p.flatten).map Block.gamma)).map fun x =>
        loose C.mob.dt C.ctl.res C.ctl.res |id (BCQP.dblEps * 100)| x.1 (x.1.delta0 + C.mob.dt * gapOf U W x.1) x.2).sum +
      (((constraints ranks').zip ((out'.pools.flatMap fun p => p.flatten).map Block.gamma)).map fun x =>
        loose C.mob.dt C.ctl.res C.ctl.res |id (BCQP.dblEps * 100)| x.1 (x.1.delta0 + C.mob.dt * gapOf U' W' x.1) x.2).sum :=
  Rigid.met D Rigid.mirror_reflection.toOrth (o := ⟨1, 0, 0, 0⟩) (by norm_num [Spec.UnitQuat]) (by ext <;> simp [Quat.rot, Quat.vec, V3.cross, turn, Rigid.mirror]) Rigid.far_mirror

/-- Both kinds exist. -/
example : Rotation Rigid.cyc ∧ Reflection Rigid.mirror := ⟨Rigid.cyc_rotation, Rigid.mirror_reflection⟩

/-- A tilted wall: the floor, turned by 120 degrees. -/
example : Carried Rigid.cyc 0 (.wall ⟨⟨0, 0, 1⟩, ⟨0, 0, 1⟩⟩) (.wall ⟨⟨1, 0, 0⟩, ⟨1, 0, 0⟩⟩) := by
  have h := (C115_boundaries Rigid.cyc Rigid.cyc_rotation.toOrth 0).2.1 ⟨⟨0, 0, 1⟩, ⟨0, 0, 1⟩⟩
  have e : turn Rigid.cyc ⟨0, 0, 1⟩ = ⟨1, 0, 0⟩ := by ext <;> simp [turn, Rigid.cyc]
  simp only [e, add_zero'] at h
  exact h

end Verif
