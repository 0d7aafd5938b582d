import Verif.Lemmas.Headless
import Verif.Props.Displace
/-!
C118: a rod has no head and tail.
-/
namespace Verif
open Near Collector RunStep Mobility Sim Spec.Resume Spec.Momentum Spec.Layout Spec.Displace Spec.Headless Spec.Mobility Spec.Motion Layout Displace Headless

section
variable {C D C₀ D₀ : Sim.Cfg} {pbc : Fin 3 → Bool} {low high : Fin 3 → ℝ} {P Q B E : ℕ → List Sylinder} {S : ℤ → Bool}

/-- The same bodies, moved into the box and distributed. -/
theorem Headless.homed {L L' L1 L1' : List Sylinder} (h : TurnedOver S L L') (h1 : (L1.map seen).Perm (L.map (Resume.seenHome pbc low high)))
    (h2 : (L1'.map seen).Perm (L'.map (Resume.seenHome pbc low high))) : TurnedOver S L1 L1' := by
  have e1 := h1.map (over S)
  have e2 := h.map fun w : View => (w.1, Resume.home pbc low high w.2.1, w.2.2)
  rw [List.map_map, List.map_map] at e1
  rw [List.map_map, List.map_map] at e2
  unfold TurnedOver
  exact (e1.trans e2).trans h2.symm

open V3 in
/-- The rods are fit for the search for contacts. -/
theorem Headless.fit (h : Sim.Sound C pbc low high P) {q : Place.Sys} (hq : Sim.Prepared C P q) (hl : Long C (all C.place.g.n q.P)) :
    ∀ w ∈ (all C.place.g.n q.P).map seen, Fit (ep C.place w) := by
  intro w hw
  have hw' : w ∈ (everyone C.place.g.n q.P).map seen := by rw [everyone_seen]; exact hw
  obtain ⟨y, hy, hyw⟩ := List.mem_map.1 hw'
  obtain ⟨b, hb, rfl⟩ := List.mem_map.1 hw
  obtain ⟨r, hrn, hy⟩ := mem_everyone.1 hy
  have hu : dot b.direction b.direction = 1 := by
    have e : y.direction = b.direction := by have := congrArg (fun v : View => v.2.2) hyw; exact this
    rw [← e]
    exact direction_unit y (hq.valid h hrn hy).unit
  intro hs
  have hrod : Spec.Rename.Rod C b := by
    have := of_decide_eq_false hs
    exact not_lt.1 this
  refine (hl b hb hrod).trans (le_of_eq ?_)
  show _ = normSq ((b.pos + (0.5 * (b.length * C.place.lengthColRatio)) • b.direction) - (b.pos - (0.5 * (b.length * C.place.lengthColRatio)) • b.direction))
  have : normSq ((b.pos + (0.5 * (b.length * C.place.lengthColRatio)) • b.direction) - (b.pos - (0.5 * (b.length * C.place.lengthColRatio)) • b.direction)) =
      (b.length * C.place.lengthColRatio) ^ 2 * dot b.direction b.direction := by
    simp only [normSq, dot, sub_x, sub_y, sub_z, add_x, add_y, add_z, smul_x, smul_y, smul_z]; ring
  rw [this, hu, mul_one]

/-- The constraints of two steps. -/
theorem Headless.constraints_perm (h : Sim.Sound C pbc low high P) (h' : Sim.Sound D pbc low high Q) (hp : SamePhysics C D)
    (hid : ((all C.place.g.n P).map Sylinder.gid).Nodup)
    {fl fl' : ℝ → ℝ} {pre pre' : Bool} {s s' t t' : Sim.State} {q q' : Place.Sys} {ranks ranks' : List RankIn} {out out' : Out}
    (hq : Sim.Prepared C P q) (hq' : Sim.Prepared D Q q') (hs : Sim.Step C fl pre s q ranks out s') (hs' : Sim.Step D fl' pre' t q' ranks' out' t')
    (hV : TurnedOver S (all C.place.g.n q.P) (all D.place.g.n q'.P)) (hS : Unlinked S C) (hl : Long C (all C.place.g.n q.P)) :
    ((constraints ranks).map forget).Perm ((constraints ranks').map forget) := by
  have hV : (((all C.place.g.n q.P).map seen).map (over S)).Perm ((all D.place.g.n q'.P).map seen) := by
    rw [List.map_map]
    exact hV
  have hfit := Headless.fit h hq hl
  have hv := views_nodup hq hid
  have hv' : (((all D.place.g.n q'.P).map seen).map fun w => w.1.1).Nodup := by
    refine (hV.map fun w => w.1.1).nodup_iff.1 ?_
    rw [List.map_map]
    exact hv
  have hid' : ((all D.place.g.n Q).map Sylinder.gid).Nodup := by
    have h2 := hq'.kinds.map fun k => k.1
    simp only [List.map_map] at h2 hv'
    exact h2.nodup_iff.1 hv'
  have hcfg : D.place.diameterColRatio = C.place.diameterColRatio ∧ D.place.lengthColRatio = C.place.lengthColRatio ∧ D.place.colBuf = C.place.colBuf ∧ D.place.d = C.place.d := by
    have hd : D.place.d = C.place.d := by
      have := h.place.dinfo
      rw [h'.place.dinfo] at this
      exact Option.some.inj this
    exact ⟨hp.diameterColRatio, hp.lengthColRatio, hp.colBuf, hd⟩
  have hcfg' : C.place.diameterColRatio = D.place.diameterColRatio ∧ C.place.lengthColRatio = D.place.lengthColRatio ∧ C.place.colBuf = D.place.colBuf ∧ C.place.d = D.place.d :=
    ⟨hcfg.1.symm, hcfg.2.1.symm, hcfg.2.2.1.symm, hcfg.2.2.2.symm⟩
  have hfwd : ∀ w ∈ (all C.place.g.n q.P).map seen, over S w ∈ (all D.place.g.n q'.P).map seen := fun w hw => hV.mem_iff.1 (List.mem_map_of_mem hw)
  have hbwd : ∀ w ∈ (all D.place.g.n q'.P).map seen, over S w ∈ (all C.place.g.n q.P).map seen := by
    intro w hw
    obtain ⟨w₀, h1, rfl⟩ := List.mem_map.1 (hV.mem_iff.2 hw)
    rw [over_over]
    exact h1
  have hfit' : ∀ w ∈ (all D.place.g.n q'.P).map seen, Fit (ep D.place w) := by
    intro w hw
    have := fit_over (S := S) hcfg (hfit _ (hbwd w hw))
    rwa [over_over] at this
  obtain ⟨K, B1, N1, e1, k1, f1, c1, l1⟩ := step_parts hs h hq hid
  obtain ⟨K', B2, N2, e2, k2, f2, c2, l2⟩ := step_parts hs' h' hq' hid'
  have f2' : List.Forall₂ (fun k b => PairOf C.place ((all C.place.g.n q.P).map seen) k (forget b)) K' B2 :=
    f2.imp fun k b hb => pair_over hcfg' hfit' hbwd _ _ hb
  have hK : K.Perm K' := by
    rw [List.perm_ext_iff_of_nodup k1 k2]
    intro k
    constructor
    · intro hk
      obtain ⟨i, hi, rfl⟩ := List.getElem_of_mem hk
      obtain ⟨hl, hg⟩ := List.forall₂_iff_get.1 f1
      exact c2 _ _ (pair_over hcfg hfit hfwd _ _ (hg i hi (by omega)))
    · intro hk
      obtain ⟨i, hi, rfl⟩ := List.getElem_of_mem hk
      obtain ⟨hl, hg⟩ := List.forall₂_iff_get.1 f2'
      exact c1 _ _ (hg i hi (by omega))
  have hB : (B1.map forget).Perm (B2.map forget) := by
    refine perm_of_rel (PairOf.unique (c := C.place) hv) (k := K) (k' := K') ?_ ?_ hK
    · rw [List.forall₂_map_right_iff]; exact f1
    · rw [List.forall₂_map_right_iff]; exact f2'
  have hE : ((everyone C.place.g.n q.P).map (seenOver S)).Perm ((everyone D.place.g.n q'.P).map seen) := by
    rw [everyone_seen]
    refine List.Perm.trans (List.Perm.of_eq ?_) hV
    rw [← everyone_seen, List.map_map]
    rfl
  have hnext : ∀ g, ∀ n ∈ Links.nexts C.linkMap g, S g = false ∧ S n = false := by
    intro g n hn
    unfold Links.nexts at hn
    obtain ⟨l, hl, rfl⟩ := List.mem_map.1 hn
    obtain ⟨hl, hg⟩ := List.mem_filter.1 hl
    have hg : l.1 = g := of_decide_eq_true hg
    rw [← hg]
    exact hS l hl
  have hlink : ((linkPairs C.linkMap (everyone C.place.g.n q.P)).map fun p => (seen p.1, p.2)).Perm ((linkPairs D.linkMap (everyone D.place.g.n q'.P)).map fun p => (seen p.1, p.2)) := by
    rw [Layout.linkPairs_seen, Layout.linkPairs_seen]
    have e : ((everyone C.place.g.n q.P).map seen).flatMap (fun v => (Links.nexts C.linkMap v.1.1).map fun g => (v, g)) =
        ((everyone C.place.g.n q.P).map (seenOver S)).flatMap fun v => (Links.nexts C.linkMap v.1.1).map fun g => (v, g) := by
      rw [List.flatMap_map, List.flatMap_map]
      refine List.flatMap_congr fun x _ => List.map_congr_left fun g hg => ?_
      have := (hnext _ g hg).1
      rw [over_seen, over_id (w := seen x) this]
    rw [e]
    refine (hE.flatMap_right _).trans (List.Perm.flatMap_left _ fun v _ => List.Perm.map _ ?_)
    unfold Links.nexts
    exact ((hp.linkMap.filter _).map _).symm
  have l2' : List.Forall₂ (fun (k : View × ℤ) b => LinkOf C.link C.place ((all C.place.g.n q.P).map seen) k b)
      ((linkPairs D.linkMap (everyone D.place.g.n q'.P)).map fun p => (seen p.1, p.2)) (N2.map forget) := by
    rw [List.forall₂_map_right_iff, List.forall₂_map_left_iff]
    have hin : ∀ p ∈ linkPairs D.linkMap (everyone D.place.g.n q'.P), S p.2 = false := by
      intro p hp
      have hm := hlink.mem_iff.2 (List.mem_map_of_mem (f := fun p : Sylinder × ℤ => (seen p.1, p.2)) hp)
      rw [Layout.linkPairs_seen] at hm
      obtain ⟨v, -, hm⟩ := List.mem_flatMap.1 hm
      obtain ⟨g, hg, hgp⟩ := List.mem_map.1 hm
      have e : g = p.2 := congrArg Prod.snd hgp
      rw [← e]
      exact (hnext _ g hg).2
    rw [List.forall₂_iff_get] at l2 ⊢
    refine ⟨l2.1, fun i hi hi' => ?_⟩
    obtain ⟨x, e, a, hx, ⟨w, hw, hg, he⟩, h1, h2⟩ := l2.2 i hi hi'
    rw [hp.link] at h1
    refine ⟨x, e, a, hx, ⟨over S w, hbwd w hw, hg, ?_⟩, h1, h2⟩
    have hSw : S w.1.1 = false := by rw [hg]; exact hin _ (List.get_mem _ _)
    rw [over_id hSw, he, Rename.ep_same hcfg]
  have hN : (N1.map forget).Perm (N2.map forget) := by
    refine perm_of_rel (LinkOf.unique (cfg := C.link) (c := C.place) hv) (k := (linkPairs C.linkMap (everyone C.place.g.n q.P)).map fun p => (seen p.1, p.2)) ?_ l2' hlink
    rw [List.forall₂_map_right_iff, List.forall₂_map_left_iff]; exact l1
  refine (e1.map forget).trans (List.Perm.trans ?_ (e2.map forget).symm)
  simp only [List.map_append]
  refine (hB.append ?_).append hN
  rw [List.map_flatMap, List.map_flatMap]
  refine List.Perm.trans ?_ (hp.bounds.symm.flatMap_right _)
  refine List.Perm.flatMap_left _ fun b _ => ?_
  rw [List.map_flatMap, List.map_flatMap]
  refine flatMap_perm hE _ _ fun x hx y hy hxy => ?_
  obtain ⟨x1, x2⟩ := Layout.sizes C hq hx
  obtain ⟨y1, y2⟩ := Layout.sizes D hq' hy
  have hk : (seen y).1 = (seen x).1 := by have := congrArg Prod.fst hxy; exact this.symm
  have hr : y.radiusCollision = x.radiusCollision := by rw [x1, y1, hk, hp.diameterColRatio]
  have hlc : y.lengthCollision = x.lengthCollision := by rw [x2, y2, hk, hp.lengthColRatio]
  rw [hp.colBuf]
  by_cases hSx : S x.gid = true
  · obtain ⟨r, hrn, hxr⟩ := mem_everyone.1 hx
    have hunit := (hq.valid h hrn hxr).unit
    have hsy : seen y = seen (upset x) := by
      rw [← hxy]
      unfold seenOver seen
      rw [if_pos hSx, upset_direction hunit]
      rfl
    rw [bodyBlocks_forget b _ y (upset x) hsy hr hlc]
    exact ((walls_upset b _ hunit).map forget).symm
  · have hsy : seen y = seen x := by
      rw [← hxy]
      unfold seenOver seen
      rw [if_neg hSx]
    rw [bodyBlocks_forget b _ y x hsy hr hlc]

/-- C118, start.  One program is given bodies, another the same bodies, some of them turned over, each in any order and on any of its ranks.  When both have moved the bodies into the box and
distributed them, the bodies of one are still those of the other with the same ones turned over. -/
theorem C118_start (h : Sim.Sound C pbc low high P) (h' : Sim.Sound D pbc low high Q) (hover : TurnedOver S (all C.place.g.n P) (all D.place.g.n Q))
    (hbig : ∀ b ∈ all C.place.g.n P, ∀ k, pbc k = false → |Near.comp b.pos k| < Stats.largeFloat)
    (hbig' : ∀ b ∈ all D.place.g.n Q, ∀ k, pbc k = false → |Near.comp b.pos k| < Stats.largeFloat)
    (junk junk' : ℕ → Box) (x y x' y' : Place.Exec) (s1 s2 t1 t2 : Place.Sys) (hx : Place.Valid C.place x) (hy : Place.Valid C.place y)
    (hx' : Place.Valid D.place x') (hy' : Place.Valid D.place y')
    (h1 : Place.DecomposeDomain C.place x ⟨⟨true, junk⟩, P⟩ s1) (h2 : Place.ExchangeSylinder C.place y s1 s2)
    (h1' : Place.DecomposeDomain D.place x' ⟨⟨true, junk'⟩, Q⟩ t1) (h2' : Place.ExchangeSylinder D.place y' t1 t2) :
    TurnedOver S (all C.place.g.n s2.P) (all D.place.g.n t2.P) ∧
      (∀ b ∈ all C.place.g.n s2.P, ∀ k, pbc k = false → |Near.comp b.pos k| < Stats.largeFloat) ∧
      ∀ b ∈ all D.place.g.n t2.P, ∀ k, pbc k = false → |Near.comp b.pos k| < Stats.largeFloat := by
  obtain ⟨e1, e2⟩ := Layout.start_seen h hx hy h1 h2 hbig
  obtain ⟨f1, f2⟩ := Layout.start_seen h' hx' hy' h1' h2' hbig'
  exact ⟨Headless.homed hover e1 f1, e2, f2⟩

/-- C118, constraints.  Two programs simulate the same, each in a run of its own with any ranks and threads, the bodies in `S` being turned over in one of them.  These are not linked to others, and
no rod is shorter than the precision of `DCPQuery` (`Long`).  Then the next step of each has the same bodies up to turning those in `S` over, and exactly the same constraints: the same contacts,
contacts with the boundaries and links, with the same separations, directions, points and stresses. -/
theorem C118_constraints (h : Sim.Sound C pbc low high P) (h' : Sim.Sound D pbc low high Q) (hp : SamePhysics C D) (hS : Unlinked S C)
    (hid : ((all C.place.g.n P).map Sylinder.gid).Nodup)
    (fl fl' : ℝ → ℝ) (k k' : ℕ) (s t : Sim.State) (hr : Sim.Run (Sim.Ok pbc low high) fl C₀ B C P k s) (hr' : Sim.Run (Sim.Ok pbc low high) fl' D₀ E D Q k' t)
    (hover : TurnedOver S (all C.place.g.n s.sys.P) (all D.place.g.n t.sys.P))
    (hbig : ∀ b ∈ all C.place.g.n s.sys.P, ∀ k, pbc k = false → |Near.comp b.pos k| < Stats.largeFloat)
    (hbig' : ∀ b ∈ all D.place.g.n t.sys.P, ∀ k, pbc k = false → |Near.comp b.pos k| < Stats.largeFloat)
    (pre pre' : Bool) (q q' : Place.Sys) (ranks ranks' : List RankIn) (out out' : Out) (s' t' : Sim.State) (hs : Sim.Step C fl pre s q ranks out s')
    (hs' : Sim.Step D fl' pre' t q' ranks' out' t') (hl : Long C (all C.place.g.n q.P)) :
    TurnedOver S (all C.place.g.n q.P) (all D.place.g.n q'.P) ∧ ((constraints ranks).map forget).Perm ((constraints ranks').map forget) := by
  have hq := hs.prepared h (Sim.run_inv hr)
  have hq' := hs'.prepared h' (Sim.run_inv hr')
  have hV : TurnedOver S (all C.place.g.n q.P) (all D.place.g.n q'.P) := by
    obtain ⟨x, hx, hqq⟩ := hs.prepare
    obtain ⟨x', hx', hqq'⟩ := hs'.prepare
    exact Headless.homed hover (Resume.next h hp.mono.1.1 (Sim.run_inv hr) hx hqq hbig) (Resume.next h' hp.mono.2.1 (Sim.run_inv hr') hx' hqq' hbig')
  exact ⟨hV, Headless.constraints_perm h h' hp hid hq hq' hs hs' hV hS hl⟩

/-- C118, motion.  As `C118_constraints`; the two programs act with the same forces and prescribed velocities on the same bodies, and the solver of each converged.  Then each body moves in one as
in the other as far as the tolerances allow, whether turned over or not: bodies that do not move have the same velocities, and the differences of the velocities of the others, weighted with the drag,
are at most the total of what the stopping criteria leave open in the two runs. -/
theorem C118_motion_partial (h : Sim.Sound C pbc low high P) (h' : Sim.Sound D pbc low high Q) (hp : SamePhysics C D) (hS : Unlinked S C)
    (hid : ((all C.place.g.n P).map Sylinder.gid).Nodup)
    (fl fl' : ℝ → ℝ) (k k' : ℕ) (s t : Sim.State) (hr : Sim.Run (Sim.Ok pbc low high) fl C₀ B C P k s) (hr' : Sim.Run (Sim.Ok pbc low high) fl' D₀ E D Q k' t)
    (hover : TurnedOver S (all C.place.g.n s.sys.P) (all D.place.g.n t.sys.P))
    (hbig : ∀ b ∈ all C.place.g.n s.sys.P, ∀ k, pbc k = false → |Near.comp b.pos k| < Stats.largeFloat)
    (hbig' : ∀ b ∈ all D.place.g.n t.sys.P, ∀ k, pbc k = false → |Near.comp b.pos k| < Stats.largeFloat)
    (pre pre' : Bool) (q q' : Place.Sys) (ranks ranks' : List RankIn) (out out' : Out) (s' t' : Sim.State) (hs : Sim.Step C fl pre s q ranks out s')
    (hs' : Sim.Step D fl' pre' t q' ranks' out' t') (hl : Long C (all C.place.g.n q.P))
    (hT : pre = true ∨ C.mob.KBT ≤ 0) (hT' : pre' = true ∨ D.mob.KBT ≤ 0) (hfree : C.mob.sylinderFixed = false) (hfree' : D.mob.sylinderFixed = false)
    (htol : 0 ≤ C.ctl.res) (htol' : 0 ≤ D.ctl.res) (res res' : ℝ) (hc : Sim.Converged C fl out res) (hc' : Sim.Converged D fl' out' res')
    (hlow : ∀ p ∈ out.pools, ∀ b ∈ p.flatten, b.bilateral = true → fl (-(10 : ℝ) ^ 8 + BCQP.dblEps * 100) ≤ b.gamma)
    (hlow' : ∀ p ∈ out'.pools, ∀ b ∈ p.flatten, b.bilateral = true → fl' (-(10 : ℝ) ^ 8 + BCQP.dblEps * 100) ≤ b.gamma)
    (G V : ℤ → V3 × V3) (hG : Loads C.place.g.n q ranks G V) (hG' : Loads D.place.g.n q' ranks' G V)
    (U W U' W' : ℤ → V3) (hU : Velocities (all C.place.g.n s'.sys.P) U W) (hU' : Velocities (all D.place.g.n t'.sys.P) U' W') :
    (∀ x ∈ all C.place.g.n q.P, x.isImmovable = true → U x.gid = U' x.gid ∧ W x.gid = W' x.gid) ∧
    C.mob.dt * ((all C.place.g.n q.P).map fun x => lag C.mob.viscosity x (U x.gid - U' x.gid, W x.gid - W' x.gid)).sum ≤
      (((constraints ranks).zip ((out.pools.flatMap fun p => p.flatten).map Block.gamma)).map fun x =>
        loose C.mob.dt C.ctl.res D.ctl.res |fl (BCQP.dblEps * 100)| x.1 (x.1.delta0 + C.mob.dt * gapOf U W x.1) x.2).sum +
      (((constraints ranks').zip ((out'.pools.flatMap fun p => p.flatten).map Block.gamma)).map fun x =>
        loose C.mob.dt D.ctl.res C.ctl.res |fl' (BCQP.dblEps * 100)| x.1 (x.1.delta0 + C.mob.dt * gapOf U' W' x.1) x.2).sum := by
  have hq := hs.prepared h (Sim.run_inv hr)
  have hq' := hs'.prepared h' (Sim.run_inv hr')
  obtain ⟨hV, hcon⟩ := C118_constraints h h' hp hS hid fl fl' k k' s t hr hr' hover hbig hbig' pre pre' q q' ranks ranks' out out' s' t' hs hs' hl
  obtain ⟨a1, a2, a3, a4⟩ := one h hs hq hfree hc hlow (fun r hrn i x hx => by
    obtain ⟨rk, D, u, g1, g2, g3, g4, -, g5⟩ := (Layout.moving h hp.mono.1.2 hfree hr hs hT r hrn).2 i x hx
    exact ⟨rk, D, u, g1, g2, g3, congrArg Prod.fst g4, g5⟩) hU hG
  obtain ⟨b1, b2, b3, b4⟩ := one h' hs' hq' hfree' hc' hlow' (fun r hrn i x hx => by
    obtain ⟨rk, D, u, g1, g2, g3, g4, -, g5⟩ := (Layout.moving h' hp.mono.2.2 hfree' hr' hs' hT' r hrn).2 i x hx
    exact ⟨rk, D, u, g1, g2, g3, congrArg Prod.fst g4, g5⟩) hU' hG'
  obtain ⟨last, -, -, hlt, -⟩ := hc
  obtain ⟨last', -, -, hlt', -⟩ := hc'
  rw [hp.viscosity] at b1
  rw [hp.dt] at b3
  have hunit' : ∀ x ∈ everyone D.place.g.n q'.P, Spec.UnitQuat x.orientation := by
    intro x hx
    obtain ⟨r, hrn, hx⟩ := mem_everyone.1 hx
    exact (hq'.valid h' hrn hx).unit
  have hback : ∀ x ∈ everyone D.place.g.n q'.P, (kind (if S x.gid then upset x else x), (if S x.gid then upset x else x).direction) = ((seenOver S x).1, (seenOver S x).2.2) := by
    intro x hx
    unfold seenOver
    split_ifs
    · rw [upset_direction (hunit' x hx)]; rfl
    · rfl
  obtain ⟨c1, c2⟩ := Displace.close (mu := C.mob.viscosity) (E' := (everyone D.place.g.n q'.P).map fun x => if S x.gid then upset x else x) h.dt (fun x hx => by
    obtain ⟨r, hrn, hx⟩ := mem_everyone.1 hx
    exact hq.valid h hrn hx) (by
      have e1 : (((all C.place.g.n q.P).map seen).map (over S)).Perm ((all D.place.g.n q'.P).map seen) := by
        rw [List.map_map]
        exact hV
      have e2 := e1.map (over S)
      rw [List.map_map, show over S ∘ over S = id from funext fun w => over_over S w, List.map_id] at e2
      have e3 := e2.map fun w : View => (w.1, w.2.2)
      rw [← everyone_seen, ← everyone_seen, List.map_map, List.map_map, List.map_map] at e3
      rw [List.map_map]
      refine e3.trans (List.Perm.of_eq (List.map_congr_left fun x hx => ?_))
      exact (hback x hx).symm) (by
      rw [a4, b4]
      have := hcon.map bare
      rw [List.map_map, List.map_map] at this
      exact this) htol htol' hlt.le hlt'.le a1 (by
      intro x hx
      obtain ⟨y, hy, rfl⟩ := List.mem_map.1 hx
      have := b1 y hy
      split_ifs
      · exact moves_upset (hunit' y hy) this
      · exact this) a2 (by
      intro T R
      have := b2 T R
      rw [List.map_map, ← this]
      congr 1
      refine List.map_congr_left fun x _ => ?_
      have e1 : (if S x.gid then upset x else x).gid = x.gid := by split_ifs <;> rfl
      have e2 : (if S x.gid then upset x else x).globalIndex = x.globalIndex := by split_ifs <;> rfl
      simp only [Function.comp_apply, e1, e2]) a3 b3
  constructor
  · intro x hx him
    have : seen x ∈ (everyone C.place.g.n q.P).map seen := by rw [everyone_seen]; exact List.mem_map_of_mem hx
    obtain ⟨y, hy, hyx⟩ := List.mem_map.1 this
    have e1 : y.gid = x.gid := by have := congrArg (fun v : View => v.1.1) hyx; exact this
    have e2 : y.isImmovable = x.isImmovable := by have := congrArg (fun v : View => v.1.2.2.1) hyx; exact this
    rw [← e1]
    exact c1 y hy (e2.trans him)
  · rw [Layout.map_seen (everyone_seen C.place.g.n q.P) (fun x => lag C.mob.viscosity x (U x.gid - U' x.gid, W x.gid - W' x.gid)) (fun a b hab => by
      have e1 : a.gid = b.gid := by have := congrArg (fun v : View => v.1.1) hab; exact this
      rw [Layout.lag_seen _ (by have := congrArg Prod.fst hab; exact this), e1])] at c2
    exact c2

/-- C118, positions.  After such steps a body is in one program where it is in the other, as far as the tolerances allow: for a body `u` of one and the same body `u'` of the other, the smaller drag
coefficient times the square of the distance of the centres, plus the rotational one times the square of the difference of the turns that were made, is at most `dt` times the right hand side of
`C118_motion_partial`. -/
theorem C118_positions_partial (h : Sim.Sound C pbc low high P) (h' : Sim.Sound D pbc low high Q) (hp : SamePhysics C D) (hS : Unlinked S C)
    (hid : ((all C.place.g.n P).map Sylinder.gid).Nodup)
    (fl fl' : ℝ → ℝ) (k k' : ℕ) (s t : Sim.State) (hr : Sim.Run (Sim.Ok pbc low high) fl C₀ B C P k s) (hr' : Sim.Run (Sim.Ok pbc low high) fl' D₀ E D Q k' t)
    (hover : TurnedOver S (all C.place.g.n s.sys.P) (all D.place.g.n t.sys.P))
    (hbig : ∀ b ∈ all C.place.g.n s.sys.P, ∀ k, pbc k = false → |Near.comp b.pos k| < Stats.largeFloat)
    (hbig' : ∀ b ∈ all D.place.g.n t.sys.P, ∀ k, pbc k = false → |Near.comp b.pos k| < Stats.largeFloat)
    (pre pre' : Bool) (q q' : Place.Sys) (ranks ranks' : List RankIn) (out out' : Out) (s' t' : Sim.State) (hs : Sim.Step C fl pre s q ranks out s')
    (hs' : Sim.Step D fl' pre' t q' ranks' out' t') (hl : Long C (all C.place.g.n q.P))
    (hT : pre = true ∨ C.mob.KBT ≤ 0) (hT' : pre' = true ∨ D.mob.KBT ≤ 0) (hfree : C.mob.sylinderFixed = false) (hfree' : D.mob.sylinderFixed = false)
    (htol : 0 ≤ C.ctl.res) (htol' : 0 ≤ D.ctl.res) (res res' : ℝ) (hc : Sim.Converged C fl out res) (hc' : Sim.Converged D fl' out' res')
    (hlow : ∀ p ∈ out.pools, ∀ b ∈ p.flatten, b.bilateral = true → fl (-(10 : ℝ) ^ 8 + BCQP.dblEps * 100) ≤ b.gamma)
    (hlow' : ∀ p ∈ out'.pools, ∀ b ∈ p.flatten, b.bilateral = true → fl' (-(10 : ℝ) ^ 8 + BCQP.dblEps * 100) ≤ b.gamma)
    (G V : ℤ → V3 × V3) (hG : Loads C.place.g.n q ranks G V) (hG' : Loads D.place.g.n q' ranks' G V)
    (U W U' W' : ℤ → V3) (hU : Velocities (all C.place.g.n s'.sys.P) U W) (hU' : Velocities (all D.place.g.n t'.sys.P) U' W')
    (u u' : Sylinder) (hu : u ∈ all C.place.g.n s'.sys.P) (hu' : u' ∈ all D.place.g.n t'.sys.P) (huu : u.gid = u'.gid) :
    lag C.mob.viscosity u (u.pos - u'.pos, C.mob.dt • (u.omega - u'.omega)) ≤ C.mob.dt * (
      (((constraints ranks).zip ((out.pools.flatMap fun p => p.flatten).map Block.gamma)).map fun x =>
        loose C.mob.dt C.ctl.res D.ctl.res |fl (BCQP.dblEps * 100)| x.1 (x.1.delta0 + C.mob.dt * gapOf U W x.1) x.2).sum +
      (((constraints ranks').zip ((out'.pools.flatMap fun p => p.flatten).map Block.gamma)).map fun x =>
        loose C.mob.dt D.ctl.res C.ctl.res |fl' (BCQP.dblEps * 100)| x.1 (x.1.delta0 + C.mob.dt * gapOf U' W' x.1) x.2).sum) ∧
    (u.isImmovable = true → u'.pos = u.pos) := by
  have hq := hs.prepared h (Sim.run_inv hr)
  have hq' := hs'.prepared h' (Sim.run_inv hr')
  obtain ⟨hV, -⟩ := C118_constraints h h' hp hS hid fl fl' k k' s t hr hr' hover hbig hbig' pre pre' q q' ranks ranks' out out' s' t' hs hs' hl
  obtain ⟨hfix, hsum⟩ := C118_motion_partial h h' hp hS hid fl fl' k k' s t hr hr' hover hbig hbig' pre pre' q q' ranks ranks' out out' s' t' hs hs' hl hT hT' hfree hfree' htol htol'
    res res' hc hc' hlow hlow' G V hG hG' U W U' W' hU hU'
  obtain ⟨x, hx, hxv, x1, x2⟩ := Layout.before h hp.mono.1.2 hfree hr hs hT hu
  obtain ⟨x', hx', -, y1, y2⟩ := Layout.before h' hp.mono.2.2 hfree' hr' hs' hT' hu'
  have g1 : u.gid = x.gid := congrArg Prod.fst x1
  have g2 : u'.gid = x'.gid := congrArg Prod.fst y1
  have hpos : x'.pos = x.pos := by
    have hmem := hV.mem_iff.2 (List.mem_map_of_mem hx')
    obtain ⟨z, hz, hzx⟩ := List.mem_map.1 hmem
    have e1 : z.gid = x'.gid := by have := congrArg (fun v : View => v.1.1) hzx; exact this
    have e2 : z.pos = x'.pos := by have := congrArg (fun v : View => v.2.1) hzx; exact this
    have hnd : ((all C.place.g.n q.P).map Sylinder.gid).Nodup := by
      have := views_nodup hq hid
      rw [List.map_map] at this
      exact this
    have : z = x := List.inj_on_of_nodup_map hnd hz hx (by rw [e1, ← g2, ← huu, g1])
    rw [← e2, this]
  obtain ⟨v1, v2⟩ := hU u hu
  obtain ⟨v3, v4⟩ := hU' u' hu'
  have hdt : D.mob.dt = C.mob.dt := hp.dt
  have hdiff : u.pos - u'.pos = C.mob.dt • (u.vel - u'.vel) := by
    rw [x2, y2, hpos, hdt]
    ext <;> simp <;> ring
  constructor
  · rw [hdiff, Layout.lag_smul (T := (u.vel - u'.vel, u.omega - u'.omega)), Layout.lag_seen _ x1, pow_two, mul_assoc]
    refine mul_le_mul_of_nonneg_left (le_trans (mul_le_mul_of_nonneg_left ?_ h.dt.le) hsum) h.dt.le
    have hone : lag C.mob.viscosity x (u.vel - u'.vel, u.omega - u'.omega) = lag C.mob.viscosity x (U x.gid - U' x.gid, W x.gid - W' x.gid) := by
      rw [← g1, v1, v2, huu, v3, v4]
    rw [hone]
    refine List.single_le_sum ?_ _ (List.mem_map_of_mem (f := fun x => lag C.mob.viscosity x (U x.gid - U' x.gid, W x.gid - W' x.gid)) hx)
    intro y hy
    obtain ⟨z, hz, rfl⟩ := List.mem_map.1 hy
    have hz2 : seen z ∈ (everyone C.place.g.n q.P).map seen := by rw [everyone_seen]; exact List.mem_map_of_mem hz
    obtain ⟨z', hz', hzz⟩ := List.mem_map.1 hz2
    obtain ⟨r, hrn, hz'⟩ := mem_everyone.1 hz'
    rw [← Layout.lag_seen _ (a := z') (by have := congrArg Prod.fst hzz; exact this)]
    exact Layout.lag_nonneg h.viscosity (hq.valid h hrn hz') _
  · intro him
    have hi : x.isImmovable = true := by
      have : u.isImmovable = x.isImmovable := congrArg (fun v : ℤ × ℤ × Bool × ℝ × ℝ => v.2.2.1) x1
      rw [← this]; exact him
    obtain ⟨f1, -⟩ := hfix x hx hi
    rw [← g1, v1, huu, v3] at f1
    rw [x2, y2, hpos, hdt, f1]

end
end Verif
