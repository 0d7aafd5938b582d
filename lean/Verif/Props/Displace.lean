import Verif.Lemmas.Displace
import Verif.Props.Alike
import Verif.Props.Rest
import Verif.Props.Momentum
/-!
C114: a step does not depend on where in space the bodies are.
-/
namespace Verif
open Near Collector RunStep Mobility Sim Spec.Resume Spec.Momentum Spec.Layout Spec.Displace Spec.Mobility Spec.Motion Layout Displace

section
variable {C D C₀ D₀ : Sim.Cfg} {pbc : Fin 3 → Bool} {low high : Fin 3 → ℝ} {P Q B E : ℕ → List Sylinder} {v : V3}

theorem Displace.same_place (h : Sim.Sound C pbc low high P) (h' : Sim.Sound D pbc low high Q) (hp : Shifted pbc low high v C D) :
    D.place.diameterColRatio = C.place.diameterColRatio ∧ D.place.lengthColRatio = C.place.lengthColRatio ∧ D.place.colBuf = C.place.colBuf ∧ D.place.d = C.place.d := by
  have hd : D.place.d = C.place.d := by
    have := h.place.dinfo
    rw [h'.place.dinfo] at this
    exact Option.some.inj this
  exact ⟨hp.physics.diameterColRatio, hp.physics.lengthColRatio, hp.physics.colBuf, hd⟩

/-- The bodies of two programs when the next step starts. -/
theorem Displace.start (h : Sim.Sound C pbc low high P) (h' : Sim.Sound D pbc low high Q) (hmono : C.place.monolayer = false) (hmono' : D.place.monolayer = false) {s t q q' : Place.Sys}
    (hi : Sim.Inv C P s) (hi' : Sim.Inv D Q t) (hid : ((all C.place.g.n P).map Sylinder.gid).Nodup)
    (hmove : Displaced pbc low high v (all C.place.g.n s.P) (all D.place.g.n t.P))
    (hbig : ∀ b ∈ all C.place.g.n s.P, ∀ k, pbc k = false → |Near.comp b.pos k| < Stats.largeFloat)
    (hbig' : ∀ b ∈ all D.place.g.n t.P, ∀ k, pbc k = false → |Near.comp b.pos k| < Stats.largeFloat)
    {k k' : ℕ} (hq : ∃ x, Place.Valid C.place x ∧ Place.PrepareStep C.place x k s q) (hq' : ∃ x, Place.Valid D.place x ∧ Place.PrepareStep D.place x k' t q') :
    ∃ n : ℤ → Image.Idx, (∀ w ∈ (all C.place.g.n q.P).map seen, Flat C.place.d (n w.1.1)) ∧
      (((all C.place.g.n q.P).map seen).map (move C.place.d v n)).Perm ((all D.place.g.n q'.P).map seen) := by
  obtain ⟨x, hx, hq⟩ := hq
  obtain ⟨x', hx', hq'⟩ := hq'
  have n1 := Resume.next h hmono hi hx hq hbig
  have n2 := Resume.next h' hmono' hi' hx' hq' hbig'
  obtain ⟨M, hM, hf⟩ := hmove
  obtain ⟨-, x2, x3, -⟩ := h.place.extent
  have hids : ((all C.place.g.n s.P).map Sylinder.gid).Nodup := by
    have := hi.kinds.map fun k => k.1
    simp only [List.map_map] at this
    exact this.nodup_iff.2 hid
  have hf' : List.Forall₂ (fun a b => ∃ j, Flat C.place.d j ∧ Resume.seenHome pbc low high b =
      ((Resume.seenHome pbc low high a).1, (Resume.seenHome pbc low high a).2.1 + (v + per C.place.d j), (Resume.seenHome pbc low high a).2.2)) (all C.place.g.n s.P) M := by
    refine hf.imp ?_
    rintro a b ⟨a1, a2, a3⟩
    have hex : ∀ k, ∃ m : ℤ, (pbc k = false → m = 0) ∧ Near.comp (Resume.home pbc low high b.pos) k =
        Near.comp (Resume.home pbc low high a.pos) k + (Near.comp v k + m * (C.place.d.high k - C.place.d.low k)) := by
      intro k
      obtain ⟨i, i1, i2⟩ := a3 k
      obtain ⟨i', i3, i4⟩ := home_image (pbc := pbc) (low := low) (high := high) a.pos k
      obtain ⟨i'', i5, i6⟩ := home_image (pbc := pbc) (low := low) (high := high) b.pos k
      refine ⟨i + i'' - i', fun h => by rw [i1 h, i3 h, i5 h]; rfl, ?_⟩
      rw [i6, i4, i2]
      cases hk : pbc k with
      | true =>
        rw [(x3 k hk).1, (x3 k hk).2]
        push_cast
        ring
      | false =>
        rw [i1 hk, i3 hk, i5 hk]
        simp
    obtain ⟨mx, m1, m2⟩ := hex 0
    obtain ⟨my, m3, m4⟩ := hex 1
    obtain ⟨mz, m5, m6⟩ := hex 2
    refine ⟨⟨mx, my, mz⟩, ⟨fun h => m1 (by rw [← x2]; exact h), fun h => m3 (by rw [← x2]; exact h), fun h => m5 (by rw [← x2]; exact h)⟩, ?_⟩
    refine Prod.ext a1 (Prod.ext ?_ a2)
    exact V3.ext m2 m4 m6
  obtain ⟨n, g1, g2⟩ := choose_periods (f := Resume.seenHome pbc low high) (fun b => rfl) hids hf'
  refine ⟨n, ?_, ?_⟩
  · intro w hw
    obtain ⟨a, ha, rfl⟩ := List.mem_map.1 (n1.mem_iff.1 hw)
    exact g1 a ha
  · refine (n1.map _).trans (List.Perm.trans ?_ n2.symm)
    rw [← g2]
    exact hM.map _

/-- The constraints of two steps. -/
theorem Displace.constraints_perm (h : Sim.Sound C pbc low high P) (h' : Sim.Sound D pbc low high Q) (hp : Shifted pbc low high v C D) (hid : ((all C.place.g.n P).map Sylinder.gid).Nodup)
    {fl fl' : ℝ → ℝ} {pre pre' : Bool} {s s' t t' : Sim.State} {q q' : Place.Sys} {ranks ranks' : List RankIn} {out out' : Out}
    (hq : Sim.Prepared C P q) (hq' : Sim.Prepared D Q q') (hs : Sim.Step C fl pre s q ranks out s') (hs' : Sim.Step D fl' pre' t q' ranks' out' t')
    {n : ℤ → Image.Idx} (hn : ∀ w ∈ (all C.place.g.n q.P).map seen, Flat C.place.d (n w.1.1))
    (hV : (((all C.place.g.n q.P).map seen).map (move C.place.d v n)).Perm ((all D.place.g.n q'.P).map seen)) :
    ((constraints ranks).map bare).Perm ((constraints ranks').map bare) := by
  have hv := views_nodup hq hid
  have hv' : (((all D.place.g.n q'.P).map seen).map fun w => w.1.1).Nodup := by
    have h1 := hV.map fun w => w.1.1
    rw [List.map_map] at h1
    exact h1.nodup_iff.1 hv
  have hid' : ((all D.place.g.n Q).map Sylinder.gid).Nodup := by
    have h2 := hq'.kinds.map fun k => k.1
    simp only [List.map_map] at h2 hv'
    exact h2.nodup_iff.1 hv'
  have hcfg := Displace.same_place h h' hp
  have hfwd : ∀ w ∈ (all C.place.g.n q.P).map seen, move C.place.d v n w ∈ (all D.place.g.n q'.P).map seen := fun w hw => hV.mem_iff.1 (List.mem_map_of_mem hw)
  have hbwd : ∀ w ∈ (all D.place.g.n q'.P).map seen, ∃ w₀ ∈ (all C.place.g.n q.P).map seen, w = move C.place.d v n w₀ := by
    intro w hw
    obtain ⟨w₀, h1, h2⟩ := List.mem_map.1 (hV.mem_iff.2 hw)
    exact ⟨w₀, h1, h2.symm⟩
  obtain ⟨K, B1, N1, e1, k1, f1, c1, l1⟩ := step_parts hs h hq hid
  obtain ⟨K', B2, N2, e2, k2, f2, c2, l2⟩ := step_parts hs' h' hq' hid'
  have hK : (K.map (rekey n)).Perm K' := by
    rw [List.perm_ext_iff_of_nodup (k1.map (rekey_inj n)) k2]
    intro k
    constructor
    · intro hk
      obtain ⟨k₀, hk₀, rfl⟩ := List.mem_map.1 hk
      obtain ⟨i, hi, rfl⟩ := List.getElem_of_mem hk₀
      obtain ⟨hl, hg⟩ := List.forall₂_iff_get.1 f1
      obtain ⟨u, hu⟩ := pair_move hcfg v n hn hfwd _ _ (hg i hi (by omega))
      exact c2 _ _ hu
    · intro hk
      obtain ⟨i, hi, rfl⟩ := List.getElem_of_mem hk
      obtain ⟨hl, hg⟩ := List.forall₂_iff_get.1 f2
      obtain ⟨u, hu⟩ := pair_move (c := D.place) (c' := C.place) (V' := (all C.place.g.n q.P).map seen) ⟨hcfg.1.symm, hcfg.2.1.symm, hcfg.2.2.1.symm, hcfg.2.2.2.symm⟩ (-v) (negate n)
        (fun w hw => by
          obtain ⟨w₀, hw₀, rfl⟩ := hbwd w hw
          obtain ⟨z1, z2, z3⟩ := hn w₀ hw₀
          rw [hcfg.2.2.2]
          refine ⟨fun h => ?_, fun h => ?_, fun h => ?_⟩
          · show -(n w₀.1.1).x = 0
            rw [z1 h]; rfl
          · show -(n w₀.1.1).y = 0
            rw [z2 h]; rfl
          · show -(n w₀.1.1).z = 0
            rw [z3 h]; rfl)
        (fun w hw => by
          obtain ⟨w₀, hw₀, rfl⟩ := hbwd w hw
          rw [hcfg.2.2.2, move_back]
          exact hw₀) _ _ (hg i hi (by omega))
      rw [← rekey_negate n (K'[i])]
      exact List.mem_map_of_mem (c1 _ _ hu)
  have hB : (B1.map bare).Perm (B2.map bare) := by
    refine perm_of_two (φ := rekey n) ?_ f1 f2 hK
    intro k _ b b' hb hb'
    obtain ⟨u, hu⟩ := pair_move hcfg v n hn hfwd _ _ hb
    have := PairOf.unique (c := D.place) hv' _ _ _ hu hb'
    rw [← bare_forget b', ← this, bare_trb, bare_forget]
  have hE : (((everyone C.place.g.n q.P).map seen).map (move C.place.d v n)).Perm ((everyone D.place.g.n q'.P).map seen) := by
    rw [everyone_seen, everyone_seen]
    exact hV
  have hin : ∀ x ∈ everyone C.place.g.n q.P, ∀ k, C.link.pbc k = true → C.link.low k ≤ Near.comp x.pos k ∧ Near.comp x.pos k < C.link.high k := by
    intro x hx k hk
    obtain ⟨r, hr, hx⟩ := mem_everyone.1 hx
    exact hq.inside h hr hx k hk
  have hin' : ∀ x ∈ everyone D.place.g.n q'.P, ∀ k, C.link.pbc k = true → C.link.low k ≤ Near.comp x.pos k ∧ Near.comp x.pos k < C.link.high k := by
    intro x hx k hk
    obtain ⟨r, hr, hx⟩ := mem_everyone.1 hx
    have hl : D.link = C.link := hp.physics.link
    have := hq'.inside h' hr hx k (by rw [hl]; exact hk)
    rw [hl] at this
    exact this
  obtain ⟨-, x2, x3, -⟩ := h.place.extent
  have l2' : List.Forall₂ (fun (p : Sylinder × ℤ) b => LinkOf C.link D.place ((all D.place.g.n q'.P).map seen) (seen p.1, p.2) (forget b))
      (linkPairs D.linkMap (everyone D.place.g.n q'.P)) N2 := by
    refine l2.imp fun k b hb => ?_
    rw [show D.link = C.link from hp.physics.link] at hb
    exact hb
  have hN : (N1.map bare).Perm (N2.map bare) := by
    refine perm_of_two (R := fun p b => LinkOf C.link C.place ((all C.place.g.n q.P).map seen) p (forget b)) (R' := fun p b => LinkOf C.link D.place ((all D.place.g.n q'.P).map seen) p (forget b))
      (φ := fun p => (move C.place.d v n p.1, p.2)) (k := (linkPairs C.linkMap (everyone C.place.g.n q.P)).map fun p => (seen p.1, p.2))
      (k' := (linkPairs D.linkMap (everyone D.place.g.n q'.P)).map fun p => (seen p.1, p.2)) ?_ ?_ ?_ ?_
    · rintro ⟨w, g⟩ hk b b' hb hb'
      rw [Layout.linkPairs_seen] at hk
      obtain ⟨w', hw', hk⟩ := List.mem_flatMap.1 hk
      obtain ⟨g', -, hk⟩ := List.mem_map.1 hk
      cases hk
      have hw2 : w ∈ (all C.place.g.n q.P).map seen := by rw [← everyone_seen]; exact hw'
      obtain ⟨x, hx, hxw⟩ := List.mem_map.1 hw'
      have hmw : move C.place.d v n w ∈ (everyone D.place.g.n q'.P).map seen := by rw [everyone_seen]; exact hfwd w hw2
      obtain ⟨x', hx', hxw'⟩ := List.mem_map.1 hmw
      have hpx : x.pos = w.2.1 := by rw [← hxw]; rfl
      have hpx' : x'.pos = (move C.place.d v n w).2.1 := by rw [← hxw']; rfl
      have := link_move (cfg := C.link) hcfg (by rw [h.linkBox.1, h.linkBox.2.1, h.linkBox.2.2]; exact h.place.periodic) (fun k => by rw [x2, h.linkBox.1])
        (fun k hk => by rw [h.linkBox.1] at hk; rw [h.linkBox.2.1, h.linkBox.2.2]; exact x3 k hk) hv' v n hn hfwd w hw2 g
        (fun k hk => by rw [← hpx]; exact hin x hx k hk) (fun k hk => by rw [← hpx']; exact hin' x' hx' k hk) _ _ hb hb'
      rwa [bare_forget, bare_forget] at this
    · rw [List.forall₂_map_left_iff]; exact l1
    · rw [List.forall₂_map_left_iff]; exact l2'
    · rw [Layout.linkPairs_seen, Layout.linkPairs_seen]
      refine List.Perm.trans ?_ (hE.flatMap_right _)
      rw [List.map_flatMap, List.flatMap_map, List.flatMap_map, List.flatMap_map]
      refine List.Perm.flatMap_left _ fun x _ => ?_
      rw [List.map_map]
      have hl : D.linkMap.Perm C.linkMap := hp.physics.linkMap
      have : (Links.nexts C.linkMap (seen x).1.1).Perm (Links.nexts D.linkMap (seen x).1.1) := by
        unfold Links.nexts
        exact ((hl.filter _).map _).symm
      exact this.map _
  refine (e1.map bare).trans (List.Perm.trans ?_ (e2.map bare).symm)
  simp only [List.map_append]
  refine (hB.append ?_).append hN
  obtain ⟨M, hM, hf⟩ := hp.bounds
  rw [List.map_flatMap, List.map_flatMap]
  refine List.Perm.trans ?_ (hM.flatMap_right _)
  have hper := hp.periods
  clear hB hN hK l2' l1 l2 e1 e2 f1 f2 c1 c2 hM
  revert hper hf
  generalize C.bounds = L
  intro hf hper
  induction hf with
  | nil => exact List.Perm.refl _
  | @cons b b' L M hb _ ih =>
    rw [List.flatMap_cons, List.flatMap_cons]
    refine List.Perm.append ?_ (ih fun b hb => hper b (List.mem_cons_of_mem _ hb))
    rw [List.map_flatMap, List.map_flatMap]
    rw [List.map_map] at hE
    refine flatMap_perm hE _ _ fun x hx y hy hxy => List.Perm.of_eq ?_
    obtain ⟨x1, x2'⟩ := Layout.sizes C hq hx
    obtain ⟨y1, y2⟩ := Layout.sizes D hq' hy
    have hk : kind y = kind x := (congrArg Prod.fst hxy).symm
    have hkk : (seen y).1 = (seen x).1 := hk
    have hx2 : seen x ∈ (all C.place.g.n q.P).map seen := by rw [← everyone_seen]; exact List.mem_map_of_mem hx
    have hcar : Carried (v + per C.place.d (n x.gid)) b b' := by
      have e : v + per C.place.d (n x.gid) = per C.place.d (n x.gid) + v := by ext <;> simp <;> ring
      rw [e]
      exact carried_trans (carried_per x2 x3 (hper b List.mem_cons_self) (hn _ hx2)) hb
    rw [show D.place.colBuf = C.place.colBuf from hcfg.2.2.1]
    exact (bodyBlocks_move b b' _ hcar C.place.colBuf x y hk (congrArg (fun w : View => w.2.1) hxy).symm (congrArg (fun w : View => w.2.2) hxy).symm
      (by rw [x1, y1, hkk, hcfg.1]) (by rw [x2', y2, hkk, hcfg.2.1])).symm

/-- The same bodies, moved into the box and distributed. -/
theorem Displace.homed {L L' L1 L1' : List Sylinder} (h : Displaced pbc low high v L L') (h1 : (L1.map seen).Perm (L.map (Resume.seenHome pbc low high)))
    (h2 : (L1'.map seen).Perm (L'.map (Resume.seenHome pbc low high))) : Displaced pbc low high v L1 L1' := by
  obtain ⟨M, hM, hf⟩ := h
  obtain ⟨L0, a1, a2⟩ := align h1
  obtain ⟨M0, b1, b2⟩ := List.perm_comp_forall₂ a1 hf
  obtain ⟨L2, c1, c2⟩ := align ((h2.trans ((b2.trans hM).map _).symm).symm)
  refine ⟨L2, c1, ?_⟩
  rw [List.forall₂_iff_get] at a2 b1 c2 ⊢
  obtain ⟨l1, g1⟩ := a2
  obtain ⟨l2, g2⟩ := b1
  obtain ⟨l3, g3⟩ := c2
  refine ⟨by omega, fun i i1 i2 => ?_⟩
  have e1 := g1 i i1 (by omega)
  obtain ⟨k1, k2, k3⟩ := g2 i (by omega) (by omega)
  have e3 := g3 i (by omega) i2
  have p1 : (L1.get ⟨i, i1⟩).pos = Resume.home pbc low high (L0.get ⟨i, by omega⟩).pos := congrArg (fun w : View => w.2.1) e1
  have p3 : Resume.home pbc low high (M0.get ⟨i, by omega⟩).pos = (L2.get ⟨i, i2⟩).pos := congrArg (fun w : View => w.2.1) e3
  refine ⟨?_, ?_, fun k => ?_⟩
  · have f1 : kind (L1.get ⟨i, i1⟩) = kind (L0.get ⟨i, by omega⟩) := congrArg Prod.fst e1
    have f3 : kind (M0.get ⟨i, by omega⟩) = kind (L2.get ⟨i, i2⟩) := congrArg Prod.fst e3
    rw [← f3, k1, f1]
  · have f1 : (L1.get ⟨i, i1⟩).direction = (L0.get ⟨i, by omega⟩).direction := congrArg (fun w : View => w.2.2) e1
    have f3 : (M0.get ⟨i, by omega⟩).direction = (L2.get ⟨i, i2⟩).direction := congrArg (fun w : View => w.2.2) e3
    rw [← f3, k2, f1]
  · obtain ⟨m, m1, m2⟩ := k3 k
    obtain ⟨m', m3, m4⟩ := home_image (pbc := pbc) (low := low) (high := high) (L0.get ⟨i, by omega⟩).pos k
    obtain ⟨m'', m5, m6⟩ := home_image (pbc := pbc) (low := low) (high := high) (M0.get ⟨i, by omega⟩).pos k
    refine ⟨m + m'' - m', fun h => by rw [m1 h, m3 h, m5 h]; rfl, ?_⟩
    rw [p1, ← p3, m4, m6, m2]
    push_cast
    ring

/-- C114, start.  One program is given bodies, another the same bodies displaced by `v`, each in any order and on any of its ranks; along periodic directions a body may be displaced by any
number of periods more.  When both have moved the bodies into the box and distributed them, the bodies of one are still those of the other displaced by `v`. -/
theorem C114_start (h : Sim.Sound C pbc low high P) (h' : Sim.Sound D pbc low high Q) (hmove : Displaced pbc low high v (all C.place.g.n P) (all D.place.g.n Q))
    (hbig : ∀ b ∈ all C.place.g.n P, ∀ k, pbc k = false → |Near.comp b.pos k| < Stats.largeFloat)
    (hbig' : ∀ b ∈ all D.place.g.n Q, ∀ k, pbc k = false → |Near.comp b.pos k| < Stats.largeFloat)
    (junk junk' : ℕ → Box) (x y x' y' : Place.Exec) (s1 s2 t1 t2 : Place.Sys) (hx : Place.Valid C.place x) (hy : Place.Valid C.place y)
    (hx' : Place.Valid D.place x') (hy' : Place.Valid D.place y')
    (h1 : Place.DecomposeDomain C.place x ⟨⟨true, junk⟩, P⟩ s1) (h2 : Place.ExchangeSylinder C.place y s1 s2)
    (h1' : Place.DecomposeDomain D.place x' ⟨⟨true, junk'⟩, Q⟩ t1) (h2' : Place.ExchangeSylinder D.place y' t1 t2) :
    Displaced pbc low high v (all C.place.g.n s2.P) (all D.place.g.n t2.P) ∧
      (∀ b ∈ all C.place.g.n s2.P, ∀ k, pbc k = false → |Near.comp b.pos k| < Stats.largeFloat) ∧
      ∀ b ∈ all D.place.g.n t2.P, ∀ k, pbc k = false → |Near.comp b.pos k| < Stats.largeFloat := by
  obtain ⟨e1, e2⟩ := Layout.start_seen h hx hy h1 h2 hbig
  obtain ⟨f1, f2⟩ := Layout.start_seen h' hx' hy' h1' h2' hbig'
  exact ⟨Displace.homed hmove e1 f1, e2, f2⟩

/-- C114, constraints.  Two programs simulate the same in the same box, each in a run of its own with any ranks and threads, the boundaries of one being those of the other displaced by
`v` (`Shifted`).  When the bodies of one are those of the other displaced by `v`, up to periods, the next step of each has bodies with this displacement and the same constraints: the contacts,
contacts with the boundaries and links of one are those of the other, with the same bodies, separations, directions, points relative to the centres, and stresses. -/
theorem C114_constraints (h : Sim.Sound C pbc low high P) (h' : Sim.Sound D pbc low high Q) (hp : Shifted pbc low high v C D) (hid : ((all C.place.g.n P).map Sylinder.gid).Nodup)
    (fl fl' : ℝ → ℝ) (k k' : ℕ) (s t : Sim.State) (hr : Sim.Run (Sim.Ok pbc low high) fl C₀ B C P k s) (hr' : Sim.Run (Sim.Ok pbc low high) fl' D₀ E D Q k' t)
    (hmove : Displaced pbc low high v (all C.place.g.n s.sys.P) (all D.place.g.n t.sys.P))
    (hbig : ∀ b ∈ all C.place.g.n s.sys.P, ∀ k, pbc k = false → |Near.comp b.pos k| < Stats.largeFloat)
    (hbig' : ∀ b ∈ all D.place.g.n t.sys.P, ∀ k, pbc k = false → |Near.comp b.pos k| < Stats.largeFloat)
    (pre pre' : Bool) (q q' : Place.Sys) (ranks ranks' : List RankIn) (out out' : Out) (s' t' : Sim.State) (hs : Sim.Step C fl pre s q ranks out s')
    (hs' : Sim.Step D fl' pre' t q' ranks' out' t') :
    Displaced pbc low high v (all C.place.g.n q.P) (all D.place.g.n q'.P) ∧ ((constraints ranks).map bare).Perm ((constraints ranks').map bare) := by
  obtain ⟨n, hn, hV⟩ := Displace.start h h' hp.physics.mono.1.1 hp.physics.mono.2.1 (Sim.run_inv hr) (Sim.run_inv hr') hid hmove hbig hbig' hs.prepare hs'.prepare
  refine ⟨?_, Displace.constraints_perm h h' hp hid (hs.prepared h (Sim.run_inv hr)) (hs'.prepared h' (Sim.run_inv hr')) hs hs' hn hV⟩
  obtain ⟨x, hx, hq⟩ := hs.prepare
  obtain ⟨x', hx', hq'⟩ := hs'.prepare
  exact Displace.homed hmove (Resume.next h hp.physics.mono.1.1 (Sim.run_inv hr) hx hq hbig) (Resume.next h' hp.physics.mono.2.1 (Sim.run_inv hr') hx' hq' hbig')

/-- A constraint without the places of its points. -/
def Displace.nolab (b : Block) : Block := { b with labI := 0, labJ := 0 }

/-- A body without its place. -/
def Displace.still (b : Sylinder) : Sylinder := { b with pos := 0 }

open Spec.Collector (force torque) in
theorem Displace.force_nolab (cs : List (Block × ℝ)) (g : ℤ) :
    force (cs.map fun p => (nolab p.1, p.2)) g = force cs g ∧ torque (cs.map fun p => (nolab p.1, p.2)) g = torque cs g := by
  unfold force torque
  simp only [List.map_map]
  exact ⟨rfl, rfl⟩

open Spec.Collector (force torque) in
theorem Displace.still_moves {mu : ℝ} {E : List Sylinder} {cs : List (Block × ℝ)} {U W : ℤ → V3} {G V : ℤ → V3 × V3}
    (h : ∀ x ∈ E, Moves mu x (G x.gid + (force cs x.globalIndex, torque cs x.globalIndex)) ((U x.gid, W x.gid) - V x.gid)) :
    ∀ x ∈ E.map still, Moves mu x (G x.gid + (force (cs.map fun p => (nolab p.1, p.2)) x.globalIndex, torque (cs.map fun p => (nolab p.1, p.2)) x.globalIndex)) ((U x.gid, W x.gid) - V x.gid) := by
  intro x hx
  obtain ⟨y, hy, rfl⟩ := List.mem_map.1 hx
  rw [(force_nolab cs _).1, (force_nolab cs _).2]
  exact h y hy

open Spec.Collector (force torque) in
theorem Displace.still_work {E : List Sylinder} {cs : List (Block × ℝ)}
    (h : ∀ T S : ℤ → V3, (E.map fun x => power (force cs x.globalIndex, torque cs x.globalIndex) (T x.gid, S x.gid)).sum = (cs.map fun p => p.2 * gapOf T S p.1).sum) (T S : ℤ → V3) :
    ((E.map still).map fun x => power (force (cs.map fun p => (nolab p.1, p.2)) x.globalIndex, torque (cs.map fun p => (nolab p.1, p.2)) x.globalIndex) (T x.gid, S x.gid)).sum =
      ((cs.map fun p => (nolab p.1, p.2)).map fun p => p.2 * gapOf T S p.1).sum := by
  simp only [(force_nolab cs _).1, (force_nolab cs _).2]
  rw [List.map_map, List.map_map]
  exact h T S

theorem Displace.still_solves {dt : ℝ} {cs : List (Block × ℝ)} {fl : ℝ → ℝ} {res : ℝ} {U W : ℤ → V3}
    (h : ∀ p ∈ cs, Spec.RunStep.Solves fl dt res p.1 (gapOf U W p.1) p.2 ∧ p.2 ≤ fl (BCQP.dblMax / 10 - BCQP.dblEps * 100) ∧
      (p.1.bilateral = true → fl (-(10 : ℝ) ^ 8 + BCQP.dblEps * 100) ≤ p.2)) :
    ∀ p ∈ cs.map fun p => (nolab p.1, p.2), Spec.RunStep.Solves fl dt res p.1 (gapOf U W p.1) p.2 ∧ p.2 ≤ fl (BCQP.dblMax / 10 - BCQP.dblEps * 100) ∧
      (p.1.bilateral = true → fl (-(10 : ℝ) ^ 8 + BCQP.dblEps * 100) ≤ p.2) := by
  intro p hp
  obtain ⟨p0, hp0, rfl⟩ := List.mem_map.1 hp
  obtain ⟨h1, h2, h3⟩ := h p0 hp0
  exact ⟨⟨h1.uni, h1.bi, h1.rigid⟩, h2, h3⟩

open Spec.Collector (force torque) in
/-- Two solutions of the same problem are close, wherever the bodies are. -/
theorem Displace.close {mu dt : ℝ} (hdt : 0 < dt) {fl fl' : ℝ → ℝ} {E E' : List Sylinder} (hv : ∀ x ∈ E, Valid x)
    (hE : (E.map fun x => (kind x, x.direction)).Perm (E'.map fun x => (kind x, x.direction))) {cs cs' : List (Block × ℝ)}
    (hcs : ((cs.map Prod.fst).map bare).Perm ((cs'.map Prod.fst).map bare)) {U W U' W' : ℤ → V3} {G V : ℤ → V3 × V3} {res res' tol tol' : ℝ}
    (htol : 0 ≤ tol) (htol' : 0 ≤ tol') (hres : res ≤ tol) (hres' : res' ≤ tol')
    (m : ∀ x ∈ E, Moves mu x (G x.gid + (force cs x.globalIndex, torque cs x.globalIndex)) ((U x.gid, W x.gid) - V x.gid))
    (m' : ∀ x ∈ E', Moves mu x (G x.gid + (force cs' x.globalIndex, torque cs' x.globalIndex)) ((U' x.gid, W' x.gid) - V x.gid))
    (w : ∀ T S : ℤ → V3, (E.map fun x => power (force cs x.globalIndex, torque cs x.globalIndex) (T x.gid, S x.gid)).sum = (cs.map fun p => p.2 * gapOf T S p.1).sum)
    (w' : ∀ T S : ℤ → V3, (E'.map fun x => power (force cs' x.globalIndex, torque cs' x.globalIndex) (T x.gid, S x.gid)).sum = (cs'.map fun p => p.2 * gapOf T S p.1).sum)
    (c : ∀ p ∈ cs, Spec.RunStep.Solves fl dt res p.1 (gapOf U W p.1) p.2 ∧ p.2 ≤ fl (BCQP.dblMax / 10 - BCQP.dblEps * 100) ∧
      (p.1.bilateral = true → fl (-(10 : ℝ) ^ 8 + BCQP.dblEps * 100) ≤ p.2))
    (c' : ∀ p ∈ cs', Spec.RunStep.Solves fl' dt res' p.1 (gapOf U' W' p.1) p.2 ∧ p.2 ≤ fl' (BCQP.dblMax / 10 - BCQP.dblEps * 100) ∧
      (p.1.bilateral = true → fl' (-(10 : ℝ) ^ 8 + BCQP.dblEps * 100) ≤ p.2)) :
    (∀ x ∈ E, x.isImmovable = true → U x.gid = U' x.gid ∧ W x.gid = W' x.gid) ∧
    dt * (E.map fun x => lag mu x (U x.gid - U' x.gid, W x.gid - W' x.gid)).sum ≤
      (cs.map fun p => loose dt tol tol' |fl (BCQP.dblEps * 100)| p.1 (p.1.delta0 + dt * gapOf U W p.1) p.2).sum +
      (cs'.map fun p => loose dt tol' tol |fl' (BCQP.dblEps * 100)| p.1 (p.1.delta0 + dt * gapOf U' W' p.1) p.2).sum := by
  have m1 := still_moves m
  have m2 := still_moves m'
  have w1 := still_work w
  have w2 := still_work w'
  have c1 := still_solves c
  have c2 := still_solves c'
  clear m m' w w' c c'
  obtain ⟨r1, r2⟩ := two (E := E.map still) (E' := E'.map still) (cs := cs.map fun p => (nolab p.1, p.2)) (cs' := cs'.map fun p => (nolab p.1, p.2)) hdt
    (fun x hx => by
      obtain ⟨y, hy, rfl⟩ := List.mem_map.1 hx
      exact ⟨(hv y hy).radius, (hv y hy).length, (hv y hy).unit⟩)
    (by
      have := hE.map fun w : (ℤ × ℤ × Bool × ℝ × ℝ) × V3 => ((w.1, (0 : V3), w.2) : View)
      rw [List.map_map, List.map_map] at this ⊢
      exact this)
    (by
      rw [List.map_map, List.map_map] at hcs
      rw [List.map_map, List.map_map, List.map_map, List.map_map]
      exact hcs)
    htol htol' hres hres' m1 m2 w1 w2 c1 c2
  refine ⟨fun x hx hi => r1 (still x) (List.mem_map_of_mem hx) hi, ?_⟩
  rw [List.map_map, List.map_map, List.map_map] at r2
  exact r2

theorem Displace.views {L L' : List Sylinder} (h : Displaced pbc low high v L L') :
    (L.map fun x => (kind x, x.direction)).Perm (L'.map fun x => (kind x, x.direction)) := by
  obtain ⟨M, hM, hf⟩ := h
  refine List.Perm.trans (List.Perm.of_eq ?_) (hM.map _)
  clear hM
  induction hf with
  | nil => rfl
  | cons h _ ih => rw [List.map_cons, List.map_cons, h.1, h.2.1, ih]

/-- C114, motion.  Take steps as in `C114_constraints`, both without Brownian motion, both with the same given forces and velocities of the bodies, in which both solvers converged, each to
its own tolerance, with no spring or rigid link at the cap of `-10⁸`.  Then the bodies move alike, up to what the tolerances leave open, with the same bound as in `C100_motion`. -/
theorem C114_motion (h : Sim.Sound C pbc low high P) (h' : Sim.Sound D pbc low high Q) (hp : Shifted pbc low high v C D) (hid : ((all C.place.g.n P).map Sylinder.gid).Nodup)
    (fl fl' : ℝ → ℝ) (k k' : ℕ) (s t : Sim.State) (hr : Sim.Run (Sim.Ok pbc low high) fl C₀ B C P k s) (hr' : Sim.Run (Sim.Ok pbc low high) fl' D₀ E D Q k' t)
    (hmove : Displaced pbc low high v (all C.place.g.n s.sys.P) (all D.place.g.n t.sys.P))
    (hbig : ∀ b ∈ all C.place.g.n s.sys.P, ∀ k, pbc k = false → |Near.comp b.pos k| < Stats.largeFloat)
    (hbig' : ∀ b ∈ all D.place.g.n t.sys.P, ∀ k, pbc k = false → |Near.comp b.pos k| < Stats.largeFloat)
    (pre pre' : Bool) (q q' : Place.Sys) (ranks ranks' : List RankIn) (out out' : Out) (s' t' : Sim.State) (hs : Sim.Step C fl pre s q ranks out s')
    (hs' : Sim.Step D fl' pre' t q' ranks' out' t')
    (hT : pre = true ∨ C.mob.KBT ≤ 0) (hT' : pre' = true ∨ D.mob.KBT ≤ 0) (hfree : C.mob.sylinderFixed = false) (hfree' : D.mob.sylinderFixed = false)
    (htol : 0 ≤ C.ctl.res) (htol' : 0 ≤ D.ctl.res) (res res' : ℝ) (hc : Sim.Converged C fl out res) (hc' : Sim.Converged D fl' out' res')
    (hlow : ∀ p ∈ out.pools, ∀ b ∈ p.flatten, b.bilateral = true → fl (-(10 : ℝ) ^ 8 + BCQP.dblEps * 100) ≤ b.gamma)
    (hlow' : ∀ p ∈ out'.pools, ∀ b ∈ p.flatten, b.bilateral = true → fl' (-(10 : ℝ) ^ 8 + BCQP.dblEps * 100) ≤ b.gamma)
    (G V : ℤ → V3 × V3) (hG : Loads C.place.g.n q ranks G V) (hG' : Loads D.place.g.n q' ranks' G V)
    (U W U' W' : ℤ → V3) (hU : Velocities (all C.place.g.n s'.sys.P) U W) (hU' : Velocities (all D.place.g.n t'.sys.P) U' W') :
    (∀ x ∈ all C.place.g.n q.P, x.isImmovable = true → U x.gid = U' x.gid ∧ W x.gid = W' x.gid) ∧
    C.mob.dt * ((all C.place.g.n q.P).map fun x => lag C.mob.viscosity x (U x.gid - U' x.gid, W x.gid - W' x.gid)).sum ≤
      (((constraints ranks).zip ((out.pools.flatMap fun p => p.flatten).map Block.gamma)).map fun x =>
        loose C.mob.dt C.ctl.res D.ctl.res |fl (BCQP.dblEps * 100)| x.1 (x.1.delta0 + C.mob.dt * gapOf U W x.1) x.2).sum +
      (((constraints ranks').zip ((out'.pools.flatMap fun p => p.flatten).map Block.gamma)).map fun x =>
        loose C.mob.dt D.ctl.res C.ctl.res |fl' (BCQP.dblEps * 100)| x.1 (x.1.delta0 + C.mob.dt * gapOf U' W' x.1) x.2).sum := by
  have hq := hs.prepared h (Sim.run_inv hr)
  have hq' := hs'.prepared h' (Sim.run_inv hr')
  obtain ⟨hV, hcon⟩ := C114_constraints h h' hp hid fl fl' k k' s t hr hr' hmove hbig hbig' pre pre' q q' ranks ranks' out out' s' t' hs hs'
  obtain ⟨a1, a2, a3, a4⟩ := one h hs hq hfree hc hlow (fun r hrn i x hx => by
    obtain ⟨rk, D, u, g1, g2, g3, g4, -, g5⟩ := (Layout.moving h hp.physics.mono.1.2 hfree hr hs hT r hrn).2 i x hx
    exact ⟨rk, D, u, g1, g2, g3, congrArg Prod.fst g4, g5⟩) hU hG
  obtain ⟨b1, b2, b3, b4⟩ := one h' hs' hq' hfree' hc' hlow' (fun r hrn i x hx => by
    obtain ⟨rk, D, u, g1, g2, g3, g4, -, g5⟩ := (Layout.moving h' hp.physics.mono.2.2 hfree' hr' hs' hT' r hrn).2 i x hx
    exact ⟨rk, D, u, g1, g2, g3, congrArg Prod.fst g4, g5⟩) hU' hG'
  obtain ⟨last, -, -, hlt, -⟩ := hc
  obtain ⟨last', -, -, hlt', -⟩ := hc'
  rw [show D.mob.viscosity = C.mob.viscosity from hp.physics.viscosity] at b1
  rw [show D.mob.dt = C.mob.dt from hp.physics.dt] at b3
  have hsn : ∀ (n : ℕ) (P : ℕ → List Sylinder), ((everyone n P).map fun x => (kind x, x.direction)) = (all n P).map fun x => (kind x, x.direction) := by
    intro n P
    exact Layout.map_seen (everyone_seen n P) (fun x => (kind x, x.direction)) (fun a b hab => by
      have e1 : kind a = kind b := congrArg Prod.fst hab
      have e2 : a.direction = b.direction := congrArg (fun w : View => w.2.2) hab
      show (kind a, a.direction) = (kind b, b.direction)
      rw [e1, e2])
  obtain ⟨c1, c2⟩ := Displace.close h.dt (fun x hx => by
    obtain ⟨r, hrn, hx⟩ := mem_everyone.1 hx
    exact hq.valid h hrn hx) (by rw [hsn, hsn]; exact Displace.views hV) (by rw [a4, b4]; exact hcon) htol htol' hlt.le hlt'.le a1 b1 a2 b2 a3 b3
  constructor
  · intro x hx him
    have : seen x ∈ (everyone C.place.g.n q.P).map seen := by rw [everyone_seen]; exact List.mem_map_of_mem hx
    obtain ⟨y, hy, hyx⟩ := List.mem_map.1 this
    have e1 : y.gid = x.gid := by have := congrArg (fun v : View => v.1.1) hyx; exact this
    have e2 : y.isImmovable = x.isImmovable := by have := congrArg (fun v : View => v.1.2.2.1) hyx; exact this
    rw [← e1]
    exact c1 y hy (e2.trans him)
  · rw [Layout.map_seen (everyone_seen C.place.g.n q.P) (fun x => lag C.mob.viscosity x (U x.gid - U' x.gid, W x.gid - W' x.gid)) (fun a b hab => by
      have e1 : a.gid = b.gid := by have := congrArg (fun v : View => v.1.1) hab; exact this
      rw [Layout.lag_seen _ (by have := congrArg Prod.fst hab; exact this), e1])] at c2
    exact c2

/-- C114, positions.  After such steps the displacement of each body of one program from the same body of the other is `v`, up to periods of the box, as far as the tolerances allow: for a
body `u` of one and the same body `u'` of the other, the smaller drag coefficient times the square of the deviation, plus the rotational one times the square of the difference of the turns that were
made, is at most `dt` times the right hand side of `C114_motion`. -/
theorem C114_positions (h : Sim.Sound C pbc low high P) (h' : Sim.Sound D pbc low high Q) (hp : Shifted pbc low high v C D) (hid : ((all C.place.g.n P).map Sylinder.gid).Nodup)
    (fl fl' : ℝ → ℝ) (k k' : ℕ) (s t : Sim.State) (hr : Sim.Run (Sim.Ok pbc low high) fl C₀ B C P k s) (hr' : Sim.Run (Sim.Ok pbc low high) fl' D₀ E D Q k' t)
    (hmove : Displaced pbc low high v (all C.place.g.n s.sys.P) (all D.place.g.n t.sys.P))
    (hbig : ∀ b ∈ all C.place.g.n s.sys.P, ∀ k, pbc k = false → |Near.comp b.pos k| < Stats.largeFloat)
    (hbig' : ∀ b ∈ all D.place.g.n t.sys.P, ∀ k, pbc k = false → |Near.comp b.pos k| < Stats.largeFloat)
    (pre pre' : Bool) (q q' : Place.Sys) (ranks ranks' : List RankIn) (out out' : Out) (s' t' : Sim.State) (hs : Sim.Step C fl pre s q ranks out s')
    (hs' : Sim.Step D fl' pre' t q' ranks' out' t')
    (hT : pre = true ∨ C.mob.KBT ≤ 0) (hT' : pre' = true ∨ D.mob.KBT ≤ 0) (hfree : C.mob.sylinderFixed = false) (hfree' : D.mob.sylinderFixed = false)
    (htol : 0 ≤ C.ctl.res) (htol' : 0 ≤ D.ctl.res) (res res' : ℝ) (hc : Sim.Converged C fl out res) (hc' : Sim.Converged D fl' out' res')
    (hlow : ∀ p ∈ out.pools, ∀ b ∈ p.flatten, b.bilateral = true → fl (-(10 : ℝ) ^ 8 + BCQP.dblEps * 100) ≤ b.gamma)
    (hlow' : ∀ p ∈ out'.pools, ∀ b ∈ p.flatten, b.bilateral = true → fl' (-(10 : ℝ) ^ 8 + BCQP.dblEps * 100) ≤ b.gamma)
    (G V : ℤ → V3 × V3) (hG : Loads C.place.g.n q ranks G V) (hG' : Loads D.place.g.n q' ranks' G V)
    (U W U' W' : ℤ → V3) (hU : Velocities (all C.place.g.n s'.sys.P) U W) (hU' : Velocities (all D.place.g.n t'.sys.P) U' W')
    (u u' : Sylinder) (hu : u ∈ all C.place.g.n s'.sys.P) (hu' : u' ∈ all D.place.g.n t'.sys.P) (huu : u.gid = u'.gid) :
    ∃ w, Periods pbc low high w ∧
    lag C.mob.viscosity u (u.pos + v + w - u'.pos, C.mob.dt • (u.omega - u'.omega)) ≤ C.mob.dt * (
      (((constraints ranks).zip ((out.pools.flatMap fun p => p.flatten).map Block.gamma)).map fun x =>
        loose C.mob.dt C.ctl.res D.ctl.res |fl (BCQP.dblEps * 100)| x.1 (x.1.delta0 + C.mob.dt * gapOf U W x.1) x.2).sum +
      (((constraints ranks').zip ((out'.pools.flatMap fun p => p.flatten).map Block.gamma)).map fun x =>
        loose C.mob.dt D.ctl.res C.ctl.res |fl' (BCQP.dblEps * 100)| x.1 (x.1.delta0 + C.mob.dt * gapOf U' W' x.1) x.2).sum) ∧
    (u.isImmovable = true → u'.pos = u.pos + v + w) := by
  have hq := hs.prepared h (Sim.run_inv hr)
  have hq' := hs'.prepared h' (Sim.run_inv hr')
  obtain ⟨hV, -⟩ := C114_constraints h h' hp hid fl fl' k k' s t hr hr' hmove hbig hbig' pre pre' q q' ranks ranks' out out' s' t' hs hs'
  obtain ⟨hfix, hsum⟩ := C114_motion h h' hp hid fl fl' k k' s t hr hr' hmove hbig hbig' pre pre' q q' ranks ranks' out out' s' t' hs hs' hT hT' hfree hfree' htol htol' res res' hc hc'
    hlow hlow' G V hG hG' U W U' W' hU hU'
  obtain ⟨x, hx, hxv, x1, x2⟩ := Layout.before h hp.physics.mono.1.2 hfree hr hs hT hu
  obtain ⟨x', hx', -, y1, y2⟩ := Layout.before h' hp.physics.mono.2.2 hfree' hr' hs' hT' hu'
  have g1 : u.gid = x.gid := congrArg Prod.fst x1
  have g2 : u'.gid = x'.gid := congrArg Prod.fst y1
  obtain ⟨w, hw, hpos⟩ : ∃ w, Periods pbc low high w ∧ x'.pos = x.pos + v + w := by
    obtain ⟨M, hM, hf⟩ := hV
    have hxM := hM.mem_iff.2 hx'
    obtain ⟨i, hi, hix⟩ := List.getElem_of_mem hxM
    rw [List.forall₂_iff_get] at hf
    obtain ⟨hl, hg⟩ := hf
    have hi' : i < (all C.place.g.n q.P).length := by omega
    obtain ⟨k1, k2, k3⟩ := hg i hi' hi
    simp only [List.get_eq_getElem, hix] at k1 k2 k3
    have hnd : ((all C.place.g.n q.P).map Sylinder.gid).Nodup := by
      have := views_nodup hq hid
      rw [List.map_map] at this
      exact this
    have hxx : (all C.place.g.n q.P)[i] = x := by
      refine List.inj_on_of_nodup_map hnd (List.getElem_mem hi') hx ?_
      have : x'.gid = ((all C.place.g.n q.P)[i]).gid := congrArg Prod.fst k1
      rw [← this, ← g2, ← huu, g1]
    rw [hxx] at k3
    refine ⟨x'.pos - (x.pos + v), fun k => ?_, by ext <;> simp⟩
    obtain ⟨m, m1, m2⟩ := k3 k
    refine ⟨m, m1, ?_⟩
    have : Near.comp (x'.pos - (x.pos + v)) k = Near.comp x'.pos k - (Near.comp x.pos k + Near.comp v k) := by fin_cases k <;> rfl
    rw [this, m2]
    ring
  obtain ⟨v1, v2⟩ := hU u hu
  obtain ⟨v3, v4⟩ := hU' u' hu'
  have hdt : D.mob.dt = C.mob.dt := hp.physics.dt
  have hdiff : u.pos + v + w - u'.pos = C.mob.dt • (u.vel - u'.vel) := by
    rw [x2, y2, hpos, hdt]
    ext <;> simp <;> ring
  refine ⟨w, hw, ?_, ?_⟩
  · rw [hdiff, Layout.lag_smul (T := (u.vel - u'.vel, u.omega - u'.omega)), Layout.lag_seen _ x1, pow_two, mul_assoc]
    refine mul_le_mul_of_nonneg_left (le_trans (mul_le_mul_of_nonneg_left ?_ h.dt.le) hsum) h.dt.le
    have hone : lag C.mob.viscosity x (u.vel - u'.vel, u.omega - u'.omega) = lag C.mob.viscosity x (U x.gid - U' x.gid, W x.gid - W' x.gid) := by
      rw [← g1, v1, v2, huu, v3, v4]
    rw [hone]
    refine List.single_le_sum ?_ _ (List.mem_map_of_mem (f := fun x => lag C.mob.viscosity x (U x.gid - U' x.gid, W x.gid - W' x.gid)) hx)
    intro y hy
    obtain ⟨z, hz, rfl⟩ := List.mem_map.1 hy
    have hz2 : seen z ∈ (everyone C.place.g.n q.P).map seen := by rw [everyone_seen]; exact List.mem_map_of_mem hz
    obtain ⟨z', hz', hzz⟩ := List.mem_map.1 hz2
    obtain ⟨r, hrn, hz'⟩ := mem_everyone.1 hz'
    rw [← Layout.lag_seen _ (a := z') (by have := congrArg Prod.fst hzz; exact this)]
    exact Layout.lag_nonneg h.viscosity (hq.valid h hrn hz') _
  · intro him
    have hi : x.isImmovable = true := by
      have : u.isImmovable = x.isImmovable := congrArg (fun v : ℤ × ℤ × Bool × ℝ × ℝ => v.2.2.1) x1
      rw [← this]; exact him
    obtain ⟨f1, -⟩ := hfix x hx hi
    rw [← g1, v1, huu, v3] at f1
    rw [x2, y2, hpos, hdt, f1]
    ext <;> simp <;> ring

end

/-- C114, boundaries.  A boundary is displaced by displacing its centre.  A wall is carried onto itself by every vector along it, a tube by every vector along its axis: boundaries of this
kind can be used with directions that are periodic. -/
theorem C114_boundaries (v : V3) :
    (∀ b : Boundary.SphereShell, Carried v (.sphere b) (.sphere { b with center := b.center + v })) ∧
    (∀ b : Boundary.Wall, Carried v (.wall b) (.wall { b with center := b.center + v }) ∧ (V3.dot v b.norm = 0 → Carried v (.wall b) (.wall b))) ∧
    (∀ b : Boundary.Tube, Carried v (.tube b) (.tube { b with center := b.center + v }) ∧ (V3.norm b.axis = 1 → (∃ c : ℝ, v = c • b.axis) → Carried v (.tube b) (.tube b))) := by
  have e1 : ∀ p c : V3, p + v - (c + v) = p - c := fun p c => add_sub_add p c v
  have e2 : ∀ p q : V3, p + (q + v) = p + q + v := by intro p q; ext <;> simp <;> ring
  have e3 : ∀ p q : V3, p + v - q = p - q + v := by intro p q; ext <;> simp <;> ring
  have e4 : ∀ p q : V3, p + v + q = p + q + v := by intro p q; ext <;> simp <;> ring
  have e5 : ∀ p q : V3, p + v - (q + v) = p - q := fun p c => add_sub_add p c v
  refine ⟨fun b p => ?_, fun b => ⟨fun p => ?_, fun h p => ?_⟩, fun b => ⟨fun p => ?_, fun h1 h2 p => ?_⟩⟩
  · show Boundary.SphereShell.project _ _ = _
    unfold BoundaryCol.Bound.project Boundary.SphereShell.project
    simp only [e1, e2]
    split_ifs <;> rfl
  · show some (Boundary.Wall.project _ _) = some _
    unfold Boundary.Wall.project
    congr 1
    have e : ∀ t : V3, p + v - t = p - t + v := fun t => e3 p t
    simp only [e1, e _, e5]
  · show some (Boundary.Wall.project _ _) = some _
    unfold Boundary.Wall.project
    congr 1
    have hd : V3.dot (p + v - b.center) b.norm = V3.dot (p - b.center) b.norm := by
      have : V3.dot (p + v - b.center) b.norm = V3.dot (p - b.center) b.norm + V3.dot v b.norm := by simp [V3.dot]; ring
      rw [this, h, add_zero]
    simp only [hd]
    have e : ∀ t : V3, p + v - (p + v - t) = p - (p - t) := by intro t; ext <;> simp
    refine Prod.ext (e3 _ _) ?_
    simp only [e]
  · show some (Boundary.Tube.project _ _) = some _
    unfold Boundary.Tube.project
    congr 1
    simp only [e1, e4, e5]
  · obtain ⟨c, rfl⟩ := h2
    have hax : V3.dot b.axis b.axis = 1 := by
      have := V3.norm_sq b.axis
      rw [h1] at this
      simpa [V3.normSq] using this.symm
    show some (Boundary.Tube.project _ _) = some _
    unfold Boundary.Tube.project
    congr 1
    have hd : V3.dot (p + c • b.axis - b.center) b.axis = V3.dot (p - b.center) b.axis + c := by
      have : V3.dot (p + c • b.axis - b.center) b.axis = V3.dot (p - b.center) b.axis + c * V3.dot b.axis b.axis := by simp [V3.dot]; ring
      rw [this, hax, mul_one]
    have ha : b.center + (V3.dot (p - b.center) b.axis + c) • b.axis = b.center + V3.dot (p - b.center) b.axis • b.axis + c • b.axis := by ext <;> simp <;> ring
    simp only [hd, ha, e4, e5]

namespace Displace
open Rest

/-- A displaced body. -/
noncomputable def put (v : V3) (b : Sylinder) : Sylinder := { b with pos := b.pos + v }

/-- The displaced spheres. -/
noncomputable def balls (v : V3) : ℕ → List Sylinder := fun r => (twoBalls r).map (put v)

theorem balls_all (v : V3) (n : ℕ) : all n (balls v) = (all n twoBalls).map (put v) := by
  unfold all balls
  rw [List.map_flatMap]

/-- Displaced bodies can be simulated too. -/
theorem balls_sound {C : Sim.Cfg} (h : Sim.Sound C (fun _ => false) (fun _ => 0) (fun _ => 1) twoBalls) (hmono : C.place.monolayer = false ∧ C.mob.monolayer = false)
    (hper : ∀ k, C.place.d.periodic k = false) (v : V3) : Sim.Sound C (fun _ => false) (fun _ => 0) (fun _ => 1) (balls v) := by
  have hall := balls_all v C.place.g.n
  refine ⟨h.place, .inl hmono, ?_, h.viscosity, h.dt, ?_, ?_, ?_, ?_, ?_, h.linkBox⟩
  · have e : Place.total (balls v) C.place.g.n = Place.total twoBalls C.place.g.n := Place.total_congr _ fun r hr => by rw [balls, List.length_map]
    exact h.enough.trans_eq e.symm
  · intro b hb
    rw [hall] at hb
    obtain ⟨a, ha, rfl⟩ := List.mem_map.1 hb
    have := h.valid a ha
    exact ⟨this.radius, this.length, this.unit⟩
  · intro b hb
    rw [hall] at hb
    obtain ⟨a, ha, rfl⟩ := List.mem_map.1 hb
    have := h.body a ha
    exact ⟨⟨this.1.1, this.1.2, this.1.3⟩, this.2, this.3, this.4, this.5⟩
  · refine ⟨h.fdps.1, h.fdps.2, h.fdps.3, fun k hk => ?_, fun hk => ?_⟩
    · rw [hper k] at hk
      simp at hk
    · rw [hper 0] at hk
      simp at hk
  · obtain ⟨R, r1, r2, r3⟩ := h.largest
    refine ⟨R, ?_, r2, r3⟩
    intro b hb
    rw [hall] at hb
    obtain ⟨a, ha, rfl⟩ := List.mem_map.1 hb
    exact r1 a ha
  · intro l hl
    obtain ⟨b, hb, e⟩ := h.links l hl
    refine ⟨put v b, ?_, e⟩
    rw [hall]
    exact List.mem_map_of_mem hb

/-- They violate no constraint. -/
theorem balls_calm {C : Sim.Cfg} (hn : C.place.g.n = 2) (hper : ∀ k, C.place.d.periodic k = false) (hb : C.bounds = []) (hl : C.linkMap = [(7, 9)]) (hp : ∀ k, C.link.pbc k = false)
    (hgap : C.link.linkGap = 0.02) (v : V3) (hv : ∀ k, |Near.comp v k| ≤ 5) : Calm C (all C.place.g.n (balls v)) := by
  have hmem : ∀ b ∈ all C.place.g.n (balls v), b = put v (NoOverlap.ball 7 0 0.4) ∨ b = put v (NoOverlap.ball 9 0 0.6) := by
    intro b hb
    rw [hn, balls_all, twoBalls_all] at hb
    simpa using hb
  have hnorm : V3.norm (⟨0.2, 0, 0⟩ : V3) = 0.2 ∧ V3.norm (⟨-0.2, 0, 0⟩ : V3) = 0.2 := by
    constructor
    · have e : V3.normSq (⟨0.2, 0, 0⟩ : V3) = 0.2 ^ 2 := by norm_num [V3.normSq, V3.dot]
      rw [V3.norm, e, Real.sqrt_sq (by norm_num)]
    · have e : V3.normSq (⟨-0.2, 0, 0⟩ : V3) = 0.2 ^ 2 := by norm_num [V3.normSq, V3.dot]
      rw [V3.norm, e, Real.sqrt_sq (by norm_num)]
  have hcore : ∀ g x P, Spec.Near.Core (EP.copyFromFP (put v (NoOverlap.ball g 0 x))) P → P = ⟨x, 0.5, 0.5⟩ + v := by
    rintro g x P (⟨-, h⟩ | ⟨h, -⟩)
    · exact h
    · exact absurd (NoOverlap.ball_sphere g 0 x) h
  have hrad : ∀ g x, Spec.Near.Rad (EP.copyFromFP (put v (NoOverlap.ball g 0 x))) = 0.09 := fun g x => NoOverlap.ball_rad g 0 x
  refine ⟨?_, ?_, ?_, ?_⟩
  · have key : ∀ g x, |x| ≤ (1 : ℝ) → ∀ k, |Near.comp (put v (NoOverlap.ball g 0 x)).pos k| < Stats.largeFloat := by
      intro g x hx k
      have e : (put v (NoOverlap.ball g 0 x)).pos = ⟨x, 0.5, 0.5⟩ + v := rfl
      rw [e, comp_add]
      have h1 : |Near.comp (⟨x, 0.5, 0.5⟩ : V3) k| ≤ 1 := by
        fin_cases k
        · exact hx
        · show |(0.5 : ℝ)| ≤ 1
          norm_num
        · show |(0.5 : ℝ)| ≤ 1
          norm_num
      have := abs_add_le (Near.comp (⟨x, 0.5, 0.5⟩ : V3) k) (Near.comp v k)
      have h2 := hv k
      have : (6 : ℝ) < Stats.largeFloat := by norm_num [Stats.largeFloat]
      linarith
    intro x hx k
    rcases hmem x hx with rfl | rfl <;> exact key _ _ (by norm_num) k
  · intro x hx y hy hg m h0 h1 h2 P Q hP hQ
    have hm : away C m = 0 := by
      unfold away
      rw [h0 (hper 0), h1 (hper 1), h2 (hper 2)]
      ext <;> simp
    rw [hm]
    rcases hmem x hx with rfl | rfl <;> rcases hmem y hy with rfl | rfl
    · exact absurd rfl hg
    · rw [hcore _ _ _ hP, hcore _ _ _ hQ, hrad, hrad, show (⟨0.4, 0.5, 0.5⟩ + v - (⟨0.6, 0.5, 0.5⟩ + v + 0) : V3) = ⟨-0.2, 0, 0⟩ by ext <;> simp; norm_num, hnorm.2]
      norm_num
    · rw [hcore _ _ _ hP, hcore _ _ _ hQ, hrad, hrad, show (⟨0.6, 0.5, 0.5⟩ + v - (⟨0.4, 0.5, 0.5⟩ + v + 0) : V3) = ⟨0.2, 0, 0⟩ by ext <;> simp; norm_num, hnorm.1]
      norm_num
    · exact absurd rfl hg
  · rw [hb]
    intro b hb
    cases hb
  · rw [hl]
    intro e he x hx z hz ex ez D hD
    obtain rfl : e = (7, 9) := by simpa using he
    have hD0 : z.pos + D = z.pos := comp_ext fun k => (hD k).1 (hp k)
    have hx7 : x = put v (NoOverlap.ball 7 0 0.4) := by
      rcases hmem x hx with h | h
      · exact h
      · rw [h] at ex
        exact absurd (show (9 : ℤ) = 7 from ex) (by norm_num)
    have hz9 : z = put v (NoOverlap.ball 9 0 0.6) := by
      rcases hmem z hz with h | h
      · rw [h] at ez
        exact absurd (show (7 : ℤ) = 9 from ez) (by norm_num)
      · exact h
    have e1 : Spec.Springs.minusEnd z D = ⟨0.6, 0.5, 0.5⟩ + v := by
      unfold Spec.Springs.minusEnd
      rw [hD0, hz9]
      show (⟨0.6, 0.5, 0.5⟩ + v : V3) - ((0 : ℝ) / 2) • _ = _
      ext <;> simp
    have e2 : Spec.Springs.plusEnd x = ⟨0.4, 0.5, 0.5⟩ + v := by
      unfold Spec.Springs.plusEnd
      rw [hx7]
      show (⟨0.4, 0.5, 0.5⟩ + v : V3) + ((0 : ℝ) / 2) • _ = _
      ext <;> simp
    rw [e1, e2, hgap, show (⟨0.6, 0.5, 0.5⟩ + v - (⟨0.4, 0.5, 0.5⟩ + v) : V3) = ⟨0.2, 0, 0⟩ by ext <;> simp; norm_num, hnorm.1, hx7, hz9]
    show (0.2 : ℝ) = 0.09 + 0.09 + 0.02
    norm_num

/-- A step with the displaced spheres. -/
theorem balls_step {C : Sim.Cfg} {c : Place.Cfg} (hC : C = Momentum.linkedCfg c) (h0 : Sim.Sound C (fun _ => false) (fun _ => 0) (fun _ => 1) twoBalls)
    (hmono : C.place.monolayer = false ∧ C.mob.monolayer = false) (hn : C.place.g.n = 2) (hper : ∀ k, C.place.d.periodic k = false)
    (k1 : c.diameterColRatio = 1) (k2 : c.lengthColRatio = 1) (D : Draws) (v : V3) (hv : ∀ k, |Near.comp v k| ≤ 5) :
    ∃ (s1 s2 : Place.Sys) (q : Place.Sys) (ranks : List RankIn) (out : Out) (s' : Sim.State),
      Place.DecomposeDomain C.place (Place.plain C.place) ⟨⟨true, fun _ => C.place.root⟩, balls v⟩ s1 ∧ Place.ExchangeSylinder C.place (Place.plain C.place) s1 s2 ∧
      Sim.Step C id false ⟨s2, Links.Dir.empty, 0⟩ q ranks out s' ∧ Sim.Converged C id out 0 ∧ (∀ p ∈ out.pools, ∀ b ∈ p.flatten, b.gamma = 0) ∧
      ∀ rk ∈ ranks, rk.force = none ∧ rk.velPart = none := by
  have h := balls_sound h0 hmono hper v
  have hb0 : C.bounds = [] := by rw [hC]; rfl
  have hch : C.ctl.choice ≠ 1 := by rw [hC]; simp [Momentum.linkedCfg, twoBallsCfg]
  have hres : 0 < C.ctl.res := by rw [hC]; show (0 : ℝ) < 1 / 10 ^ 5; norm_num
  have hcold : C.mob.KBT ≤ 0 := by rw [hC]; exact le_refl (0 : ℝ)
  have hcalm : Calm C (all C.place.g.n (balls v)) := balls_calm hn hper hb0 (by rw [hC]; rfl) (fun k => by rw [hC]; rfl) (by rw [hC]; rfl) v hv
  obtain ⟨s1, s2, d1, d2⟩ := (C83_progress C.place _ _ _ h.place (balls v) h.enough).1 (fun _ => C.place.root) _ _ (Place.plain_valid _) (Place.plain_valid _)
  have hrun : Sim.Run (Sim.Ok (fun _ => false) (fun _ => 0) (fun _ => 1)) id C (balls v) C (balls v) 0 ⟨s2, Links.Dir.empty, 0⟩ :=
    .start _ _ _ s1 s2 h (Place.plain_valid _) (Place.plain_valid _) d1 d2
  have h2 : (all C.place.g.n (balls v)).length = 2 := by rw [balls_all, hn, twoBalls_all]; rfl
  obtain ⟨q, ranks, out, s', hst, hf⟩ := Momentum.acts none h hn hper hb0 (by rw [hC]; rfl) hch hres (by rw [hC]; exact fun l => (twoBalls_pairs c l).1) h2 D hrun
  have hfree : C113_Free C (balls v) ranks := ⟨fun rk hrk => ⟨(hf rk hrk).1, (hf rk hrk).2.1⟩, by rw [h2]; norm_num, fun rk hrk => (hf rk hrk).2.2⟩
  have hq := hst.prepared h (Sim.run_inv hrun)
  obtain ⟨x, hx, hpq⟩ := hst.prepare
  obtain ⟨g1, g2, -⟩ := C113_step h hch hres hcold 0 _ hrun false q ranks out s' hst hfree (hcalm.congr fun b hb => by
    obtain ⟨u, hu, u1, u2, u3⟩ := prepare_pos h hmono.1 (Sim.run_inv hrun) hx hpq b hb
    obtain ⟨a, ha, a1, a2, a3⟩ := start_pos h (Place.plain_valid _) (Place.plain_valid _) d1 d2 u hu
    obtain ⟨r, hrn, hbr⟩ := mem_all.1 hb
    obtain ⟨w, hw⟩ := hq.fresh r hrn b hbr
    have hpu : u.pos = a.pos := comp_ext fun k => (a3 k).2 rfl (hcalm.finite a ha k)
    have hk : kind b = kind a := u1.trans a1
    have hk' := hk
    simp only [kind, Prod.mk.injEq] at hk'
    have hc1 : C.place.diameterColRatio = 1 := by rw [hC]; exact k1
    have hc2 : C.place.lengthColRatio = 1 := by rw [hC]; exact k2
    have hb1 : b.radiusCollision = b.radius := by
      rw [hw]
      show w.radius * C.place.diameterColRatio = w.radius
      rw [hc1, mul_one]
    have hb2 : b.lengthCollision = b.length := by
      rw [hw]
      show w.length * C.place.lengthColRatio = w.length
      rw [hc2, mul_one]
    have ha' : a.radiusCollision = a.radius ∧ a.lengthCollision = a.length := by
      rw [balls_all, hn, twoBalls_all] at ha
      simp only [List.map_cons, List.map_nil, List.mem_cons, List.not_mem_nil, or_false] at ha
      rcases ha with rfl | rfl <;> exact ⟨rfl, rfl⟩
    refine ⟨a, ha, ⟨hk, ?_, u2.trans a2, ?_, ?_⟩⟩
    · refine comp_ext fun k => ?_
      rw [(u3 k).2 rfl (by rw [hpu]; exact hcalm.finite a ha k), hpu]
    · rw [hb1, ha'.1, hk'.2.2.2.1]
    · rw [hb2, ha'.2, hk'.2.2.2.2])
  exact ⟨s1, s2, q, ranks, out, s', d1, d2, hst, g1, g2, hfree.none⟩

end Displace

/-- The hypotheses of C114 can be met: two linked spheres, and the same displaced by (3, 4, 5). -/
example (D : Draws) : ∃ (C : Sim.Cfg) (P Q : ℕ → List Sylinder) (s s' t t' : Sim.State) (q q' : Place.Sys) (ranks ranks' : List RankIn) (out out' : Out) (U W U' W' : ℤ → V3),
    C.place.g.n = 2 ∧ C.linkMap = [(7, 9)] ∧ Sim.Sound C (fun _ => false) (fun _ => 0) (fun _ => 1) P ∧ Sim.Sound C (fun _ => false) (fun _ => 0) (fun _ => 1) Q ∧
    Shifted (fun _ => false) (fun _ => 0) (fun _ => 1) ⟨3, 4, 5⟩ C C ∧
    Displaced (fun _ => false) (fun _ => 0) (fun _ => 1) ⟨3, 4, 5⟩ (all C.place.g.n s.sys.P) (all C.place.g.n t.sys.P) ∧
    Sim.Step C id false s q ranks out s' ∧ Sim.Step C id false t q' ranks' out' t' ∧ Sim.Converged C id out 0 ∧ Sim.Converged C id out' 0 ∧
    Loads C.place.g.n q ranks (fun _ => (0, 0)) (fun _ => (0, 0)) ∧ Loads C.place.g.n q' ranks' (fun _ => (0, 0)) (fun _ => (0, 0)) ∧
    Velocities (all C.place.g.n s'.sys.P) U W ∧ Velocities (all C.place.g.n t'.sys.P) U' W' ∧
    Displaced (fun _ => false) (fun _ => 0) (fun _ => 1) ⟨3, 4, 5⟩ (all C.place.g.n q.P) (all C.place.g.n q'.P) ∧ ((constraints ranks).map bare).Perm ((constraints ranks').map bare) ∧
    C.mob.dt * ((all C.place.g.n q.P).map fun x => lag C.mob.viscosity x (U x.gid - U' x.gid, W x.gid - W' x.gid)).sum ≤
      (((constraints ranks).zip ((out.pools.flatMap fun p => p.flatten).map Block.gamma)).map fun x =>
        loose C.mob.dt C.ctl.res C.ctl.res |id (BCQP.dblEps * 100)| x.1 (x.1.delta0 + C.mob.dt * gapOf U W x.1) x.2).sum +
      (((constraints ranks').zip ((out'.pools.flatMap fun p => p.flatten).map Block.gamma)).map fun x =>
        loose C.mob.dt C.ctl.res C.ctl.res |id (BCQP.dblEps * 100)| x.1 (x.1.delta0 + C.mob.dt * gapOf U' W' x.1) x.2).sum := by
  obtain ⟨c, h, hn, hper, k1, k2, k3, k4, -⟩ := twoBalls_sound
  obtain ⟨C, hC⟩ : ∃ C, C = Momentum.linkedCfg c := ⟨_, rfl⟩
  have hn : C.place.g.n = 2 := by rw [hC]; exact hn
  have hper : ∀ k, C.place.d.periodic k = false := by rw [hC]; exact hper
  have hmono : C.place.monolayer = false ∧ C.mob.monolayer = false := by rw [hC]; exact ⟨k4, rfl⟩
  have h : Sim.Sound C (fun _ => false) (fun _ => 0) (fun _ => 1) twoBalls := by
    rw [hC]
    exact ⟨h.place, .inl ⟨k4, rfl⟩, h.enough, h.viscosity, h.dt, h.valid, h.body, h.fdps, h.largest, h.links, h.linkBox⟩
  have hb0 : C.bounds = [] := by rw [hC]; rfl
  have hv0 : ∀ k, |Near.comp (0 : V3) k| ≤ 5 := by intro k; fin_cases k <;> simp [Near.comp]
  have hv1 : ∀ k, |Near.comp (⟨3, 4, 5⟩ : V3) k| ≤ 5 := by
    intro k
    fin_cases k
    · show |(3 : ℝ)| ≤ 5
      norm_num
    · show |(4 : ℝ)| ≤ 5
      norm_num
    · show |(5 : ℝ)| ≤ 5
      norm_num
  obtain ⟨s1, s2, q, ranks, out, s', a1, a2, a3, a4, a5, a6⟩ := Displace.balls_step hC h hmono hn hper k1 k2 D 0 hv0
  obtain ⟨t1, t2, q', ranks', out', t', b1, b2, b3, b4, b5, b6⟩ := Displace.balls_step hC h hmono hn hper k1 k2 D ⟨3, 4, 5⟩ hv1
  have hS := Displace.balls_sound h hmono hper 0
  have hT := Displace.balls_sound h hmono hper ⟨3, 4, 5⟩
  have hfin : ∀ v : V3, (∀ k, |Near.comp v k| ≤ 5) → ∀ b ∈ all C.place.g.n (Displace.balls v), ∀ k : Fin 3, (fun _ => false : Fin 3 → Bool) k = false → |Near.comp b.pos k| < Stats.largeFloat :=
    fun v hv b hb k _ => (Displace.balls_calm hn hper hb0 (by rw [hC]; rfl) (fun k => by rw [hC]; rfl) (by rw [hC]; rfl) v hv).finite b hb k
  have hgive : Displaced (fun _ => false) (fun _ => 0) (fun _ => 1) ⟨3, 4, 5⟩ (all C.place.g.n (Displace.balls 0)) (all C.place.g.n (Displace.balls ⟨3, 4, 5⟩)) := by
    refine ⟨_, List.Perm.refl _, ?_⟩
    rw [Displace.balls_all, Displace.balls_all, List.forall₂_map_left_iff, List.forall₂_map_right_iff]
    refine List.forall₂_same.2 fun b _ => ⟨rfl, rfl, fun k => ⟨0, fun _ => rfl, ?_⟩⟩
    show Near.comp (b.pos + _) k = Near.comp (b.pos + 0) k + _ + _
    rw [Displace.comp_add, Displace.comp_add]
    have : Near.comp (0 : V3) k = 0 := by fin_cases k <;> rfl
    rw [this]
    simp
  obtain ⟨g1, g2, g3⟩ := C114_start hS hT hgive (hfin 0 hv0) (hfin _ hv1) _ _ _ _ _ _ s1 s2 t1 t2 (Place.plain_valid _) (Place.plain_valid _) (Place.plain_valid _) (Place.plain_valid _) a1 a2 b1 b2
  have hp : Shifted (fun _ => false) (fun _ => 0) (fun _ => 1) ⟨3, 4, 5⟩ C C :=
    ⟨⟨⟨hmono, hmono⟩, rfl, rfl, rfl, rfl, List.Perm.refl _, List.Perm.refl _, rfl, rfl⟩, ⟨[], by rw [hb0], by rw [hb0]; exact .nil⟩, fun b _ k hk => by simp at hk⟩
  have hrun : Sim.Run (Sim.Ok (fun _ => false) (fun _ => 0) (fun _ => 1)) id C (Displace.balls 0) C (Displace.balls 0) 0 ⟨s2, Links.Dir.empty, 0⟩ :=
    .start _ _ _ s1 s2 hS (Place.plain_valid _) (Place.plain_valid _) a1 a2
  have hrun' : Sim.Run (Sim.Ok (fun _ => false) (fun _ => 0) (fun _ => 1)) id C (Displace.balls ⟨3, 4, 5⟩) C (Displace.balls ⟨3, 4, 5⟩) 0 ⟨t2, Links.Dir.empty, 0⟩ :=
    .start _ _ _ t1 t2 hT (Place.plain_valid _) (Place.plain_valid _) b1 b2
  have hid : ∀ v, ((all C.place.g.n (Displace.balls v)).map Sylinder.gid).Nodup := by
    intro v
    rw [Displace.balls_all, hn, twoBalls_all]
    show ([7, 9] : List ℤ).Nodup
    decide
  have h0 : ∀ i, at6 (([] : List ℝ)) i = (0, 0) := fun i => Prod.ext (V3.ext (by simp [at6]) (by simp [at6]) (by simp [at6])) (V3.ext (by simp [at6]) (by simp [at6]) (by simp [at6]))
  have hload : ∀ (n : ℕ) (q : Place.Sys) (ranks : List RankIn), (∀ rk ∈ ranks, rk.force = none ∧ rk.velPart = none) → Loads n q ranks (fun _ => (0, 0)) (fun _ => (0, 0)) := by
    intro n q ranks hf r rk i x hr _
    obtain ⟨e1, e2⟩ := hf rk (List.mem_of_getElem? hr)
    rw [e1, e2]
    exact ⟨h0 i, h0 i⟩
  have hvel : ∀ l : List Sylinder, (l.map Sylinder.gid).Nodup → ∃ U W, Velocities l U W := by
    intro l hl
    refine ⟨fun g => ((l.find? fun u => u.gid = g).map Sylinder.vel).getD 0, fun g => ((l.find? fun u => u.gid = g).map Sylinder.omega).getD 0, fun u hu => ?_⟩
    have hf : (l.find? fun v => v.gid = u.gid) = some u := by
      cases hf : l.find? (fun v => v.gid = u.gid) with
      | none => exact absurd (List.find?_eq_none.1 hf u hu) (by simp)
      | some v =>
        have hv1 := List.mem_of_find?_eq_some hf
        have hv2 := List.find?_some hf
        rw [List.inj_on_of_nodup_map hl hv1 hu (by simpa using hv2)]
    beta_reduce
    rw [hf]
    exact ⟨rfl, rfl⟩
  have hlow : ∀ out : Out, (∀ p ∈ out.pools, ∀ b ∈ p.flatten, b.gamma = 0) → ∀ p ∈ out.pools, ∀ b ∈ p.flatten, b.bilateral = true → id (-(10 : ℝ) ^ 8 + BCQP.dblEps * 100) ≤ b.gamma := by
    intro out hz p hp b hb _
    rw [hz p hp b hb]
    unfold BCQP.dblEps
    norm_num
  have hids : ∀ {P : ℕ → List Sylinder} {s s' : Sim.State} {q : Place.Sys} {ranks : List RankIn} {out : Out},
      Sim.Sound C (fun _ => false) (fun _ => 0) (fun _ => 1) P → Sim.Run (Sim.Ok (fun _ => false) (fun _ => 0) (fun _ => 1)) id C P C P 0 s → Sim.Step C id false s q ranks out s' →
      ((all C.place.g.n P).map Sylinder.gid).Nodup → ((all C.place.g.n s'.sys.P).map Sylinder.gid).Nodup := by
    intro P s s' q ranks out h hr hs hid
    have hi := Sim.step_inv hs h (hs.prepared h (Sim.run_inv hr))
    have := hi.kinds.map fun k => k.1
    simp only [List.map_map] at this
    exact this.nodup_iff.2 hid
  obtain ⟨U, W, hU⟩ := hvel _ (hids hS hrun a3 (hid 0))
  obtain ⟨U', W', hU'⟩ := hvel _ (hids hT hrun' b3 (hid _))
  have hfree : C.mob.sylinderFixed = false := by rw [hC]; rfl
  have hcold : C.mob.KBT ≤ 0 := by rw [hC]; exact le_refl (0 : ℝ)
  have hres : 0 ≤ C.ctl.res := by rw [hC]; show (0 : ℝ) ≤ 1 / 10 ^ 5; norm_num
  obtain ⟨m1, m2⟩ := C114_constraints hS hT hp (hid 0) id id 0 0 _ _ hrun hrun' g1 g2 g3 false false q q' ranks ranks' out out' s' t' a3 b3
  exact ⟨C, _, _, _, s', _, t', q, q', ranks, ranks', out, out', U, W, U', W', hn, by rw [hC]; rfl, hS, hT, hp, g1, a3, b3, a4, b4, hload _ _ _ a6, hload _ _ _ b6, hU, hU', m1, m2,
    (C114_motion hS hT hp (hid 0) id id 0 0 _ _ hrun hrun' g1 g2 g3 false false q q' ranks ranks' out out' s' t' a3 b3 (Or.inr hcold) (Or.inr hcold) hfree hfree hres hres 0 0 a4 b4
      (hlow _ a5) (hlow _ b5) _ _ (hload _ _ _ a6) (hload _ _ _ b6) U W U' W' hU hU').2⟩

/-- A wall that is the floor of a box with periodic sides, and a tube through it. -/
example : Carried ⟨2, 3, 0⟩ (.wall ⟨⟨0, 0, 1⟩, ⟨0, 0, 1⟩⟩) (.wall ⟨⟨0, 0, 1⟩, ⟨0, 0, 1⟩⟩) ∧
    ∀ b : Boundary.Tube, b.axis = ⟨0, 0, 1⟩ → Carried ⟨0, 0, 7⟩ (.tube b) (.tube b) := by
  refine ⟨((C114_boundaries _).2.1 _).2 (by norm_num [V3.dot]), fun b hb => ((C114_boundaries _).2.2 b).2 ?_ ⟨7, ?_⟩⟩
  · rw [hb]
    norm_num [V3.norm, V3.normSq, V3.dot]
  · rw [hb]
    ext <;> simp

end Verif
