import Verif.Lemmas.Rename
import Verif.Props.Displace
/-!
C116: a step does not depend on the names (ids) of the bodies.
-/
namespace Verif
open Near Collector RunStep Mobility Sim Spec.Resume Spec.Momentum Spec.Layout Spec.Displace Spec.Rename Spec.Mobility Spec.Motion Layout Displace Rename

section
variable {C D C₀ D₀ : Sim.Cfg} {pbc : Fin 3 → Bool} {low high : Fin 3 → ℝ} {P Q B E : ℕ → List Sylinder} {f : ℤ → ℤ}

theorem Rename.same_place (h : Sim.Sound C pbc low high P) (h' : Sim.Sound D pbc low high Q) (hp : SameUnder f C D) :
    D.place.diameterColRatio = C.place.diameterColRatio ∧ D.place.lengthColRatio = C.place.lengthColRatio ∧ D.place.colBuf = C.place.colBuf ∧ D.place.d = C.place.d := by
  have hd : D.place.d = C.place.d := by
    have := h.place.dinfo
    rw [h'.place.dinfo] at this
    exact Option.some.inj this
  exact ⟨hp.physics.diameterColRatio, hp.physics.lengthColRatio, hp.physics.colBuf, hd⟩

/-- The same bodies, moved into the box and distributed. -/
theorem Rename.homed {L L' L1 L1' : List Sylinder} (h : Renamed f L L') (h1 : (L1.map seen).Perm (L.map (Resume.seenHome pbc low high)))
    (h2 : (L1'.map seen).Perm (L'.map (Resume.seenHome pbc low high))) : Renamed f L1 L1' := by
  have e1 := h1.map (ren f)
  have e2 := h.map fun w : View => (w.1, Resume.home pbc low high w.2.1, w.2.2)
  rw [List.map_map, List.map_map] at e1
  rw [List.map_map, List.map_map] at e2
  unfold Renamed
  exact (e1.trans e2).trans h2.symm

theorem Rename.clear (h : Sim.Sound C pbc low high P) {L : List Sylinder} (hcl : Clear pbc low high f C L) : ClearV f C.place (L.map seen) := by
  obtain ⟨-, x2, x3, -⟩ := h.place.extent
  intro v hv w hw hlt hgt m hm hI hJ
  obtain ⟨a, ha, rfl⟩ := List.mem_map.1 hv
  obtain ⟨b, hb, rfl⟩ := List.mem_map.1 hw
  have r1 : Rod C a := by
    have := of_decide_eq_false hI
    exact not_lt.1 this
  have r2 : Rod C b := by
    have := of_decide_eq_false hJ
    exact not_lt.1 this
  have hper : Periods pbc low high (per C.place.d m) := by
    intro k
    have key : ∀ i : ℤ, (C.place.d.periodic k = false → i = 0) → (pbc k = false → i = 0) ∧ (i : ℝ) * (C.place.d.high k - C.place.d.low k) = i * (high k - low k) := by
      intro i hi
      refine ⟨fun h => hi (by rw [x2]; exact h), ?_⟩
      cases hk : pbc k with
      | true => rw [(x3 k hk).1, (x3 k hk).2]
      | false => rw [hi (by rw [x2]; exact hk)]; simp
    fin_cases k
    · exact ⟨m.x, (key m.x hm.1).1, (key m.x hm.1).2⟩
    · exact ⟨m.y, (key m.y hm.2.1).1, (key m.y hm.2.1).2⟩
    · exact ⟨m.z, (key m.z hm.2.2).1, (key m.z hm.2.2).2⟩
  have := hcl a ha b hb hlt hgt r1 r2 _ hper
  unfold tail head at this
  rw [← sub_smul_right, ← add_smul_right] at this
  exact this

/-- The constraints of two steps. -/
theorem Rename.constraints_perm (hf : Function.Injective f) (h : Sim.Sound C pbc low high P) (h' : Sim.Sound D pbc low high Q) (hp : SameUnder f C D)
    (hid : ((all C.place.g.n P).map Sylinder.gid).Nodup)
    {fl fl' : ℝ → ℝ} {pre pre' : Bool} {s s' t t' : Sim.State} {q q' : Place.Sys} {ranks ranks' : List RankIn} {out out' : Out}
    (hq : Sim.Prepared C P q) (hq' : Sim.Prepared D Q q') (hs : Sim.Step C fl pre s q ranks out s') (hs' : Sim.Step D fl' pre' t q' ranks' out' t')
    (hV : Renamed f (all C.place.g.n q.P) (all D.place.g.n q'.P)) (hcl : Clear pbc low high f C (all C.place.g.n q.P)) :
    ((constraints ranks).map fun b => bare (under f b)).Perm ((constraints ranks').map bare) ∧ ∀ b ∈ constraints ranks, Sorted b := by
  have hV : (((all C.place.g.n q.P).map seen).map (ren f)).Perm ((all D.place.g.n q'.P).map seen) := by
    rw [List.map_map]
    exact hV
  have hclv := Rename.clear h hcl
  have hv := views_nodup hq hid
  have hv' : (((all D.place.g.n q'.P).map seen).map fun w => w.1.1).Nodup := by
    have h1 := hV.map fun w => w.1.1
    refine h1.nodup_iff.1 ?_
    have h2 := hv.map hf
    rw [List.map_map] at h2 ⊢
    exact h2
  have hid' : ((all D.place.g.n Q).map Sylinder.gid).Nodup := by
    have h2 := hq'.kinds.map fun k => k.1
    simp only [List.map_map] at h2 hv'
    exact h2.nodup_iff.1 hv'
  have hcfg := Rename.same_place h h' hp
  have hfwd : ∀ w ∈ (all C.place.g.n q.P).map seen, ren f w ∈ (all D.place.g.n q'.P).map seen := fun w hw => hV.mem_iff.1 (List.mem_map_of_mem hw)
  have hbwd : ∀ w ∈ (all D.place.g.n q'.P).map seen, ∃ w₀ ∈ (all C.place.g.n q.P).map seen, w = ren f w₀ := by
    intro w hw
    obtain ⟨w₀, h1, h2⟩ := List.mem_map.1 (hV.mem_iff.2 hw)
    exact ⟨w₀, h1, h2.symm⟩
  obtain ⟨K, B1, N1, e1, k1, f1, c1, l1⟩ := step_parts hs h hq hid
  obtain ⟨K', B2, N2, e2, k2, f2, c2, l2⟩ := step_parts hs' h' hq' hid'
  have hKlt : ∀ k ∈ K, ∃ b, PairOf C.place ((all C.place.g.n q.P).map seen) k b := by
    intro k hk
    obtain ⟨i, hi, rfl⟩ := List.getElem_of_mem hk
    obtain ⟨hl, hg⟩ := List.forall₂_iff_get.1 f1
    exact ⟨_, hg i hi (by omega)⟩
  have hlt : ∀ k ∈ K, k.1 < k.2.1 := by
    intro k hk
    obtain ⟨b, x, -, y, -, -, -, e, -⟩ := hKlt k hk
    exact e
  have hK : (K.map (key f)).Perm K' := by
    rw [List.perm_ext_iff_of_nodup (List.Nodup.map_on (fun k hk k' hk' e => key_inj hf (hlt k hk) (hlt k' hk') e) k1) k2]
    intro k
    constructor
    · intro hk
      obtain ⟨k₀, hk₀, rfl⟩ := List.mem_map.1 hk
      obtain ⟨b, hb⟩ := hKlt k₀ hk₀
      obtain ⟨b', hb', -⟩ := pair_name hf hcfg hclv hfwd _ _ hb
      exact c2 _ _ hb'
    · intro hk
      obtain ⟨i, hi, rfl⟩ := List.getElem_of_mem hk
      obtain ⟨hl, hg⟩ := List.forall₂_iff_get.1 f2
      obtain ⟨k₀, b₀, hb₀, hk₀⟩ := pair_back hf hcfg hclv hbwd _ _ (hg i hi (by omega))
      rw [List.get_eq_getElem] at hk₀
      rw [← hk₀]
      exact List.mem_map_of_mem (c1 _ _ hb₀)
  have hB : (B1.map fun b => bare (under f b)).Perm (B2.map bare) := by
    have := perm_of_two (f := id) (l := B1.map fun b => bare (under f b)) (l' := B2.map bare)
      (R := fun k c => ∃ b, c = bare (under f b) ∧ PairOf C.place ((all C.place.g.n q.P).map seen) k (forget b))
      (R' := fun k c => ∃ b, c = bare b ∧ PairOf D.place ((all D.place.g.n q'.P).map seen) k (forget b)) (φ := key f) ?_
      (by rw [List.forall₂_map_right_iff]; exact f1.imp fun k b hb => ⟨b, rfl, hb⟩) (by rw [List.forall₂_map_right_iff]; exact f2.imp fun k b hb => ⟨b, rfl, hb⟩) hK
    · simpa using this
    · rintro k hk _ _ ⟨b, rfl, hb⟩ ⟨b', rfl, hb'⟩
      obtain ⟨b'', hb'', he⟩ := pair_name hf hcfg hclv hfwd _ _ hb
      have := PairOf.unique (c := D.place) hv' _ _ _ hb'' hb'
      show bare (under f b) = bare b'
      rw [← bare_forget b', ← this, he, bare_under, bare_under, bare_forget]
  have hE : (((everyone C.place.g.n q.P).map seen).map (ren f)).Perm ((everyone D.place.g.n q'.P).map seen) := by
    rw [everyone_seen, everyone_seen]
    exact hV
  have l2' : List.Forall₂ (fun (p : Sylinder × ℤ) b => LinkOf C.link D.place ((all D.place.g.n q'.P).map seen) (seen p.1, p.2) (forget b))
      (linkPairs D.linkMap (everyone D.place.g.n q'.P)) N2 := by
    refine l2.imp fun k b hb => ?_
    rw [show D.link = C.link from hp.physics.link] at hb
    exact hb
  have hbil : ∀ b ∈ N1, b.bilateral = true := by
    intro b hb
    obtain ⟨i, hi, rfl⟩ := List.getElem_of_mem hb
    obtain ⟨hl, hg⟩ := List.forall₂_iff_get.1 l1
    exact (link_name (f := f) hcfg hfwd _ _ _ (hg i (by omega) hi)).2
  have hN : (N1.map fun b => bare (under f b)).Perm (N2.map bare) := by
    have := perm_of_two (f := id) (l := N1.map fun b => bare (under f b)) (l' := N2.map bare)
      (R := fun p c => ∃ b, c = bare (under f b) ∧ LinkOf C.link C.place ((all C.place.g.n q.P).map seen) p (forget b))
      (R' := fun p c => ∃ b, c = bare b ∧ LinkOf C.link D.place ((all D.place.g.n q'.P).map seen) p (forget b))
      (φ := fun p => (ren f p.1, f p.2)) (k := (linkPairs C.linkMap (everyone C.place.g.n q.P)).map fun p => (seen p.1, p.2))
      (k' := (linkPairs D.linkMap (everyone D.place.g.n q'.P)).map fun p => (seen p.1, p.2)) ?_
      (by rw [List.forall₂_map_left_iff, List.forall₂_map_right_iff]; exact l1.imp fun k b hb => ⟨b, rfl, hb⟩)
      (by rw [List.forall₂_map_left_iff, List.forall₂_map_right_iff]; exact l2'.imp fun k b hb => ⟨b, rfl, hb⟩) ?_
    · simpa using this
    · rintro ⟨w, g⟩ - _ _ ⟨b, rfl, hb⟩ ⟨b', rfl, hb'⟩
      obtain ⟨hb2, hbi⟩ := link_name (f := f) hcfg hfwd _ _ _ hb
      have := LinkOf.unique hv' _ _ _ hb2 hb'
      show bare (under f b) = bare b'
      have hu : under f b = name f b := by
        unfold under
        exact if_pos (.inr (.inl hbi))
      rw [hu, ← bare_forget b', ← this]
      rfl
    · rw [Layout.linkPairs_seen, Layout.linkPairs_seen]
      refine List.Perm.trans ?_ (hE.flatMap_right _)
      rw [List.map_flatMap, List.flatMap_map, List.flatMap_map, List.flatMap_map]
      refine List.Perm.flatMap_left _ fun x _ => ?_
      rw [List.map_map]
      have : ((Links.nexts C.linkMap (seen x).1.1).map f).Perm (Links.nexts D.linkMap (ren f (seen x)).1.1) := by
        unfold Links.nexts
        refine List.Perm.trans (List.Perm.of_eq ?_) ((hp.links.filter _).map _).symm
        rw [List.filter_map, List.map_map, List.map_map]
        congr 1
        refine List.filter_congr fun l _ => ?_
        have : (f l.1 = f (seen x).1.1) ↔ l.1 = (seen x).1.1 := hf.eq_iff
        show decide (l.1 = (seen x).1.1) = decide (f l.1 = f (seen x).1.1)
        simp only [this]
      have h2 := this.map fun g => (ren f (seen x), g)
      rw [List.map_map] at h2
      exact h2
  constructor
  · refine (e1.map _).trans (List.Perm.trans ?_ (e2.map bare).symm)
    simp only [List.map_append]
    refine (hB.append ?_).append hN
    rw [List.map_flatMap, List.map_flatMap]
    refine List.Perm.trans ?_ (hp.physics.bounds.symm.flatMap_right _)
    refine List.Perm.flatMap_left _ fun b _ => ?_
    rw [List.map_flatMap, List.map_flatMap]
    rw [List.map_map] at hE
    refine flatMap_perm hE _ _ fun x hx y hy hxy => List.Perm.of_eq ?_
    obtain ⟨x1, x2'⟩ := Layout.sizes C hq hx
    obtain ⟨y1, y2⟩ := Layout.sizes D hq' hy
    have hk : kind y = kind (named f x) := (congrArg Prod.fst hxy).symm
    have e0 : ∀ p : V3, p + 0 = p := by intro p; ext <;> simp
    have hmove := bodyBlocks_move b b 0 (carried_zero b) C.place.colBuf (named f x) y hk (by rw [e0]; exact (congrArg (fun w : View => w.2.1) hxy).symm)
      (congrArg (fun w : View => w.2.2) hxy).symm
      (by
        show y.radiusCollision = x.radiusCollision
        have : (seen y).1.2 = (seen x).1.2 := by have := congrArg Prod.snd hk; exact this
        rw [x1, y1, this, hcfg.1])
      (by
        show y.lengthCollision = x.lengthCollision
        have : (seen y).1.2 = (seen x).1.2 := by have := congrArg Prod.snd hk; exact this
        rw [x2', y2, this, hcfg.2.1])
    rw [show D.place.colBuf = C.place.colBuf from hcfg.2.2.1, hmove, bodyBlocks_name, List.map_map]
    refine List.map_congr_left fun c hc => ?_
    have hu : under f c = name f c := by
      unfold under
      exact if_pos (.inl (bodyBlocks_oneSide b _ x c hc))
    rw [hu]
    rfl
  · intro b hb
    rcases List.mem_append.1 (e1.mem_iff.1 hb) with hb | hb
    · rcases List.mem_append.1 hb with hb | hb
      · obtain ⟨i, hi, rfl⟩ := List.getElem_of_mem hb
        obtain ⟨hl, hg⟩ := List.forall₂_iff_get.1 f1
        obtain ⟨x, hx, y, hy, a1, a2, a3, -, a5⟩ := hg i (by omega) hi
        obtain ⟨i1, i2, -, -⟩ := recorded_facts a5
        refine .inr (.inr ?_)
        have i1' : (B1[i]).gidI = x.1.1 := i1
        have i2' : (B1[i]).gidJ = y.1.1 := i2
        rw [i1', i2', a1, a2]
        exact a3
      · obtain ⟨c, -, hb⟩ := List.mem_flatMap.1 hb
        obtain ⟨x, -, hb⟩ := List.mem_flatMap.1 hb
        exact .inl (bodyBlocks_oneSide _ _ _ b hb)
    · exact .inr (.inl (hbil b hb))

/-- C116, start.  One program is given bodies, another the same bodies with other names, each in any order and on any of its ranks.  When both have moved the bodies into the box and
distributed them, the bodies of one are still those of the other with other names. -/
theorem C116_start (h : Sim.Sound C pbc low high P) (h' : Sim.Sound D pbc low high Q) (hname : Renamed f (all C.place.g.n P) (all D.place.g.n Q))
    (hbig : ∀ b ∈ all C.place.g.n P, ∀ k, pbc k = false → |Near.comp b.pos k| < Stats.largeFloat)
    (hbig' : ∀ b ∈ all D.place.g.n Q, ∀ k, pbc k = false → |Near.comp b.pos k| < Stats.largeFloat)
    (junk junk' : ℕ → Box) (x y x' y' : Place.Exec) (s1 s2 t1 t2 : Place.Sys) (hx : Place.Valid C.place x) (hy : Place.Valid C.place y)
    (hx' : Place.Valid D.place x') (hy' : Place.Valid D.place y')
    (h1 : Place.DecomposeDomain C.place x ⟨⟨true, junk⟩, P⟩ s1) (h2 : Place.ExchangeSylinder C.place y s1 s2)
    (h1' : Place.DecomposeDomain D.place x' ⟨⟨true, junk'⟩, Q⟩ t1) (h2' : Place.ExchangeSylinder D.place y' t1 t2) :
    Renamed f (all C.place.g.n s2.P) (all D.place.g.n t2.P) ∧
      (∀ b ∈ all C.place.g.n s2.P, ∀ k, pbc k = false → |Near.comp b.pos k| < Stats.largeFloat) ∧
      ∀ b ∈ all D.place.g.n t2.P, ∀ k, pbc k = false → |Near.comp b.pos k| < Stats.largeFloat := by
  obtain ⟨e1, e2⟩ := Layout.start_seen h hx hy h1 h2 hbig
  obtain ⟨f1, f2⟩ := Layout.start_seen h' hx' hy' h1' h2' hbig'
  exact ⟨Rename.homed hname e1 f1, e2, f2⟩

/-- C116, constraints.  Two programs simulate the same with other names of the bodies, also in the links (`SameUnder`), each in a run of its own with any ranks and threads.  Whenever the
bodies of one are those of the other with other names, the next step of each has the same bodies up to names and the same constraints: the contacts, contacts with the boundaries and links of one are
those of the other under the new names, with the same separations, directions, points relative to the centres, and stresses.  A contact has the body with the smaller name on its first side;
of two rods for which this changes it is required that they are parallel or clearly not parallel (`Clear`; without it the claim is false, `C116_false`). -/
theorem C116_constraints_partial (hf : Function.Injective f) (h : Sim.Sound C pbc low high P) (h' : Sim.Sound D pbc low high Q) (hp : SameUnder f C D)
    (hid : ((all C.place.g.n P).map Sylinder.gid).Nodup)
    (fl fl' : ℝ → ℝ) (k k' : ℕ) (s t : Sim.State) (hr : Sim.Run (Sim.Ok pbc low high) fl C₀ B C P k s) (hr' : Sim.Run (Sim.Ok pbc low high) fl' D₀ E D Q k' t)
    (hname : Renamed f (all C.place.g.n s.sys.P) (all D.place.g.n t.sys.P))
    (hbig : ∀ b ∈ all C.place.g.n s.sys.P, ∀ k, pbc k = false → |Near.comp b.pos k| < Stats.largeFloat)
    (hbig' : ∀ b ∈ all D.place.g.n t.sys.P, ∀ k, pbc k = false → |Near.comp b.pos k| < Stats.largeFloat)
    (pre pre' : Bool) (q q' : Place.Sys) (ranks ranks' : List RankIn) (out out' : Out) (s' t' : Sim.State) (hs : Sim.Step C fl pre s q ranks out s')
    (hs' : Sim.Step D fl' pre' t q' ranks' out' t') (hcl : Clear pbc low high f C (all C.place.g.n q.P)) :
    Renamed f (all C.place.g.n q.P) (all D.place.g.n q'.P) ∧ ((constraints ranks).map fun b => bare (under f b)).Perm ((constraints ranks').map bare) := by
  have hq := hs.prepared h (Sim.run_inv hr)
  have hq' := hs'.prepared h' (Sim.run_inv hr')
  have hV : Renamed f (all C.place.g.n q.P) (all D.place.g.n q'.P) := by
    obtain ⟨x, hx, hqq⟩ := hs.prepare
    obtain ⟨x', hx', hqq'⟩ := hs'.prepare
    exact Rename.homed hname (Resume.next h hp.physics.mono.1.1 (Sim.run_inv hr) hx hqq hbig) (Resume.next h' hp.physics.mono.2.1 (Sim.run_inv hr') hx' hqq' hbig')
  exact ⟨hV, (Rename.constraints_perm hf h h' hp hid hq hq' hs hs' hV hcl).1⟩

open Spec.Collector (force torque) in
theorem Rename.force_cs (g : ℤ → ℤ) (cs : List (Block × ℝ)) (i : ℤ) :
    force (cs.map fun p => (under g p.1, p.2)) i = force cs i ∧ torque (cs.map fun p => (under g p.1, p.2)) i = torque cs i := by
  unfold force torque
  simp only [List.map_map]
  constructor
  · congr 1
    refine List.map_congr_left fun p _ => ?_
    show p.2 • Spec.Collector.unitForce (under g p.1) i = _
    rw [(force_under g p.1 i).1]
  · congr 1
    refine List.map_congr_left fun p _ => ?_
    show p.2 • Spec.Collector.unitTorque (under g p.1) i = _
    rw [(force_under g p.1 i).2]

open Spec.Collector (force torque) in
/-- Two solutions of the same problem are close, whatever the names of the bodies. -/
theorem Rename.close (hf : Function.Injective f) {mu dt : ℝ} (hdt : 0 < dt) {fl fl' : ℝ → ℝ} {E E' : List Sylinder} (hv : ∀ x ∈ E, Valid x)
    (hE : (E.map fun x => seen (named f x)).Perm (E'.map seen)) {cs cs' : List (Block × ℝ)} (hsort : ∀ b ∈ cs.map Prod.fst, Sorted b)
    (hcs : ((cs.map Prod.fst).map fun b => bare (under f b)).Perm ((cs'.map Prod.fst).map bare)) {U W U' W' : ℤ → V3} {G V : ℤ → V3 × V3} {res res' tol tol' : ℝ}
    (htol : 0 ≤ tol) (htol' : 0 ≤ tol') (hres : res ≤ tol) (hres' : res' ≤ tol')
    (m : ∀ x ∈ E, Moves mu x (G (f x.gid) + (force cs x.globalIndex, torque cs x.globalIndex)) ((U x.gid, W x.gid) - V (f x.gid)))
    (m' : ∀ x ∈ E', Moves mu x (G x.gid + (force cs' x.globalIndex, torque cs' x.globalIndex)) ((U' x.gid, W' x.gid) - V x.gid))
    (w : ∀ T S : ℤ → V3, (E.map fun x => power (force cs x.globalIndex, torque cs x.globalIndex) (T x.gid, S x.gid)).sum = (cs.map fun p => p.2 * gapOf T S p.1).sum)
    (w' : ∀ T S : ℤ → V3, (E'.map fun x => power (force cs' x.globalIndex, torque cs' x.globalIndex) (T x.gid, S x.gid)).sum = (cs'.map fun p => p.2 * gapOf T S p.1).sum)
    (c : ∀ p ∈ cs, Spec.RunStep.Solves fl dt res p.1 (gapOf U W p.1) p.2 ∧ p.2 ≤ fl (BCQP.dblMax / 10 - BCQP.dblEps * 100) ∧
      (p.1.bilateral = true → fl (-(10 : ℝ) ^ 8 + BCQP.dblEps * 100) ≤ p.2))
    (c' : ∀ p ∈ cs', Spec.RunStep.Solves fl' dt res' p.1 (gapOf U' W' p.1) p.2 ∧ p.2 ≤ fl' (BCQP.dblMax / 10 - BCQP.dblEps * 100) ∧
      (p.1.bilateral = true → fl' (-(10 : ℝ) ^ 8 + BCQP.dblEps * 100) ≤ p.2)) :
    (∀ x ∈ E, x.isImmovable = true → U x.gid = U' (f x.gid) ∧ W x.gid = W' (f x.gid)) ∧
    dt * (E.map fun x => lag mu x (U x.gid - U' (f x.gid), W x.gid - W' (f x.gid))).sum ≤
      (cs.map fun p => loose dt tol tol' |fl (BCQP.dblEps * 100)| p.1 (p.1.delta0 + dt * gapOf U W p.1) p.2).sum +
      (cs'.map fun p => loose dt tol' tol |fl' (BCQP.dblEps * 100)| p.1 (p.1.delta0 + dt * gapOf U' W' p.1) p.2).sum := by
  obtain ⟨g, hg⟩ := hf.hasLeftInverse
  have hfg : ∀ x ∈ E', f (g x.gid) = x.gid := by
    intro x hx
    have := hE.mem_iff.2 (List.mem_map_of_mem hx)
    obtain ⟨y, hy, hyx⟩ := List.mem_map.1 this
    have e : f y.gid = x.gid := by have := congrArg (fun w : View => w.1.1) hyx; exact this
    rw [← e, hg]
  have hfb : ∀ p ∈ cs', f (g p.1.gidI) = p.1.gidI ∧ f (g p.1.gidJ) = p.1.gidJ := by
    intro p hp
    have := hcs.mem_iff.2 (List.mem_map_of_mem (List.mem_map_of_mem hp))
    obtain ⟨b, -, hb⟩ := List.mem_map.1 this
    have e1 : (under f b).gidI = p.1.gidI := by have := congrArg Block.gidI hb; exact this
    have e2 : (under f b).gidJ = p.1.gidJ := by have := congrArg Block.gidJ hb; exact this
    rw [← e1, ← e2]
    rcases under_cases f b with h | ⟨-, h⟩ <;> rw [h]
    · exact ⟨by show f (g (f b.gidI)) = f b.gidI; rw [hg], by show f (g (f b.gidJ)) = f b.gidJ; rw [hg]⟩
    · exact ⟨by show f (g (f b.gidJ)) = f b.gidJ; rw [hg], by show f (g (f b.gidI)) = f b.gidI; rw [hg]⟩
  have hgap : ∀ p ∈ cs', gapOf (fun i => U' (f i)) (fun i => W' (f i)) (under g p.1) = gapOf U' W' p.1 := by
    intro p hp
    rw [gap_under]
    obtain ⟨e1, e2⟩ := hfb p hp
    unfold gapOf
    simp only [e1, e2]
  obtain ⟨r1, r2⟩ := Displace.close (mu := mu) (E := E) (E' := E'.map (named g)) (cs := cs) (cs' := cs'.map fun p => (under g p.1, p.2)) (U := U) (W := W) (U' := fun i => U' (f i))
    (W' := fun i => W' (f i)) (G := fun i => G (f i)) (V := fun i => V (f i)) (fl := fl) (fl' := fl') hdt hv
    (by
      have := hE.map fun w : View => (((g w.1.1, w.1.2) : ℤ × ℤ × Bool × ℝ × ℝ), w.2.2)
      rw [List.map_map, List.map_map] at this
      rw [List.map_map]
      refine List.Perm.trans (List.Perm.of_eq ?_) this
      refine List.map_congr_left fun x _ => ?_
      show ((x.gid, (kind x).2), x.direction) = ((g (f x.gid), (kind x).2), x.direction)
      rw [hg])
    (by
      have := hcs.map fun b => bare (under g b)
      rw [List.map_map (l := cs.map Prod.fst), List.map_map (l := cs'.map Prod.fst)] at this
      have e1 : ∀ b ∈ cs.map Prod.fst, ((fun b => bare (under g b)) ∘ fun b => bare (under f b)) b = bare b := by
        intro b hb
        show bare (under g (bare (under f b))) = bare b
        rw [bare_under, show bare (bare (under f b)) = bare (under f b) from rfl, ← bare_under, under_back hg (hsort b hb)]
      rw [List.map_congr_left e1] at this
      refine this.trans (List.Perm.of_eq ?_)
      rw [List.map_map, List.map_map, List.map_map]
      refine List.map_congr_left fun p _ => ?_
      show bare (under g (bare p.1)) = bare (under g p.1)
      rw [bare_under, bare_under]
      rfl)
    htol htol' hres hres' m
    (by
      intro x hx
      obtain ⟨y, hy, rfl⟩ := List.mem_map.1 hx
      have := m' y hy
      rw [(force_cs g cs' _).1, (force_cs g cs' _).2]
      show Moves mu (named g y) (G (f (g y.gid)) + _) ((U' (f (g y.gid)), W' (f (g y.gid))) - V (f (g y.gid)))
      rw [hfg y hy]
      exact this)
    w
    (by
      intro T S
      have := w' (fun i => T (g i)) (fun i => S (g i))
      simp only [(force_cs g cs' _).1, (force_cs g cs' _).2, List.map_map]
      refine this.trans ?_
      congr 1
      refine List.map_congr_left fun p _ => ?_
      show p.2 * _ = p.2 * gapOf T S (under g p.1)
      rw [gap_under])
    c
    (by
      intro p hp
      obtain ⟨p0, hp0, rfl⟩ := List.mem_map.1 hp
      obtain ⟨h1, h2, h3⟩ := c' p0 hp0
      obtain ⟨k1, k2, k3⟩ := flags_under g p0.1
      show Spec.RunStep.Solves fl' dt res' (under g p0.1) (gapOf (fun i => U' (f i)) (fun i => W' (f i)) (under g p0.1)) p0.2 ∧ _
      rw [hgap p0 hp0]
      refine ⟨⟨fun hb => ?_, fun hb hk => ?_, fun hb hk => ?_⟩, h2, fun hb => h3 (by rw [← k1]; exact hb)⟩
      · rw [k3]; exact h1.uni (by rw [← k1]; exact hb)
      · rw [k2] at hk ⊢
        rw [k3]; exact h1.bi (by rw [← k1]; exact hb) hk
      · rw [k2] at hk
        rw [k3]; exact h1.rigid (by rw [← k1]; exact hb) hk)
  refine ⟨r1, r2.trans (le_of_eq ?_)⟩
  congr 1
  rw [List.map_map]
  congr 1
  refine List.map_congr_left fun p hp => ?_
  obtain ⟨k1, k2, k3⟩ := flags_under g p.1
  show loose dt tol' tol |fl' (BCQP.dblEps * 100)| (under g p.1) ((under g p.1).delta0 + dt * gapOf (fun i => U' (f i)) (fun i => W' (f i)) (under g p.1)) p.2 = _
  rw [hgap p hp, k3]
  unfold loose
  rw [k1, k2]

/-- C116, motion.  As `C116_constraints_partial`; the two programs act with the same forces and prescribed velocities on the same bodies, and the solver of each converged.  Then each body moves in
one as in the other as far as the tolerances allow, whatever its name: bodies that do not move have the same velocities, and the differences of the velocities of the others, weighted with the drag,
are at most the total of what the stopping criteria leave open in the two runs. -/
theorem C116_motion_partial (hf : Function.Injective f) (h : Sim.Sound C pbc low high P) (h' : Sim.Sound D pbc low high Q) (hp : SameUnder f C D)
    (hid : ((all C.place.g.n P).map Sylinder.gid).Nodup)
    (fl fl' : ℝ → ℝ) (k k' : ℕ) (s t : Sim.State) (hr : Sim.Run (Sim.Ok pbc low high) fl C₀ B C P k s) (hr' : Sim.Run (Sim.Ok pbc low high) fl' D₀ E D Q k' t)
    (hname : Renamed f (all C.place.g.n s.sys.P) (all D.place.g.n t.sys.P))
    (hbig : ∀ b ∈ all C.place.g.n s.sys.P, ∀ k, pbc k = false → |Near.comp b.pos k| < Stats.largeFloat)
    (hbig' : ∀ b ∈ all D.place.g.n t.sys.P, ∀ k, pbc k = false → |Near.comp b.pos k| < Stats.largeFloat)
    (pre pre' : Bool) (q q' : Place.Sys) (ranks ranks' : List RankIn) (out out' : Out) (s' t' : Sim.State) (hs : Sim.Step C fl pre s q ranks out s')
    (hs' : Sim.Step D fl' pre' t q' ranks' out' t') (hcl : Clear pbc low high f C (all C.place.g.n q.P))
    (hT : pre = true ∨ C.mob.KBT ≤ 0) (hT' : pre' = true ∨ D.mob.KBT ≤ 0) (hfree : C.mob.sylinderFixed = false) (hfree' : D.mob.sylinderFixed = false)
    (htol : 0 ≤ C.ctl.res) (htol' : 0 ≤ D.ctl.res) (res res' : ℝ) (hc : Sim.Converged C fl out res) (hc' : Sim.Converged D fl' out' res')
    (hlow : ∀ p ∈ out.pools, ∀ b ∈ p.flatten, b.bilateral = true → fl (-(10 : ℝ) ^ 8 + BCQP.dblEps * 100) ≤ b.gamma)
    (hlow' : ∀ p ∈ out'.pools, ∀ b ∈ p.flatten, b.bilateral = true → fl' (-(10 : ℝ) ^ 8 + BCQP.dblEps * 100) ≤ b.gamma)
    (G V : ℤ → V3 × V3) (hG : Loads C.place.g.n q ranks (fun i => G (f i)) (fun i => V (f i))) (hG' : Loads D.place.g.n q' ranks' G V)
    (U W U' W' : ℤ → V3) (hU : Velocities (all C.place.g.n s'.sys.P) U W) (hU' : Velocities (all D.place.g.n t'.sys.P) U' W') :
    (∀ x ∈ all C.place.g.n q.P, x.isImmovable = true → U x.gid = U' (f x.gid) ∧ W x.gid = W' (f x.gid)) ∧
    C.mob.dt * ((all C.place.g.n q.P).map fun x => lag C.mob.viscosity x (U x.gid - U' (f x.gid), W x.gid - W' (f x.gid))).sum ≤
      (((constraints ranks).zip ((out.pools.flatMap fun p => p.flatten).map Block.gamma)).map fun x =>
        loose C.mob.dt C.ctl.res D.ctl.res |fl (BCQP.dblEps * 100)| x.1 (x.1.delta0 + C.mob.dt * gapOf U W x.1) x.2).sum +
      (((constraints ranks').zip ((out'.pools.flatMap fun p => p.flatten).map Block.gamma)).map fun x =>
        loose C.mob.dt D.ctl.res C.ctl.res |fl' (BCQP.dblEps * 100)| x.1 (x.1.delta0 + C.mob.dt * gapOf U' W' x.1) x.2).sum := by
  have hq := hs.prepared h (Sim.run_inv hr)
  have hq' := hs'.prepared h' (Sim.run_inv hr')
  obtain ⟨hV, -⟩ := C116_constraints_partial hf h h' hp hid fl fl' k k' s t hr hr' hname hbig hbig' pre pre' q q' ranks ranks' out out' s' t' hs hs' hcl
  obtain ⟨hcon, hsort⟩ := Rename.constraints_perm hf h h' hp hid hq hq' hs hs' hV hcl
  obtain ⟨a1, a2, a3, a4⟩ := one h hs hq hfree hc hlow (fun r hrn i x hx => by
    obtain ⟨rk, D, u, g1, g2, g3, g4, -, g5⟩ := (Layout.moving h hp.physics.mono.1.2 hfree hr hs hT r hrn).2 i x hx
    exact ⟨rk, D, u, g1, g2, g3, congrArg Prod.fst g4, g5⟩) hU hG
  obtain ⟨b1, b2, b3, b4⟩ := one h' hs' hq' hfree' hc' hlow' (fun r hrn i x hx => by
    obtain ⟨rk, D, u, g1, g2, g3, g4, -, g5⟩ := (Layout.moving h' hp.physics.mono.2.2 hfree' hr' hs' hT' r hrn).2 i x hx
    exact ⟨rk, D, u, g1, g2, g3, congrArg Prod.fst g4, g5⟩) hU' hG'
  obtain ⟨last, -, -, hlt, -⟩ := hc
  obtain ⟨last', -, -, hlt', -⟩ := hc'
  rw [show D.mob.viscosity = C.mob.viscosity from hp.physics.viscosity] at b1
  rw [show D.mob.dt = C.mob.dt from hp.physics.dt] at b3
  obtain ⟨c1, c2⟩ := Rename.close hf h.dt (fun x hx => by
    obtain ⟨r, hrn, hx⟩ := mem_everyone.1 hx
    exact hq.valid h hrn hx) (by
      rw [everyone_seen]
      refine List.Perm.trans (List.Perm.of_eq ?_) hV
      exact Layout.map_seen (everyone_seen C.place.g.n q.P) (fun x => seen (named f x)) (fun a b hab => by
        show seen (named f a) = seen (named f b)
        rw [seen_named, seen_named, hab])) (by rw [a4]; exact hsort) (by rw [a4, b4]; exact hcon) htol htol' hlt.le hlt'.le a1 b1 a2 b2 a3 b3
  constructor
  · intro x hx him
    have : seen x ∈ (everyone C.place.g.n q.P).map seen := by rw [everyone_seen]; exact List.mem_map_of_mem hx
    obtain ⟨y, hy, hyx⟩ := List.mem_map.1 this
    have e1 : y.gid = x.gid := by have := congrArg (fun v : View => v.1.1) hyx; exact this
    have e2 : y.isImmovable = x.isImmovable := by have := congrArg (fun v : View => v.1.2.2.1) hyx; exact this
    rw [← e1]
    exact c1 y hy (e2.trans him)
  · rw [Layout.map_seen (everyone_seen C.place.g.n q.P) (fun x => lag C.mob.viscosity x (U x.gid - U' (f x.gid), W x.gid - W' (f x.gid))) (fun a b hab => by
      have e1 : a.gid = b.gid := by have := congrArg (fun v : View => v.1.1) hab; exact this
      rw [Layout.lag_seen _ (by have := congrArg Prod.fst hab; exact this), e1])] at c2
    exact c2

/-- C116, positions.  After such steps a body is in one program where it is in the other, as far as the tolerances allow: for a body `u` of one and the body `u'` of the other that has its new name,
the smaller drag coefficient times the square of the distance of the centres, plus the rotational one times the square of the difference of the turns that were made, is at most `dt` times the right hand
side of `C116_motion_partial`. -/
theorem C116_positions_partial (hf : Function.Injective f) (h : Sim.Sound C pbc low high P) (h' : Sim.Sound D pbc low high Q) (hp : SameUnder f C D)
    (hid : ((all C.place.g.n P).map Sylinder.gid).Nodup)
    (fl fl' : ℝ → ℝ) (k k' : ℕ) (s t : Sim.State) (hr : Sim.Run (Sim.Ok pbc low high) fl C₀ B C P k s) (hr' : Sim.Run (Sim.Ok pbc low high) fl' D₀ E D Q k' t)
    (hname : Renamed f (all C.place.g.n s.sys.P) (all D.place.g.n t.sys.P))
    (hbig : ∀ b ∈ all C.place.g.n s.sys.P, ∀ k, pbc k = false → |Near.comp b.pos k| < Stats.largeFloat)
    (hbig' : ∀ b ∈ all D.place.g.n t.sys.P, ∀ k, pbc k = false → |Near.comp b.pos k| < Stats.largeFloat)
    (pre pre' : Bool) (q q' : Place.Sys) (ranks ranks' : List RankIn) (out out' : Out) (s' t' : Sim.State) (hs : Sim.Step C fl pre s q ranks out s')
    (hs' : Sim.Step D fl' pre' t q' ranks' out' t') (hcl : Clear pbc low high f C (all C.place.g.n q.P))
    (hT : pre = true ∨ C.mob.KBT ≤ 0) (hT' : pre' = true ∨ D.mob.KBT ≤ 0) (hfree : C.mob.sylinderFixed = false) (hfree' : D.mob.sylinderFixed = false)
    (htol : 0 ≤ C.ctl.res) (htol' : 0 ≤ D.ctl.res) (res res' : ℝ) (hc : Sim.Converged C fl out res) (hc' : Sim.Converged D fl' out' res')
    (hlow : ∀ p ∈ out.pools, ∀ b ∈ p.flatten, b.bilateral = true → fl (-(10 : ℝ) ^ 8 + BCQP.dblEps * 100) ≤ b.gamma)
    (hlow' : ∀ p ∈ out'.pools, ∀ b ∈ p.flatten, b.bilateral = true → fl' (-(10 : ℝ) ^ 8 + BCQP.dblEps * 100) ≤ b.gamma)
    (G V : ℤ → V3 × V3) (hG : Loads C.place.g.n q ranks (fun i => G (f i)) (fun i => V (f i))) (hG' : Loads D.place.g.n q' ranks' G V)
    (U W U' W' : ℤ → V3) (hU : Velocities (all C.place.g.n s'.sys.P) U W) (hU' : Velocities (all D.place.g.n t'.sys.P) U' W')
    (u u' : Sylinder) (hu : u ∈ all C.place.g.n s'.sys.P) (hu' : u' ∈ all D.place.g.n t'.sys.P) (huu : f u.gid = u'.gid) :
    lag C.mob.viscosity u (u.pos - u'.pos, C.mob.dt • (u.omega - u'.omega)) ≤ C.mob.dt * (
      (((constraints ranks).zip ((out.pools.flatMap fun p => p.flatten).map Block.gamma)).map fun x =>
        loose C.mob.dt C.ctl.res D.ctl.res |fl (BCQP.dblEps * 100)| x.1 (x.1.delta0 + C.mob.dt * gapOf U W x.1) x.2).sum +
      (((constraints ranks').zip ((out'.pools.flatMap fun p => p.flatten).map Block.gamma)).map fun x =>
        loose C.mob.dt D.ctl.res C.ctl.res |fl' (BCQP.dblEps * 100)| x.1 (x.1.delta0 + C.mob.dt * gapOf U' W' x.1) x.2).sum) ∧
    (u.isImmovable = true → u'.pos = u.pos) := by
  have hq := hs.prepared h (Sim.run_inv hr)
  have hq' := hs'.prepared h' (Sim.run_inv hr')
  obtain ⟨hV, -⟩ := C116_constraints_partial hf h h' hp hid fl fl' k k' s t hr hr' hname hbig hbig' pre pre' q q' ranks ranks' out out' s' t' hs hs' hcl
  obtain ⟨hfix, hsum⟩ := C116_motion_partial hf h h' hp hid fl fl' k k' s t hr hr' hname hbig hbig' pre pre' q q' ranks ranks' out out' s' t' hs hs' hcl hT hT' hfree hfree' htol htol'
    res res' hc hc' hlow hlow' G V hG hG' U W U' W' hU hU'
  obtain ⟨x, hx, hxv, x1, x2⟩ := Layout.before h hp.physics.mono.1.2 hfree hr hs hT hu
  obtain ⟨x', hx', -, y1, y2⟩ := Layout.before h' hp.physics.mono.2.2 hfree' hr' hs' hT' hu'
  have g1 : u.gid = x.gid := congrArg Prod.fst x1
  have g2 : u'.gid = x'.gid := congrArg Prod.fst y1
  have hpos : x'.pos = x.pos := by
    have hmem := hV.mem_iff.2 (List.mem_map_of_mem hx')
    obtain ⟨z, hz, hzx⟩ := List.mem_map.1 hmem
    have e1 : f z.gid = x'.gid := by have := congrArg (fun v : View => v.1.1) hzx; exact this
    have e2 : z.pos = x'.pos := by have := congrArg (fun v : View => v.2.1) hzx; exact this
    have hnd : ((all C.place.g.n q.P).map Sylinder.gid).Nodup := by
      have := views_nodup hq hid
      rw [List.map_map] at this
      exact this
    have : z = x := List.inj_on_of_nodup_map hnd hz hx (hf (by rw [e1, ← g2, ← huu, g1]))
    rw [← e2, this]
  obtain ⟨v1, v2⟩ := hU u hu
  obtain ⟨v3, v4⟩ := hU' u' hu'
  have hdt : D.mob.dt = C.mob.dt := hp.physics.dt
  have hdiff : u.pos - u'.pos = C.mob.dt • (u.vel - u'.vel) := by
    rw [x2, y2, hpos, hdt]
    ext <;> simp <;> ring
  constructor
  · rw [hdiff, Layout.lag_smul (T := (u.vel - u'.vel, u.omega - u'.omega)), Layout.lag_seen _ x1, pow_two, mul_assoc]
    refine mul_le_mul_of_nonneg_left (le_trans (mul_le_mul_of_nonneg_left ?_ h.dt.le) hsum) h.dt.le
    have hone : lag C.mob.viscosity x (u.vel - u'.vel, u.omega - u'.omega) = lag C.mob.viscosity x (U x.gid - U' (f x.gid), W x.gid - W' (f x.gid)) := by
      rw [← g1, v1, v2, huu, v3, v4]
    rw [hone]
    refine List.single_le_sum ?_ _ (List.mem_map_of_mem (f := fun x => lag C.mob.viscosity x (U x.gid - U' (f x.gid), W x.gid - W' (f x.gid))) hx)
    intro y hy
    obtain ⟨z, hz, rfl⟩ := List.mem_map.1 hy
    have hz2 : seen z ∈ (everyone C.place.g.n q.P).map seen := by rw [everyone_seen]; exact List.mem_map_of_mem hz
    obtain ⟨z', hz', hzz⟩ := List.mem_map.1 hz2
    obtain ⟨r, hrn, hz'⟩ := mem_everyone.1 hz'
    rw [← Layout.lag_seen _ (a := z') (by have := congrArg Prod.fst hzz; exact this)]
    exact Layout.lag_nonneg h.viscosity (hq.valid h hrn hz') _
  · intro him
    have hi : x.isImmovable = true := by
      have : u.isImmovable = x.isImmovable := congrArg (fun v : ℤ × ℤ × Bool × ℝ × ℝ => v.2.2.1) x1
      rw [← this]; exact him
    obtain ⟨f1, -⟩ := hfix x hx hi
    rw [← g1, v1, huu, v3] at f1
    rw [x2, y2, hpos, hdt, f1]

end
end Verif
