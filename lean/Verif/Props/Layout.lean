import Verif.Lemmas.Layout
import Verif.Props.Resume
/-!
C100: a step does not depend on how the bodies are distributed over the ranks and threads.
-/
namespace Verif
open Near Collector RunStep Mobility Sim Spec.Resume Spec.Momentum Spec.Layout Layout

theorem Layout.linkPairs_seen (m : List (ℤ × ℤ)) (L : List Sylinder) :
    (linkPairs m L).map (fun p => (seen p.1, p.2)) = (L.map seen).flatMap fun v => (Links.nexts m v.1.1).map fun g => (v, g) := by
  unfold linkPairs
  rw [List.map_flatMap, List.flatMap_map]
  refine List.flatMap_congr fun s _ => ?_
  rw [List.map_map]
  rfl

theorem Layout.linkPairs_perm {m m' : List (ℤ × ℤ)} (hm : m'.Perm m) {L L' : List Sylinder} (h : (L.map seen).Perm (L'.map seen)) :
    ((linkPairs m L).map fun p => (seen p.1, p.2)).Perm ((linkPairs m' L').map fun p => (seen p.1, p.2)) := by
  rw [Layout.linkPairs_seen, Layout.linkPairs_seen]
  refine (h.flatMap_right _).trans (List.Perm.flatMap_left _ fun v _ => List.Perm.map _ ?_)
  unfold Links.nexts
  exact ((hm.filter _).map _).symm

theorem Layout.sizes (C : Sim.Cfg) {P₀ : ℕ → List Sylinder} {q : Place.Sys} (hq : Sim.Prepared C P₀ q) {y : Sylinder} (hy : y ∈ everyone C.place.g.n q.P) :
    y.radiusCollision = (seen y).1.2.2.2.1 * C.place.diameterColRatio ∧ y.lengthCollision = (seen y).1.2.2.2.2 * C.place.lengthColRatio := by
  obtain ⟨r, hr, hy⟩ := mem_everyone.1 hy
  have := strip_ep hq hr hy
  exact ⟨congrArg EP.radiusCollision this, congrArg EP.lengthCollision this⟩

section
variable {C D C₀ D₀ : Sim.Cfg} {pbc : Fin 3 → Bool} {low high : Fin 3 → ℝ} {P Q B E : ℕ → List Sylinder}

theorem Layout.constraints_perm (h : Sim.Sound C pbc low high P) (h' : Sim.Sound D pbc low high Q) (hp : SamePhysics C D) (hid : ((all C.place.g.n P).map Sylinder.gid).Nodup)
    {fl fl' : ℝ → ℝ} {pre pre' : Bool} {s s' t t' : Sim.State} {q q' : Place.Sys} {ranks ranks' : List RankIn} {out out' : Out}
    (hq : Sim.Prepared C P q) (hq' : Sim.Prepared D Q q') (hs : Sim.Step C fl pre s q ranks out s') (hs' : Sim.Step D fl' pre' t q' ranks' out' t')
    (hV : ((all C.place.g.n q.P).map seen).Perm ((all D.place.g.n q'.P).map seen)) :
    ((constraints ranks).map forget).Perm ((constraints ranks').map forget) := by
  have hv := views_nodup hq hid
  have hid' : ((all D.place.g.n Q).map Sylinder.gid).Nodup := by
    have h1 := (hV.map fun v => v.1.1).nodup_iff.1 hv
    have h2 := hq'.kinds.map fun k => k.1
    simp only [List.map_map] at h1 h2
    exact h2.nodup_iff.1 h1
  have hd : D.place.d = C.place.d := by
    have := h.place.dinfo
    rw [h'.place.dinfo] at this
    exact Option.some.inj this
  have hcfg : D.place.diameterColRatio = C.place.diameterColRatio ∧ D.place.lengthColRatio = C.place.lengthColRatio ∧ D.place.colBuf = C.place.colBuf ∧ D.place.d = C.place.d :=
    ⟨hp.diameterColRatio, hp.lengthColRatio, hp.colBuf, hd⟩
  obtain ⟨K, B1, N1, e1, k1, f1, c1, l1⟩ := step_parts hs h hq hid
  obtain ⟨K', B2, N2, e2, k2, f2, c2, l2⟩ := step_parts hs' h' hq' hid'
  have f2' : List.Forall₂ (fun k b => PairOf C.place ((all C.place.g.n q.P).map seen) k (forget b)) K' B2 :=
    f2.imp fun k b hb => PairOf.same ⟨hcfg.1.symm, hcfg.2.1.symm, hcfg.2.2.1.symm, hcfg.2.2.2.symm⟩ hV _ _ hb
  have hK : K.Perm K' := by
    rw [List.perm_ext_iff_of_nodup k1 k2]
    intro k
    constructor
    · intro hk
      obtain ⟨i, hi, rfl⟩ := List.getElem_of_mem hk
      obtain ⟨hl, hg⟩ := List.forall₂_iff_get.1 f1
      exact c2 _ _ (PairOf.same hcfg hV.symm _ _ (hg i hi (by omega)))
    · intro hk
      obtain ⟨i, hi, rfl⟩ := List.getElem_of_mem hk
      obtain ⟨hl, hg⟩ := List.forall₂_iff_get.1 f2'
      exact c1 _ _ (hg i hi (by omega))
  have hB : (B1.map forget).Perm (B2.map forget) := by
    refine perm_of_rel (PairOf.unique (c := C.place) hv) (k := K) (k' := K') ?_ ?_ hK
    · rw [List.forall₂_map_right_iff]; exact f1
    · rw [List.forall₂_map_right_iff]; exact f2'
  have l2' : List.Forall₂ (fun (p : Sylinder × ℤ) b => LinkOf C.link C.place ((all C.place.g.n q.P).map seen) (seen p.1, p.2) (forget b))
      (linkPairs D.linkMap (everyone D.place.g.n q'.P)) N2 := by
    refine l2.imp fun k b hb => ?_
    rw [hp.link] at hb
    exact LinkOf.same ⟨hcfg.1.symm, hcfg.2.1.symm, hcfg.2.2.1.symm⟩ hV _ _ hb
  have hE : ((everyone C.place.g.n q.P).map seen).Perm ((everyone D.place.g.n q'.P).map seen) := by
    rw [everyone_seen, everyone_seen]
    exact hV
  have hN : (N1.map forget).Perm (N2.map forget) := by
    refine perm_of_rel (LinkOf.unique (cfg := C.link) (c := C.place) hv) (k := (linkPairs C.linkMap (everyone C.place.g.n q.P)).map fun p => (seen p.1, p.2))
      (k' := (linkPairs D.linkMap (everyone D.place.g.n q'.P)).map fun p => (seen p.1, p.2)) ?_ ?_ (Layout.linkPairs_perm hp.linkMap hE)
    · rw [List.forall₂_map_right_iff, List.forall₂_map_left_iff]; exact l1
    · rw [List.forall₂_map_right_iff, List.forall₂_map_left_iff]; exact l2'
  refine (e1.map forget).trans (List.Perm.trans ?_ (e2.map forget).symm)
  simp only [List.map_append]
  refine (hB.append ?_).append hN
  rw [List.map_flatMap, List.map_flatMap]
  refine List.Perm.trans ?_ (hp.bounds.symm.flatMap_right _)
  refine List.Perm.flatMap_left _ fun b _ => ?_
  rw [List.map_flatMap, List.map_flatMap]
  refine flatMap_perm hE _ _ fun x hx y hy hxy => List.Perm.of_eq ?_
  obtain ⟨x1, x2⟩ := Layout.sizes C hq hx
  obtain ⟨y1, y2⟩ := Layout.sizes D hq' hy
  rw [hp.colBuf]
  exact bodyBlocks_forget b _ x y hxy (by rw [x1, y1, hxy, hp.diameterColRatio]) (by rw [x2, y2, hxy, hp.lengthColRatio])

/-- The bodies of two programs when the next step starts. -/
theorem Layout.start_perm (h : Sim.Sound C pbc low high P) (h' : Sim.Sound D pbc low high Q) (hmono : C.place.monolayer = false) (hmono' : D.place.monolayer = false) {s t q q' : Place.Sys} (hi : Sim.Inv C P s) (hi' : Sim.Inv D Q t)
    (hsame : ((all C.place.g.n s.P).map seen).Perm ((all D.place.g.n t.P).map seen))
    (hbig : ∀ b ∈ all C.place.g.n s.P, ∀ k, pbc k = false → |Near.comp b.pos k| < Stats.largeFloat) {k k' : ℕ} (hq : ∃ x, Place.Valid C.place x ∧ Place.PrepareStep C.place x k s q)
    (hq' : ∃ x, Place.Valid D.place x ∧ Place.PrepareStep D.place x k' t q') :
    ((all C.place.g.n q.P).map seen).Perm ((all D.place.g.n q'.P).map seen) := by
  obtain ⟨x, hx, hq⟩ := hq
  obtain ⟨x', hx', hq'⟩ := hq'
  have hbig' : ∀ b ∈ all D.place.g.n t.P, ∀ k, pbc k = false → |Near.comp b.pos k| < Stats.largeFloat := by
    intro b hb k hk
    have hm : seen b ∈ (all C.place.g.n s.P).map seen := hsame.mem_iff.2 (List.mem_map_of_mem hb)
    obtain ⟨a, ha, hab⟩ := List.mem_map.1 hm
    have : a.pos = b.pos := congrArg (fun v : View => v.2.1) hab
    rw [← this]
    exact hbig a ha k hk
  have e : Resume.seenHome pbc low high = (fun v : View => (v.1, Resume.home pbc low high v.2.1, v.2.2)) ∘ seen := rfl
  refine (Resume.next h hmono hi hx hq hbig).trans (List.Perm.trans ?_ (Resume.next h' hmono' hi' hx' hq' hbig').symm)
  rw [e, ← List.map_map, ← List.map_map]
  exact hsame.map _

/-- The bodies after `initialize` has distributed them. -/
theorem Layout.start_seen (h : Sim.Sound C pbc low high P) {junk : ℕ → Box} {x y : Place.Exec} {s1 s2 : Place.Sys} (hx : Place.Valid C.place x) (hy : Place.Valid C.place y)
    (h1 : Place.DecomposeDomain C.place x ⟨⟨true, junk⟩, P⟩ s1) (h2 : Place.ExchangeSylinder C.place y s1 s2)
    (hbig : ∀ b ∈ all C.place.g.n P, ∀ k, pbc k = false → |Near.comp b.pos k| < Stats.largeFloat) :
    ((all C.place.g.n s2.P).map seen).Perm ((all C.place.g.n P).map (Resume.seenHome pbc low high)) ∧
      ∀ b ∈ all C.place.g.n s2.P, ∀ k, pbc k = false → |Near.comp b.pos k| < Stats.largeFloat := by
  obtain ⟨a1, a2, a3⟩ := (Place.decomposeDomain_spec h.place hx _ h.enough (fun h => by simp at h)).2 _ h1
  have hw := Place.wraps_spec h.place a3
  obtain ⟨b1, b2⟩ := (Place.exchangeSylinder_spec h.place hy s1 a2 (fun r hr => (hw r hr).2)).2 _ h2
  have hp := (Place.settled_perm h.place hx _ a2 s1.P fun r hr => (hw r hr).2).1.map Place.core
  have h3 : List.Forall₂ (Place.SameBody pbc low high) (all C.place.g.n P) (all C.place.g.n s1.P) :=
    Place.forall₂_flatMap _ fun r hr => (hw r hr).1
  have h4 : ((all C.place.g.n s2.P).map Place.core).Perm ((all C.place.g.n s1.P).map Place.core) := by
    refine List.Perm.trans (List.Perm.of_eq ?_) hp
    unfold all
    rw [List.map_flatMap, List.map_flatMap]
    refine List.flatMap_congr fun r hr => ?_
    rw [b2 r (by simpa using hr), List.map_map]
    rfl
  obtain ⟨c1, c2⟩ := Resume.seen_carry h.place h3 h4 hbig
  refine ⟨(List.Perm.of_eq (List.map_congr_left fun b hb => ?_)).trans c1, c2⟩
  have hc : Place.core b ∈ (all C.place.g.n s1.P).map Place.core := h4.mem_iff.1 (List.mem_map_of_mem hb)
  obtain ⟨w, hwm, hwb⟩ := List.mem_map.1 hc
  obtain ⟨r, hr, hwr⟩ := mem_all.1 hwm
  have hpos : b.pos = w.pos := by
    have := congrArg Sylinder.pos hwb
    exact this.symm
  unfold seen Resume.seenHome
  rw [hpos, Resume.home_mem h.place ((hw r hr).2 w hwr)]

/-- C100, start.  Two programs, with any numbers of ranks each, are given the same bodies in any order and on any ranks.  When they have distributed them they have the same
bodies, at the same places. -/
theorem C100_start (h : Sim.Sound C pbc low high P) (h' : Sim.Sound D pbc low high Q)
    (hsame : ((all C.place.g.n P).map seen).Perm ((all D.place.g.n Q).map seen))
    (hbig : ∀ b ∈ all C.place.g.n P, ∀ k, pbc k = false → |Near.comp b.pos k| < Stats.largeFloat)
    (junk junk' : ℕ → Box) (x y x' y' : Place.Exec) (s1 s2 t1 t2 : Place.Sys) (hx : Place.Valid C.place x) (hy : Place.Valid C.place y)
    (hx' : Place.Valid D.place x') (hy' : Place.Valid D.place y')
    (h1 : Place.DecomposeDomain C.place x ⟨⟨true, junk⟩, P⟩ s1) (h2 : Place.ExchangeSylinder C.place y s1 s2)
    (h1' : Place.DecomposeDomain D.place x' ⟨⟨true, junk'⟩, Q⟩ t1) (h2' : Place.ExchangeSylinder D.place y' t1 t2) :
    ((all C.place.g.n s2.P).map seen).Perm ((all D.place.g.n t2.P).map seen) ∧
      ∀ b ∈ all C.place.g.n s2.P, ∀ k, pbc k = false → |Near.comp b.pos k| < Stats.largeFloat := by
  obtain ⟨e1, e2⟩ := Layout.start_seen h hx hy h1 h2 hbig
  have hbig' : ∀ b ∈ all D.place.g.n Q, ∀ k, pbc k = false → |Near.comp b.pos k| < Stats.largeFloat := by
    intro b hb k hk
    have hm : seen b ∈ (all C.place.g.n P).map seen := hsame.mem_iff.2 (List.mem_map_of_mem hb)
    obtain ⟨a, ha, hab⟩ := List.mem_map.1 hm
    have : a.pos = b.pos := congrArg (fun v : View => v.2.1) hab
    rw [← this]
    exact hbig a ha k hk
  obtain ⟨f1, -⟩ := Layout.start_seen h' hx' hy' h1' h2' hbig'
  refine ⟨e1.trans (List.Perm.trans ?_ f1.symm), e2⟩
  have e : Resume.seenHome pbc low high = (fun v : View => (v.1, Resume.home pbc low high v.2.1, v.2.2)) ∘ seen := rfl
  rw [e, ← List.map_map, ← List.map_map]
  exact hsame.map _

/-- C100, constraints.  Two programs simulate the same (`SamePhysics`), in the same box, each in a run of its own, with any numbers of ranks and threads each, any assignment of
bodies to ranks, and any schedule.  When they have the same bodies, each with an id of its own and closer than `LARGE` to the origin along the directions that are not periodic, the next step of
each has the same bodies at the same places in the box and the same constraints: the contacts, contacts with the boundaries and links of one are those of the other, with
the same bodies, separations, directions and points, though found by other ranks and in another order, and numbered otherwise. -/
theorem C100_constraints (h : Sim.Sound C pbc low high P) (h' : Sim.Sound D pbc low high Q) (hp : SamePhysics C D) (hid : ((all C.place.g.n P).map Sylinder.gid).Nodup)
    (fl fl' : ℝ → ℝ) (k k' : ℕ) (s t : Sim.State) (hr : Sim.Run (Sim.Ok pbc low high) fl C₀ B C P k s) (hr' : Sim.Run (Sim.Ok pbc low high) fl' D₀ E D Q k' t)
    (hsame : ((all C.place.g.n s.sys.P).map seen).Perm ((all D.place.g.n t.sys.P).map seen))
    (hbig : ∀ b ∈ all C.place.g.n s.sys.P, ∀ k, pbc k = false → |Near.comp b.pos k| < Stats.largeFloat)
    (pre pre' : Bool) (q q' : Place.Sys) (ranks ranks' : List RankIn) (out out' : Out) (s' t' : Sim.State) (hs : Sim.Step C fl pre s q ranks out s')
    (hs' : Sim.Step D fl' pre' t q' ranks' out' t') :
    ((all C.place.g.n q.P).map seen).Perm ((all D.place.g.n q'.P).map seen) ∧ ((constraints ranks).map forget).Perm ((constraints ranks').map forget) := by
  have hV := Layout.start_perm h h' hp.mono.1.1 hp.mono.2.1 (Sim.run_inv hr) (Sim.run_inv hr') hsame hbig hs.prepare hs'.prepare
  exact ⟨hV, Layout.constraints_perm h h' hp hid (hs.prepared h (Sim.run_inv hr)) (hs'.prepared h' (Sim.run_inv hr')) hs hs' hV⟩

end

/-- The hypotheses of C100 can be met: two spheres with a link and a wall, on one rank and on two. -/
theorem Layout.witness (D : Draws) : ∃ (C C' : Sim.Cfg) (P : ℕ → List Sylinder) (s s' t t' : Sim.State) (q q' : Place.Sys) (ranks ranks' : List RankIn) (out out' : Out),
    C.place.g.n = 1 ∧ C'.place.g.n = 2 ∧ Sim.Sound C (fun _ => false) (fun _ => 0) (fun _ => 1) P ∧ Sim.Sound C' (fun _ => false) (fun _ => 0) (fun _ => 1) P ∧ SamePhysics C C' ∧
    ((all C.place.g.n P).map Sylinder.gid).Nodup ∧ Sim.Run (Sim.Ok (fun _ => false) (fun _ => 0) (fun _ => 1)) id C P C P 0 s ∧
    Sim.Run (Sim.Ok (fun _ => false) (fun _ => 0) (fun _ => 1)) id C' P C' P 0 t ∧ ((all C.place.g.n s.sys.P).map seen).Perm ((all C'.place.g.n t.sys.P).map seen) ∧
    (∀ b ∈ all C.place.g.n s.sys.P, ∀ k : Fin 3, (fun _ => false : Fin 3 → Bool) k = false → |Near.comp b.pos k| < Stats.largeFloat) ∧
    Sim.Step C id false s q ranks out s' ∧ Sim.Step C' id false t q' ranks' out' t' ∧ C.linkMap = [(7, 9)] ∧ C.bounds ≠ [] ∧
    (Sim.Converged C id out 0 ∧ Sim.Converged C' id out' 0 ∧ C.mob.sylinderFixed = false ∧ C'.mob.sylinderFixed = false ∧ C.mob.KBT = 0 ∧ C'.mob.KBT = 0 ∧ 0 < C.ctl.res ∧ 0 < C'.ctl.res) ∧
    (∀ p ∈ out.pools, ∀ b ∈ p.flatten, b.gamma = 0) ∧ (∀ p ∈ out'.pools, ∀ b ∈ p.flatten, b.gamma = 0) ∧
    (∀ rk ∈ ranks, rk.force = none ∧ rk.velPart = none) ∧ ∀ rk ∈ ranks', rk.force = none ∧ rk.velPart = none := by
  obtain ⟨C, P, s, s', q, ranks, out, a1, a2, -, a3, a4, a5, -, a6, -, -, ⟨w, hw, -⟩, a7, -, a8, -, -, ⟨⟨a9, am⟩, a10, -, a11, a12⟩, -, c, junk, s1, e1, e2, e3, e4, e5, e6, e7⟩ :=
    Sim.witness_on (n := 1) (by norm_num) D
  obtain ⟨C', P', t, t', q', ranks', out', b1, b2, -, b3, b4, b5, -, b6, -, -, -, b7, -, b8, -, -, ⟨⟨b9, bm⟩, b10, -, b11, b12⟩, -, c', junk', t1, f1, f2, f3, f4, f5, f6, f7⟩ :=
    Sim.witness_on (n := 2) (by norm_num) D
  subst f2
  subst e2
  have hbig : ∀ b ∈ all C.place.g.n twoBalls, ∀ k : Fin 3, (fun _ => false : Fin 3 → Bool) k = false → |Near.comp b.pos k| < Stats.largeFloat := by
    intro b hb k _
    rw [a2, twoBalls_on (by norm_num)] at hb
    have hl : ∀ g x, |x| ≤ (1 : ℝ) → ∀ k, |Near.comp (NoOverlap.ball g 0 x).pos k| < Stats.largeFloat := by
      intro g x hx k
      have e : (NoOverlap.ball g 0 x).pos = ⟨x, 0.5, 0.5⟩ := rfl
      rw [e]
      refine lt_of_le_of_lt ?_ (by norm_num [Stats.largeFloat] : (1 : ℝ) < Stats.largeFloat)
      fin_cases k
      · exact hx
      · show |(0.5 : ℝ)| ≤ 1
        norm_num
      · show |(0.5 : ℝ)| ≤ 1
        norm_num
    simp only [List.mem_cons, List.not_mem_nil, or_false] at hb
    rcases hb with rfl | rfl <;> exact hl _ _ (by norm_num) k
  have hall : ((all C.place.g.n twoBalls).map seen).Perm ((all C'.place.g.n twoBalls).map seen) := by
    rw [a2, b2, twoBalls_on (by norm_num), twoBalls_on (by norm_num)]
  have hpl : C.place = c := by rw [e1]; rfl
  have hpl' : C'.place = c' := by rw [f1]; rfl
  obtain ⟨g1, g2⟩ := C100_start a1 b1 hall hbig junk junk' _ _ _ _ s1 s.sys t1 t.sys (hpl ▸ Place.plain_valid c) (hpl ▸ Place.plain_valid c)
    (hpl' ▸ Place.plain_valid c') (hpl' ▸ Place.plain_valid c') e6 e7 f6 f7
  refine ⟨C, C', twoBalls, s, s', t, t', q, q', ranks, ranks', out, out', a2, b2, a1, b1, ?_, by rw [a11]; decide, a4, b4, g1, g2, a5, b5, a7, List.ne_nil_of_mem hw,
    ⟨a6, b6, a3, b3, a9, b9, a10, b10⟩, a8, b8, a12, b12⟩
  rw [e1] at am
  rw [f1] at bm
  rw [e1, f1]
  exact ⟨⟨am, bm⟩, by simp [twoBallsCfg, e3, f3], by simp [twoBallsCfg, e4, f4], by simp [twoBallsCfg, e5, f5], rfl, List.Perm.refl _, List.Perm.refl _, rfl, rfl⟩

/-- `C100_constraints` for them. -/
example (D : Draws) : ∃ (C C' : Sim.Cfg) (ranks ranks' : List RankIn), C.place.g.n = 1 ∧ C'.place.g.n = 2 ∧ ranks.length = 1 ∧ ranks'.length = 2 ∧
    ((constraints ranks).map forget).Perm ((constraints ranks').map forget) := by
  obtain ⟨C, C', P, s, s', t, t', q, q', ranks, ranks', out, out', h1, h2, h3, h4, h5, h6, h7, h8, h9, h10, h11, h12, -⟩ := Layout.witness D
  exact ⟨C, C', ranks, ranks', h1, h2, h11.size.trans h1, h12.size.trans h2,
    (C100_constraints h3 h4 h5 h6 id id 0 0 s t h7 h8 h9 h10 false false q q' ranks ranks' out out' s' t' h11 h12).2⟩

end Verif
