import Verif.Lemmas.Momentum
/-!
C95: the balance of forces and moments of a step.
-/
namespace Verif
open Sim RunStep Mobility Collector Spec.Momentum Momentum
open Spec.Collector (vsum force torque)

/-- C95.  Take any step of any run, whether the solver converges or not.  There are multipliers, one for each constraint of all ranks, with which the forces of the step
come about (in a step that converges they are those written back to the pools), such that, over the bodies of all ranks,

* the forces on the bodies at the end of the step add up to the given forces and what the walls exert: contacts and links between bodies contribute nothing;
* so do the moments about any point `c`, for each axis `k` such that the box is not periodic along the other two (the bodies are where the step found them).

Only the constraints of boundaries are one-sided: without boundaries, the sums are those of the given forces alone (`C95_free`). -/
theorem C95_balance {C C₀ : Sim.Cfg} {pbc : Fin 3 → Bool} {low high : Fin 3 → ℝ} {P₀ B : ℕ → List Sylinder} (h : Sim.Sound C pbc low high P₀)
    (fl : ℝ → ℝ) (k : ℕ) (s : Sim.State) (hr : Sim.Run (Sim.Ok pbc low high) fl C₀ B C P₀ k s)
    (pre : Bool) (q : Place.Sys) (ranks : List RankIn) (out : Out) (s' : Sim.State) (hs : Sim.Step C fl pre s q ranks out s') :
    (given ranks).length = (all C.place.g.n q.P).length ∧ (all C.place.g.n s'.sys.P).length = (all C.place.g.n q.P).length ∧
    ∃ mult : List ℝ, mult.length = (constraints ranks).length ∧
      (∀ res, C.mob.sylinderFixed = false → Sim.Converged C fl out res → mult = (out.pools.flatMap fun p => p.flatten).map Block.gamma) ∧
      vsum ((all C.place.g.n s'.sys.P).map Sylinder.force) = vsum ((given ranks).map Prod.fst) +
        vsum ((((constraints ranks).zip mult).filter fun x => x.1.oneSide).map fun x => x.2 • x.1.normI) ∧
      ∀ (c : V3) (a : Fin 3), (∀ a', a' ≠ a → pbc a' = false) →
        Near.comp (vsum (List.zipWith (fun b u => moment c b.pos u.force u.torque) (all C.place.g.n q.P) (all C.place.g.n s'.sys.P))) a =
          Near.comp (vsum (List.zipWith (fun b G => moment c b.pos G.1 G.2) (all C.place.g.n q.P) (given ranks)) +
            vsum ((((constraints ranks).zip mult).filter fun x => x.1.oneSide).map fun x => x.2 • V3.cross (x.1.labI - c) x.1.normI)) a := by
  have hq := hs.prepared h (Sim.run_inv hr)
  obtain ⟨mult, hm, hcv⟩ := applies hs h hq
  obtain ⟨e1, e2, e3⟩ := all_loaded hs h hq
  have hg := loaded_given hs h hq hm
  have hsh := shapes hs h hq
  set cs := (constraints ranks).zip mult with hcs
  have hmem : ∀ p ∈ cs, Shape pbc (loaded out).length (posOf out) p.1 := fun p hp => (hsh p.1 (List.of_mem_zip hp).1).1
  have l1 : (all C.place.g.n q.P).length = (loaded out).length := by simpa using congrArg List.length e1
  have l2 : (all C.place.g.n s'.sys.P).length = (loaded out).length := by simpa using congrArg List.length e2
  refine ⟨by rw [l1, hg.length_eq], by rw [l1, l2], mult, hm.1, hcv, ?_, ?_⟩
  · have h1 := vsum_forall₂ hg Sylinder.force (fun t => force cs t.globalIndex) (fun _ G => G.1) (fun a b _ hab => hab.1)
    rw [e2, h1, range_loaded hs h hq (fun g => force cs g), total_force _ cs (fun p hp => (hmem p hp).1) (fun p hp ho => ((hmem p hp).2.2 ho).1)]
    congr 1
    · congr 1
      apply List.ext_getElem
      · simp [hg.length_eq]
      · intro i h1 h2; simp
    · refine vsum_filter cs (fun x => x.1.oneSide) _ _ ?_ ?_
      · intro p hp ho
        rw [ho, ((hmem p hp).2.2 ho).2.1]
        ext <;> simp
      · intro p hp ho
        rw [ho, if_pos rfl, add_zero']
  · intro c a ha
    have h1 := vsum_forall₂ hg (fun t => moment c t.pos t.force t.torque) (fun t => moment c (posOf out t.globalIndex) (force cs t.globalIndex) (torque cs t.globalIndex))
      (fun t G => moment c t.pos G.1 G.2) (fun t G ht hab => by
        rw [hab.1, hab.2, posOf_loaded hs h hq t ht]
        unfold moment
        ext <;> simp <;> ring)
    have h2 : List.zipWith (fun b u => moment c b.pos u.force u.torque) (all C.place.g.n q.P) (all C.place.g.n s'.sys.P) =
        (loaded out).map fun t => moment c t.pos t.force t.torque := by
      apply List.ext_getElem
      · simp [l1, l2]
      · intro i h3 h4
        have hi : i < (loaded out).length := by simpa using h4
        simp only [List.getElem_zipWith, List.getElem_map, map_at e1 i (by omega) hi, map_at e2 i (by omega) hi, map_at e3 i (by omega) hi]
    have h3 : List.zipWith (fun (b : Sylinder) (G : V3 × V3) => moment c b.pos G.1 G.2) (all C.place.g.n q.P) (given ranks) =
        List.zipWith (fun (b : Sylinder) (G : V3 × V3) => moment c b.pos G.1 G.2) (loaded out) (given ranks) := by
      apply List.ext_getElem
      · simp [l1]
      · intro i h3 h4
        have hi : i < (loaded out).length := by simp only [List.length_zipWith] at h4; omega
        simp only [List.getElem_zipWith, map_at e1 i (by omega) hi]
    rw [h2, h3, h1, range_loaded hs h hq (fun g => moment c (posOf out g) (force cs g) (torque cs g)),
      total_moment _ (posOf out) c cs (fun p hp => (hmem p hp).1) (fun p hp ho => ((hmem p hp).2.2 ho).1)]
    have hadd : ∀ x y : V3, Near.comp (x + y) a = Near.comp x a + Near.comp y a := by intro x y; fin_cases a <;> rfl
    rw [hadd, hadd]
    congr 1
    refine vsum_filter_comp a cs (fun x => x.1.oneSide) _ _ ?_ ?_
    · intro p hp ho
      obtain ⟨-, k1, k2⟩ := hmem p hp
      obtain ⟨-, k3, k4, D, k5, k6⟩ := k2 ho
      have key : V3.cross (posOf out p.1.globalIndexI + p.1.posI - c) p.1.normI + V3.cross (posOf out p.1.globalIndexJ + p.1.posJ - c) p.1.normJ = V3.cross D p.1.normI := by
        rw [k3, k1, show posOf out p.1.globalIndexJ + p.1.posJ = p.1.labJ - D by rw [← k6]; ext <;> simp <;> ring]
        have : V3.cross (p.1.labI - p.1.labJ) p.1.normI = 0 := by rw [k4]; ext <;> simp <;> ring
        have hx := congrArg V3.x this
        have hy := congrArg V3.y this
        have hz := congrArg V3.z this
        simp only [V3.cross_x, V3.cross_y, V3.cross_z, V3.sub_x, V3.sub_y, V3.sub_z, V3.zero_x, V3.zero_y, V3.zero_z] at hx hy hz
        ext <;> simp <;> linarith
      rw [ho, if_neg (by simp), key]
      fin_cases a
      · have a1 : D.y = 0 := k5 1 (ha 1 (by decide))
        have a2 : D.z = 0 := k5 2 (ha 2 (by decide))
        show p.2 * (D.y * p.1.normI.z - D.z * p.1.normI.y) = 0
        rw [a1, a2]; ring
      · have a1 : D.x = 0 := k5 0 (ha 0 (by decide))
        have a2 : D.z = 0 := k5 2 (ha 2 (by decide))
        show p.2 * (D.z * p.1.normI.x - D.x * p.1.normI.z) = 0
        rw [a1, a2]; ring
      · have a1 : D.x = 0 := k5 0 (ha 0 (by decide))
        have a2 : D.y = 0 := k5 1 (ha 1 (by decide))
        show p.2 * (D.x * p.1.normI.y - D.y * p.1.normI.x) = 0
        rw [a1, a2]; ring
    · intro p hp ho
      rw [ho, if_pos rfl, add_zero', (hmem p hp).2.1]

/-- C95 without boundaries: the forces on the bodies add up to the given forces, and, in a box that is not periodic, so do the moments about any point. -/
theorem C95_free {C C₀ : Sim.Cfg} {pbc : Fin 3 → Bool} {low high : Fin 3 → ℝ} {P₀ B : ℕ → List Sylinder} (h : Sim.Sound C pbc low high P₀) (hb : C.bounds = [])
    (fl : ℝ → ℝ) (k : ℕ) (s : Sim.State) (hr : Sim.Run (Sim.Ok pbc low high) fl C₀ B C P₀ k s)
    (pre : Bool) (q : Place.Sys) (ranks : List RankIn) (out : Out) (s' : Sim.State) (hs : Sim.Step C fl pre s q ranks out s') :
    vsum ((all C.place.g.n s'.sys.P).map Sylinder.force) = vsum ((given ranks).map Prod.fst) ∧
    ((∀ a, pbc a = false) → ∀ c : V3, vsum (List.zipWith (fun b u => moment c b.pos u.force u.torque) (all C.place.g.n q.P) (all C.place.g.n s'.sys.P)) =
      vsum (List.zipWith (fun b G => moment c b.pos G.1 G.2) (all C.place.g.n q.P) (given ranks))) := by
  have hq := hs.prepared h (Sim.run_inv hr)
  obtain ⟨-, -, mult, -, -, h1, h2⟩ := C95_balance h fl k s hr pre q ranks out s' hs
  have hnone : ((constraints ranks).zip mult).filter (fun x => x.1.oneSide) = [] := by
    rw [List.filter_eq_nil_iff]
    intro p hp
    rw [(shapes hs h hq p.1 (List.of_mem_zip hp).1).2 hb]
    simp
  simp only [hnone, List.map_nil, vsum, add_zero'] at h1 h2
  refine ⟨h1, fun ha c => ?_⟩
  exact V3.ext (h2 c 0 fun a _ => ha a) (h2 c 1 fun a _ => ha a) (h2 c 2 fun a _ => ha a)

/-- The hypotheses of C95 can be met with a wall, a contact and a link, in a step that converges. -/
example (D : Draws) : ∃ (C : Sim.Cfg) (P₀ : ℕ → List Sylinder) (s s' : Sim.State) (q : Place.Sys) (ranks : List RankIn) (out : Out),
    Sim.Sound C (fun _ => false) (fun _ => 0) (fun _ => 1) P₀ ∧ C.mob.sylinderFixed = false ∧ Sim.Run (Sim.Ok (fun _ => false) (fun _ => 0) (fun _ => 1)) id C P₀ C P₀ 0 s ∧
    Sim.Step C id false s q ranks out s' ∧ Sim.Converged C id out 0 ∧ C.linkMap = [(7, 9)] ∧ C.bounds ≠ [] := by
  obtain ⟨C, P₀, s, s', q, ranks, out, h1, -, -, h2, h3, h4, -, h5, -, -, ⟨b, hb, -⟩, e1, -⟩ := Sim.witness D
  exact ⟨C, P₀, s, s', q, ranks, out, h1, h2, h3, h4, h5, e1, fun h => by rw [h] at hb; cases hb⟩

/-- Two ranks, no periodic axes, no walls, and a link. -/
noncomputable def Momentum.linkedCfg (c : Place.Cfg) : Sim.Cfg := { twoBallsCfg c with bounds := [] }

/-- With at most two bodies on at most two ranks, no walls and no periodic axes, every state of a run has a next step, in which a force is given for every body, or for none. -/
theorem Momentum.acts (a : Option ℝ) {C : Sim.Cfg} {P₀ : ℕ → List Sylinder} (h : Sim.Sound C (fun _ => false) (fun _ => 0) (fun _ => 1) P₀) (hn' : C.place.g.n = 2)
    (hper : ∀ k, C.place.d.periodic k = false) (hb0 : C.bounds = []) (hF : C.F = ⟨100, 1, 2, 3⟩) (hch : C.ctl.choice ≠ 1) (hres : 0 < C.ctl.res)
    (hlinks : ∀ l : List Sylinder, (linkPairs C.linkMap l).length ≤ l.length) (h2 : (all C.place.g.n P₀).length = 2) (D : Draws) {C₀ : Sim.Cfg} {B : ℕ → List Sylinder} {k : ℕ} {s : Sim.State}
    (hrun : Sim.Run (Sim.Ok (fun _ => false) (fun _ => 0) (fun _ => 1)) id C₀ B C P₀ k s) :
    ∃ q ranks out s', Sim.Step C id false s q ranks out s' ∧ ∀ rk ∈ ranks, rk.force = a.map (fun x => List.replicate (6 * rk.bodies.length) x) ∧ rk.velPart = none ∧
      (((rk.pool.flatten.map (fun b => if b.oneSide then 6 else 12)).sum : ℕ) : ℤ) ≤ 2 ^ 31 - 1 := by
  obtain ⟨-, prog⟩ := C91_progress h hch hres (by rw [hb0]; intro b hb; cases hb)
  obtain ⟨⟨q, hpq⟩, prog⟩ := prog C₀ B k s hrun _ (Place.plain_valid C.place)
  have hq := Sim.prepare h (Sim.run_inv hrun) (Place.plain_valid C.place) hpq
  have hcount : ∀ r < C.place.g.n, (numbered C.place.g.n q.P r).length ≤ 2 := by
    intro r hr
    rw [numbered_length _ _ _ hr]
    have h1 := hq.kinds.length_eq
    rw [List.length_map, List.length_map] at h1
    rw [h2] at h1
    have h3 : (q.P r).Sublist (all C.place.g.n q.P) := by
      unfold all
      rw [List.flatMap_def]
      exact List.sublist_flatten_of_mem (List.mem_map_of_mem (List.mem_range.2 hr))
    have := h3.length_le
    omega
  obtain ⟨order, horder⟩ : ∃ order, order = (List.range C.place.g.n).flatMap fun r => Links.published (numbered C.place.g.n q.P r) := ⟨_, rfl⟩
  have hX : ∀ r < C.place.g.n, (Force.plainExec 3 ((numbered C.place.g.n q.P r).map Collide.toEp)).Valid C.F ((numbered C.place.g.n q.P r).map Collide.toEp) := by
    intro r _
    rw [hF]
    exact Force.plainExec_valid (c := ⟨100, 1, 2, 3⟩) (by norm_num) _
  obtain ⟨hpool, hstep⟩ := prog q hpq order (List.Perm.of_eq horder) (fun r => Force.plainExec 3 ((numbered C.place.g.n q.P r).map Collide.toEp)) hX
  have hpool := hpool (by intro r hr y hy b hb; rw [hb0] at hb; cases hb)
  have hpool' : ∀ r, ∃ pool, r < C.place.g.n → Collects C q.dec.dom (numbered C.place.g.n q.P) (s.dir.buildIndex order)
      (fun r => Force.plainExec 3 ((numbered C.place.g.n q.P r).map Collide.toEp)) r pool := by
    intro r
    by_cases hr : r < C.place.g.n
    · obtain ⟨p, hp⟩ := hpool r hr
      exact ⟨p, fun _ => hp⟩
    · exact ⟨[], fun h => absurd h hr⟩
  choose f hf using hpool'
  have hblocks : ∀ r < C.place.g.n, (f r).flatten.length ≤ 14 := by
    intro r hr
    obtain ⟨L, blocks, bs, news, h1, h2, h3, -, h5, h6, h7⟩ := pool_parts hq h s.dir order (List.Perm.of_eq horder) _ hX hr (f r) (hf r hr)
    have hnews : news.length ≤ 2 := by
      rw [← h7.length_eq]
      exact (hlinks _).trans (hcount r hr)
    have hbs : bs = [] := by rw [hb0, List.map_eq_nil_iff] at h5; exact h5
    have hL : L.length ≤ 8 := by
      have hsub : L ⊆ (List.range 2).flatMap fun i => (List.range 2).flatMap fun r => (List.range 2).map fun j => (i, r, j, (⟨0, 0, 0⟩ : Image.Idx)) := by
        intro p hp
        obtain ⟨b, hb⟩ : ∃ b, (p, b) ∈ L.zip blocks := by
          obtain ⟨i, hi, rfl⟩ := List.getElem_of_mem hp
          have hi' : i < (L.zip blocks).length := by rw [List.length_zip, ← h3.length_eq]; omega
          refine ⟨blocks[i]'(by rw [← h3.length_eq]; exact hi), ?_⟩
          have := List.getElem_mem hi'
          rwa [List.getElem_zip] at this
        obtain ⟨x, y, hx, hy, ⟨i1, i2, i3, i4⟩, -⟩ := (List.forall₂_iff_zip.1 h3).2 hb
        obtain ⟨i, r', j, ⟨wx, wy, wz⟩⟩ := p
        obtain rfl : wx = 0 := i2 (hper 0)
        obtain rfl : wy = 0 := i3 (hper 1)
        obtain rfl : wz = 0 := i4 (hper 2)
        obtain ⟨z, hz, -⟩ := Option.map_eq_some_iff.1 hy
        have o1 : r' < C.place.g.n := i1
        have hj : j < 2 := lt_of_lt_of_le (List.getElem?_eq_some_iff.1 hz).1 (hcount r' o1)
        have hi : i < 2 := lt_of_lt_of_le (List.getElem?_eq_some_iff.1 hx).1 (hcount r hr)
        rw [hn'] at o1
        simp only [List.mem_flatMap, List.mem_range, List.mem_map]
        exact ⟨i, hi, r', o1, j, hj, rfl⟩
      have := (List.subperm_of_subset h2 hsub).length_le
      simpa using this
    have hb : blocks.length = L.length := h3.length_eq.symm
    rw [h1.length_eq, List.length_append, List.length_append, hbs, List.flatMap_nil, List.length_nil]
    omega
  obtain ⟨g, hg⟩ : ∃ g : ℕ → RankIn, g = fun r => ⟨(numbered C.place.g.n q.P r).map fun y => (D, y), a.map (fun x => List.replicate (6 * (numbered C.place.g.n q.P r).length) x), none, f r,
    6 * (Place.total q.P r : ℤ), 6 * (Place.total q.P (r + 1) : ℤ) - 1, matrixWrites (f r), vectorWrites (f r)⟩ := ⟨_, rfl⟩
  obtain ⟨ranks, hranks⟩ : ∃ ranks : List RankIn, ranks = (List.range C.place.g.n).map g := ⟨_, rfl⟩
  have hget : ∀ r rk, ranks[r]? = some rk → r < C.place.g.n ∧ rk = g r := by
    intro r rk hrk
    rw [hranks, List.getElem?_map] at hrk
    obtain ⟨a, ha, rfl⟩ := Option.map_eq_some_iff.1 hrk
    obtain ⟨h1, h2⟩ := List.getElem?_eq_some_iff.1 ha
    rw [List.length_range] at h1
    rw [List.getElem_range] at h2
    subst h2
    exact ⟨h1, rfl⟩
  have hmemr : ∀ rk ∈ ranks, ∃ r < C.place.g.n, rk = g r := by
    intro rk hrk
    obtain ⟨i, hi, rfl⟩ := List.getElem_of_mem hrk
    obtain ⟨h1, h2⟩ := hget i _ (List.getElem?_eq_getElem hi)
    exact ⟨i, h1, h2⟩
  have hin : C91_Input C false q (s.dir.buildIndex order) (fun r => Force.plainExec 3 ((numbered C.place.g.n q.P r).map Collide.toEp)) ranks := by
    refine ⟨by rw [hranks]; simp, ?_, ?_, ?_, ?_, ?_, ?_⟩
    · intro r rk hrk
      obtain ⟨-, rfl⟩ := hget r rk hrk
      rw [hg, List.map_map]
      exact List.map_id' _
    · intro r rk hrk
      obtain ⟨hr, rfl⟩ := hget r rk hrk
      rw [hg]
      exact hf r hr
    · intro rk hrk
      obtain ⟨r, hr, rfl⟩ := hmemr rk hrk
      rw [hg]
      refine ⟨fun f hf => ?_, fun f hf => by simp at hf⟩
      obtain ⟨x, -, rfl⟩ := Option.map_eq_some_iff.1 hf
      simp
    · intro r rk hrk
      obtain ⟨-, rfl⟩ := hget r rk hrk
      rw [hg]
      exact ⟨rfl, rfl⟩
    · intro rk hrk
      obtain ⟨r, hr, rfl⟩ := hmemr rk hrk
      rw [hg]
    · intro rk hrk
      obtain ⟨r, hr, rfl⟩ := hmemr rk hrk
      rw [hg]
  have hbig : 6 * ((all C.place.g.n P₀).length : ℤ) ≤ 2 ^ 31 - 1 := by rw [h2]; norm_num
  have hfit : ∀ rk ∈ ranks, (((rk.pool.flatten.map (fun b => if b.oneSide then 6 else 12)).sum : ℕ) : ℤ) ≤ 2 ^ 31 - 1 := by
    intro rk hrk
    obtain ⟨r, hr, rfl⟩ := hmemr rk hrk
    have h1 := hblocks r hr
    have h2 := List.sum_le_card_nsmul ((f r).flatten.map (fun b => if b.oneSide then 6 else 12)) 12 (by
      intro x hx
      obtain ⟨b, -, rfl⟩ := List.mem_map.1 hx
      split <;> norm_num)
    rw [List.length_map, smul_eq_mul] at h2
    have : (((f r).flatten.map (fun b => if b.oneSide then 6 else 12)).sum : ℕ) ≤ 168 := by omega
    have : ((((f r).flatten.map (fun b => if b.oneSide then 6 else 12)).sum : ℕ) : ℤ) ≤ 168 := by exact_mod_cast this
    rw [hg]
    exact this.trans (by norm_num)
  obtain ⟨out, s', hst⟩ := hstep false ranks hin hbig hfit
  refine ⟨q, ranks, out, s', hst, fun rk hrk => ⟨?_, ?_, hfit rk hrk⟩⟩ <;> obtain ⟨r, hr, rfl⟩ := hmemr rk hrk <;> rw [hg]
  simp

/-- With at most two bodies on at most two ranks, no walls and no periodic axes, every state of a run has a next step, in which a force is given for every body. -/
theorem Momentum.steps {C : Sim.Cfg} {P₀ : ℕ → List Sylinder} (h : Sim.Sound C (fun _ => false) (fun _ => 0) (fun _ => 1) P₀) (hn' : C.place.g.n = 2)
    (hper : ∀ k, C.place.d.periodic k = false) (hb0 : C.bounds = []) (hF : C.F = ⟨100, 1, 2, 3⟩) (hch : C.ctl.choice ≠ 1) (hres : 0 < C.ctl.res)
    (hlinks : ∀ l : List Sylinder, (linkPairs C.linkMap l).length ≤ l.length) (h2 : (all C.place.g.n P₀).length = 2) (D : Draws) {C₀ : Sim.Cfg} {B : ℕ → List Sylinder} {k : ℕ} {s : Sim.State}
    (hrun : Sim.Run (Sim.Ok (fun _ => false) (fun _ => 0) (fun _ => 1)) id C₀ B C P₀ k s) :
    ∃ q ranks out s', Sim.Step C id false s q ranks out s' ∧ ∀ rk ∈ ranks, rk.force = some (List.replicate (6 * rk.bodies.length) 1) := by
  obtain ⟨q, ranks, out, s', hst, hf⟩ := Momentum.acts (some 1) h hn' hper hb0 hF hch hres hlinks h2 D hrun
  exact ⟨q, ranks, out, s', hst, fun rk hrk => (hf rk hrk).1⟩

/-- Those of `C95_free` can be met with two linked bodies on two ranks and a force on every body. -/
theorem Momentum.pushed (D : Draws) : ∃ (C : Sim.Cfg) (P₀ : ℕ → List Sylinder) (s s' : Sim.State) (q : Place.Sys) (ranks : List RankIn) (out : Out),
    Sim.Sound C (fun _ => false) (fun _ => 0) (fun _ => 1) P₀ ∧ (C.bounds = [] ∧ C.mob.monolayer = false) ∧ Sim.Run (Sim.Ok (fun _ => false) (fun _ => 0) (fun _ => 1)) id C P₀ C P₀ 0 s ∧
    Sim.Step C id false s q ranks out s' ∧ C.linkMap = [(7, 9)] ∧ (all C.place.g.n P₀).length = 2 ∧
    ∀ rk ∈ ranks, rk.force = some (List.replicate (6 * rk.bodies.length) 1) := by
  obtain ⟨c, h, hn, hper, k1, k2, k3, k4, -⟩ := twoBalls_sound
  obtain ⟨C, hC⟩ : ∃ C, C = linkedCfg c := ⟨_, rfl⟩
  have h : Sim.Sound C (fun _ => false) (fun _ => 0) (fun _ => 1) twoBalls := by
    rw [hC]
    exact ⟨h.place, h.mono.imp id fun l => ⟨l.layer, l.inside, l.cold, l.flat⟩, h.enough, h.viscosity, h.dt, h.valid, h.body, h.fdps, h.largest, h.links, h.linkBox⟩
  have hn' : C.place.g.n = 2 := by rw [hC]; exact hn
  have hper : ∀ k, C.place.d.periodic k = false := by rw [hC]; exact hper
  have hb0 : C.bounds = [] := by rw [hC]; rfl
  have hlm : C.linkMap = [(7, 9)] := by rw [hC]; rfl
  have hch : C.ctl.choice ≠ 1 := by rw [hC]; simp [linkedCfg, twoBallsCfg]
  have hres : 0 < C.ctl.res := by rw [hC]; show (0 : ℝ) < 1 / 10 ^ 5; norm_num
  obtain ⟨⟨s, hrun⟩, -⟩ := C91_progress h hch hres (by rw [hb0]; intro b hb; cases hb)
  have h2 : (all C.place.g.n twoBalls).length = 2 := by rw [hn', twoBalls_all]; rfl
  obtain ⟨q, ranks, out, s', hst, hf⟩ := Momentum.steps h hn' hper hb0 (by rw [hC]; rfl) hch hres (by rw [hC]; exact fun l => (twoBalls_pairs c l).1) h2 D hrun
  exact ⟨C, twoBalls, s, s', q, ranks, out, h, ⟨hb0, by rw [hC]; rfl⟩, hrun, hst, hlm, h2, hf⟩

/-- The hypotheses of `C95_free` can be met. -/
example (D : Draws) : ∃ (C : Sim.Cfg) (P₀ : ℕ → List Sylinder) (s s' : Sim.State) (q : Place.Sys) (ranks : List RankIn) (out : Out),
    Sim.Sound C (fun _ => false) (fun _ => 0) (fun _ => 1) P₀ ∧ (C.bounds = [] ∧ C.mob.monolayer = false) ∧ Sim.Run (Sim.Ok (fun _ => false) (fun _ => 0) (fun _ => 1)) id C P₀ C P₀ 0 s ∧
    Sim.Step C id false s q ranks out s' ∧ C.linkMap = [(7, 9)] ∧ (all C.place.g.n P₀).length = 2 ∧
    ∀ rk ∈ ranks, rk.force = some (List.replicate (6 * rk.bodies.length) 1) := Momentum.pushed D

end Verif
