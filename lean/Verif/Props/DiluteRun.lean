import Verif.Props.Dilute
/-!
C109: a run that has a dilute step, a sphere that is pushed into a wall.
-/
namespace Verif.Dilute
open Domain Near Collector RunStep Mobility Collide Sim NoOverlap Spec.Collector Spec.Dilute Spec.Mobility Spec.Momentum

/-- A sphere on rank 0. -/
noncomputable def oneBall : ℕ → List Sylinder := fun r => if r = 0 then [ball 7 0 0.4] else []

/-- A wall into which the sphere reaches. -/
noncomputable def ground : BoundaryCol.Bound := .wall ⟨⟨0, 0, 0.43⟩, ⟨0, 0, 1⟩⟩

/-- No periodic axes, the wall, no links; `m` iterations. -/
noncomputable def oneBallCfg (m : ℕ) (c : Place.Cfg) : Sim.Cfg :=
  ⟨c, C88_cfg, ⟨fun _ => false, fun _ => 0, fun _ => 1, 0.02, 1⟩, [], [ground], ⟨1 / 10 ^ 5, m, 0⟩, ⟨100, 1, 2, 3⟩, 0⟩

theorem oneBall_sized (m : ℕ) (c : Place.Cfg) (h1 : c.diameterColRatio = 1) (h2 : c.lengthColRatio = 1) (h3 : c.colBuf = 0.5) (g : ℤ) (x : ℝ) :
    sized (oneBallCfg m c) (ball g 0 x) = ball g 0 x := by
  have e : ∀ s : Sylinder, s.radiusCollision = s.radius * 1 → s.lengthCollision = s.length * 1 → s.colBuf = 0.5 →
      ({ s with radiusCollision := s.radius * 1, lengthCollision := s.length * 1, colBuf := 0.5 } : Sylinder) = s := by
    intro s a b d
    rw [← a, ← b, ← d]
  unfold sized oneBallCfg
  simp only [h1, h2, h3]
  exact e _ (by norm_num [ball, Sylinder.make]) (by norm_num [ball, Sylinder.make]) (by norm_num [ball, Sylinder.make])

theorem oneBall_all : all 1 oneBall = [ball 7 0 0.4] := by simp [all, oneBall]

theorem oneBall_sound (m : ℕ) : ∃ c : Place.Cfg, Sim.Sound (oneBallCfg m c) (fun _ => false) (fun _ => 0) (fun _ => 1) oneBall ∧ c.g.n = 1 ∧ (∀ k, c.d.periodic k = false) ∧
    c.diameterColRatio = 1 ∧ c.lengthColRatio = 1 ∧ c.colBuf = 0.5 ∧ c.monolayer = false := by
  obtain ⟨d, hd, hp, -, -⟩ := (C56_axes (fun _ => false) (fun _ => 0) (fun _ => 1)).1 (fun _ => zero_le_one)
  refine ⟨⟨⟨1, 1, 1⟩, d, 0.5, 400, insertSort, 1, 1, 0.5, false, 0.5, id⟩, ?_, by simp [Grid.n], hp, rfl, rfl, rfl, rfl⟩
  have hgn : (⟨1, 1, 1⟩ : Grid).n = 1 := by simp [Grid.n]
  have hs := oneBall_sized m ⟨⟨1, 1, 1⟩, d, 0.5, 400, insertSort, 1, 1, 0.5, false, 0.5, id⟩ rfl rfl rfl
  have hall : ∀ b ∈ all 1 oneBall, ∃ g x, b = ball g 0 x := by
    intro b hb
    rw [oneBall_all, List.mem_singleton] at hb
    exact ⟨_, _, hb⟩
  refine ⟨⟨hd, fun _ h => by simp at h, le_rfl, by simp [oneBallCfg], by simp [oneBallCfg], by norm_num [oneBallCfg], insertSort_sorts, by simp [oneBallCfg, Grid.n]⟩,
    .inl ⟨rfl, rfl⟩, ?_, by norm_num [oneBallCfg, C88_cfg, C43_cfg], by norm_num [oneBallCfg, C88_cfg, C43_cfg], ?_, ?_, ?_, ⟨0.09, ?_, ?_, ?_⟩, ?_, ⟨rfl, rfl, rfl⟩⟩
  · show (⟨1, 1, 1⟩ : Grid).n ≤ Place.total oneBall (⟨1, 1, 1⟩ : Grid).n
    rw [hgn]
    simp [Place.total, oneBall]
  · intro b hb
    obtain ⟨g, x, rfl⟩ := hall b (hgn ▸ hb)
    exact ⟨by norm_num [ball, Sylinder.make], by norm_num [ball, Sylinder.make], by norm_num [ball, Sylinder.make, Spec.UnitQuat, Quat.normSq]⟩
  · intro b hb
    obtain ⟨g, x, rfl⟩ := hall b (hgn ▸ hb)
    rw [hs]
    exact ball_body _ _ _
  · refine ⟨by norm_num [oneBallCfg], by norm_num [oneBallCfg], by norm_num [oneBallCfg], ?_, ?_⟩
    · intro k hk
      have := hp k
      rw [show (oneBallCfg m _).place.d.periodic k = d.periodic k from rfl, this] at hk
      simp at hk
    · intro hk
      have := hp 0
      rw [show (oneBallCfg m _).place.d.periodic 0 = d.periodic 0 from rfl, this] at hk
      simp at hk
  · intro b hb
    obtain ⟨g, x, rfl⟩ := hall b (hgn ▸ hb)
    rw [hs, ball_rad]
    exact ⟨le_refl _, by norm_num [ball, Sylinder.make]⟩
  · unfold BCQP.dblMax
    have : (2 : ℝ) ^ 10 ≤ 2 ^ 1023 := pow_le_pow_right₀ (by norm_num) (by norm_num)
    generalize (2 : ℝ) ^ 1023 = w at *
    norm_num at *
    linarith
  · show 2 * 0.09 + 0.02 ≤ BCQP.dblMax / 10
    unfold BCQP.dblMax
    have : (2 : ℝ) ^ 10 ≤ 2 ^ 1023 := pow_le_pow_right₀ (by norm_num) (by norm_num)
    generalize (2 : ℝ) ^ 1023 = w at *
    norm_num at *
    linarith
  · intro l hl
    simp [oneBallCfg] at hl

/-- What is known of the sphere when it is numbered. -/
def IsBall (x : Sylinder) : Prop :=
  x.gid = 7 ∧ x.pos = ⟨0.4, 0.5, 0.5⟩ ∧ x.radius = 0.09 ∧ x.length = 0 ∧ x.radiusCollision = 0.09 ∧ x.lengthCollision = 0 ∧ x.isImmovable = false ∧ x.globalIndex = 0

/-- The response of a contact with a wall: the sphere moves straight away from it. -/
theorem ball_response (x : Sylinder) (hx : IsBall x) (hv : Valid x) (b : Block) (ho : b.oneSide = true) (hb : b.bilateral = false) (hI : b.globalIndexI = 0)
    (hp : b.posI = 0) (hn : V3.norm b.normI = 1) : Response C88_cfg.viscosity C88_cfg.dt [x] b (1 / (0.54 * Pi)) := by
  have hpi : (0 : ℝ) < Pi := by unfold Pi; norm_num
  obtain ⟨-, -, h3, h4, -, -, h5, h6⟩ := hx
  have hc : x.calcDragCoeff Pi C88_cfg.viscosity = some (0.54 * Pi, 0.54 * Pi, 8 * Pi * 0.09 * 0.09 * 0.09) := by
    have hsp : x.isSphere = true := by unfold Sylinder.isSphere; norm_num [h3, h4]
    unfold Sylinder.calcDragCoeff
    rw [if_pos hsp]
    simp only [h3, h4, C88_cfg, C43_cfg, Option.some.injEq, Prod.mk.injEq]
    refine ⟨?_, ?_, ?_⟩ <;> ring
  have hdot : V3.dot b.normI b.normI = 1 := by
    have := V3.norm_sq b.normI
    rw [hn] at this
    simpa [V3.normSq] using this.symm
  refine ⟨fun _ => (1 / (0.54 * Pi)) • b.normI, fun _ => 0, ?_, ?_⟩
  · intro y hy
    rw [List.mem_singleton.1 hy]
    refine .inr ⟨h5, _, _, _, hc, by positivity, by positivity, by positivity, ?_⟩
    have e1 : unitForce b x.globalIndex = b.normI := by
      unfold unitForce
      rw [if_pos (by rw [hI, h6]), if_neg (by simp [ho])]
      ext <;> simp
    have e2 : unitTorque b x.globalIndex = 0 := by
      unfold unitTorque
      rw [if_pos (by rw [hI, h6]), if_neg (by simp [ho]), hp]
      ext <;> simp [V3.cross]
    rw [e1, e2]
    refine Prod.ext (V3.ext ?_ ?_ ?_) (V3.ext ?_ ?_ ?_) <;> simp [drag] <;> field_simp <;> ring
  · unfold gapRate yield
    rw [if_pos ho, if_neg (by simp [hb]), hp]
    have : V3.dot b.normI ((1 / (0.54 * Pi)) • b.normI + V3.cross 0 0) = 1 / (0.54 * Pi) * V3.dot b.normI b.normI := by
      simp [V3.dot, V3.cross]; ring
    rw [this, hdot]
    ring

/-- A run whose next step is dilute, with a constraint that is violated: the hypotheses of C109_run can be met together. -/
theorem oneBall_step (m : ℕ) (D : Draws) : ∃ (C : Sim.Cfg) (s s' : Sim.State) (q : Place.Sys) (ranks : List RankIn) (out : Out),
    Sim.Sound C (fun _ => false) (fun _ => 0) (fun _ => 1) oneBall ∧ C.ctl.choice ≠ 1 ∧ C.ctl.res = 1 / 10 ^ 5 ∧ C.ctl.maxIte = m ∧
    Sim.Run (Sim.Ok (fun _ => false) (fun _ => 0) (fun _ => 1)) id C oneBall C oneBall 0 s ∧ Sim.Step C id false s q ranks out s' ∧
    C109_Dilute C oneBall false ranks 1 (1 / 2) 1 2 ∧ ∀ b ∈ constraints ranks, b.delta0 < 0 := by
  obtain ⟨c, h, hn, hper, k1, k2, k3, k4⟩ := oneBall_sound m
  set C := oneBallCfg m c with hC
  have hmono : C.place.monolayer = false := k4
  have hn' : C.place.g.n = 1 := hn
  have hsz := oneBall_sized m c k1 k2 k3
  have hvb : ∀ b ∈ C.bounds, Spec.BoundaryCol.ValidBound b := by
    intro b hb
    have : b = ground := by simpa [hC, oneBallCfg] using hb
    rw [this]
    norm_num [ground, Spec.BoundaryCol.ValidBound, V3.norm, V3.normSq, V3.dot]
  have hch : C.ctl.choice ≠ 1 := by simp [hC, oneBallCfg]
  have hres : 0 < C.ctl.res := by norm_num [hC, oneBallCfg]
  obtain ⟨-, prog⟩ := C91_progress h hch hres hvb
  obtain ⟨s1, s2, d1, d2⟩ := (C83_progress C.place _ _ _ h.place oneBall h.enough).1 (fun _ => C.place.root) _ _ (Place.plain_valid C.place) (Place.plain_valid C.place)
  obtain ⟨s, hs⟩ : ∃ s : Sim.State, s = ⟨s2, Links.Dir.empty, 0⟩ := ⟨_, rfl⟩
  have hrun : Sim.Run (Sim.Ok (fun _ => false) (fun _ => 0) (fun _ => 1)) id C oneBall C oneBall 0 s := by
    rw [hs]
    exact .start _ _ _ s1 s2 h (Place.plain_valid C.place) (Place.plain_valid C.place) d1 d2
  obtain ⟨⟨q, hpq⟩, prog⟩ := prog C oneBall 0 s hrun _ (Place.plain_valid C.place)
  have hi := Sim.run_inv hrun
  have hq := Sim.prepare h hi (Place.plain_valid C.place) hpq
  have hr0 : 0 < C.place.g.n := by rw [hn']; norm_num
  have hball : ∀ x ∈ numbered C.place.g.n q.P 0, IsBall x := by
    intro x hx
    obtain ⟨b, hb, g, hbx⟩ := numbered_mem _ _ _ _ hx
    obtain ⟨b0, hb0, hl⟩ := hq.like hr0 hx
    obtain ⟨a, ha, e1, -, e2⟩ := prepare_pos h hmono hi (Place.plain_valid C.place) hpq b (mem_all.2 ⟨0, hr0, hb⟩)
    rw [hs] at ha
    obtain ⟨a0, ha0, f1, -, f2⟩ := start_pos h (Place.plain_valid C.place) (Place.plain_valid C.place) d1 d2 a ha
    rw [hn', oneBall_all, List.mem_singleton] at ha0 hb0
    subst ha0 hb0
    have hk := e1.trans f1
    simp only [kind, Prod.mk.injEq] at hk
    obtain ⟨g1, -, g3, g4, g5⟩ := hk
    have hbig : (1 : ℝ) < Stats.largeFloat := by norm_num [Stats.largeFloat]
    have hl0 : ∀ k, |Near.comp (ball 7 0 0.4).pos k| < Stats.largeFloat := by
      intro k
      have e : (ball 7 0 0.4).pos = ⟨0.4, 0.5, 0.5⟩ := rfl
      rw [e]
      refine lt_of_le_of_lt ?_ hbig
      fin_cases k
      · show |(0.4 : ℝ)| ≤ 1
        norm_num
      · show |(0.5 : ℝ)| ≤ 1
        norm_num
      · show |(0.5 : ℝ)| ≤ 1
        norm_num
    have hpos : b.pos = (ball 7 0 0.4).pos := by
      have e : ∀ k, Near.comp b.pos k = Near.comp (ball 7 0 0.4).pos k := by
        intro k
        have g1 := (f2 k).2 rfl (hl0 k)
        have g2 := (e2 k).2 rfl (by rw [g1]; exact hl0 k)
        rw [g2, g1]
      exact V3.ext (e 0) (e 1) (e 2)
    have hlt := numbered_lt _ _ _ hr0 _ hx
    have hlen : (sizes C.place.g.n q.P).sum = 1 := by
      have h1 := hq.kinds.length_eq
      rw [List.length_map, List.length_map, hn', oneBall_all] at h1
      rw [hn', sizes, ← List.length_flatMap]
      exact h1
    rw [hlen] at hlt
    refine ⟨?_, ?_, ?_, ?_, ?_, ?_, ?_, ?_⟩
    · rw [hbx]; exact g1
    · rw [hbx]; exact hpos
    · rw [hbx]; exact g4
    · rw [hbx]; exact g5
    · rw [hl.radiusCollision, hsz]; norm_num [ball, Sylinder.make]
    · rw [hl.lengthCollision, hsz]; norm_num [ball, Sylinder.make]
    · rw [hbx]; exact g3
    · omega
  obtain ⟨x, hx⟩ : ∃ x, numbered C.place.g.n q.P 0 = [x] := by
    have h1 := hq.kinds.length_eq
    rw [List.length_map, List.length_map, hn', oneBall_all] at h1
    have h2 : (q.P 0).length = 1 := by simpa [all] using h1
    exact List.length_eq_one_iff.1 ((numbered_length _ _ _ hr0).trans h2)
  have hb := hball x (by rw [hx]; simp)
  have hval : Valid x := hq.valid h hr0 (by rw [hx]; simp)
  have hsp : Spec.BoundaryCol.Sphere x ∧ Spec.BoundaryCol.Rad x = 0.09 := by
    have s2 : Spec.BoundaryCol.Sphere x := by unfold Spec.BoundaryCol.Sphere; rw [hb.2.2.2.2.1, hb.2.2.2.2.2.1]; norm_num
    refine ⟨s2, ?_⟩
    unfold Spec.BoundaryCol.Rad; rw [if_pos s2, hb.2.2.2.2.1, hb.2.2.2.2.2.1]; norm_num
  have hsd : ∀ p, Spec.BoundaryCol.End x p → p = x.pos ∧ Spec.BoundaryCol.sd ground p = 0.07 := by
    rintro p (⟨-, rfl⟩ | ⟨hh, -⟩)
    · refine ⟨rfl, ?_⟩
      rw [hb.2.1]
      norm_num [Spec.BoundaryCol.sd, ground, V3.dot]
    · exact absurd hsp.1 hh
  have hreg : BoundaryCol.Regular ground x := by
    intro p hp
    rw [(hsd p hp).2]
    exact ⟨id, by norm_num⟩
  have hregq : ∀ r < C.place.g.n, ∀ y ∈ q.P r, ∀ b ∈ C.bounds, BoundaryCol.Regular b y := by
    intro r hr y hy b hb
    have e : b = ground := by simpa [hC, oneBallCfg] using hb
    obtain rfl : r = 0 := by omega
    obtain ⟨i, hi, rfl⟩ := List.getElem_of_mem hy
    have hi' : i < (numbered C.place.g.n q.P 0).length := by rw [numbered_length _ _ _ hr]; exact hi
    obtain ⟨b, hb, g, hg⟩ := numbered_get _ _ _ _ _ (List.getElem?_eq_getElem hi')
    rw [List.getElem?_eq_getElem hi] at hb
    cases hb
    have hm : ∀ y ∈ numbered C.place.g.n q.P 0, y = x := by rw [hx]; exact fun y hy => List.mem_singleton.1 hy
    have hg : x = _ := (hm _ (List.getElem_mem hi')).symm.trans hg
    rw [hg] at hreg
    rw [e]
    exact hreg
  obtain ⟨order, horder⟩ : ∃ order, order = (List.range C.place.g.n).flatMap fun r => Links.published (numbered C.place.g.n q.P r) := ⟨_, rfl⟩
  have hX : ∀ r < C.place.g.n, (Force.plainExec 3 ((numbered C.place.g.n q.P r).map toEp)).Valid C.F ((numbered C.place.g.n q.P r).map toEp) :=
    fun r _ => Force.plainExec_valid (c := ⟨100, 1, 2, 3⟩) (by norm_num) _
  obtain ⟨hpool, hstep⟩ := prog q hpq order (List.Perm.of_eq horder) (fun r => Force.plainExec 3 ((numbered C.place.g.n q.P r).map toEp)) hX
  obtain ⟨pool, hpool⟩ := hpool hregq 0 hr0
  obtain ⟨L, blocks, bs, news, h1, h2, h3, -, h5, h6, h7⟩ := pool_parts hq h s.dir order (List.Perm.of_eq horder) _ hX hr0 pool hpool
  have hblocks : blocks = [] := by
    cases blocks with
    | nil => rfl
    | cons b blocks =>
      obtain ⟨p, L', hp, -, rfl⟩ := List.forall₂_cons_right_iff.1 h3
      obtain ⟨y, z, hy, hz, ⟨o1, -⟩, hg, -⟩ := hp
      have hy := List.mem_of_getElem? hy
      obtain ⟨z', hz', rfl⟩ := Option.map_eq_some_iff.1 hz
      have hz := List.mem_of_getElem? hz'
      rw [show p.2.1 = 0 by omega] at hz
      have e1 := (hball y hy).1
      have e2 : z'.gid = 7 := (hball z' hz).1
      have hg : y.gid < z'.gid := hg
      omega
  have hnews : news = [] := by
    have : linkPairs C.linkMap (numbered C.place.g.n q.P 0) = [] := by rw [hx]; simp [hC, oneBallCfg, linkPairs, Links.nexts]
    rw [this] at h7
    exact List.forall₂_nil_left_iff.1 h7
  obtain ⟨l, l1, l2, l3, l4⟩ := BoundaryCol.bodyBlocks_spec ground (hvb _ (by simp [hC, oneBallCfg])) C.place.colBuf (by rw [show C.place.colBuf = 0.5 from k3]; norm_num) x
    (by rw [hb.2.2.2.2.1]; norm_num) hreg
  obtain ⟨blk, hblk⟩ : ∃ blk, l = [blk] := by
    obtain ⟨blk, hm, -⟩ := l3 x.pos (Or.inl ⟨hsp.1, rfl⟩) (by
      rw [(hsd _ (Or.inl ⟨hsp.1, rfl⟩)).2, hb.2.2.2.2.1, show C.place.colBuf = 0.5 from k3]; norm_num)
    rw [if_pos hsp.1] at l4
    have := List.length_pos_of_mem hm
    exact List.length_eq_one_iff.1 (by omega)
  have hflat : pool.flatten = [blk] := by
    rw [hblocks, hnews, List.nil_append, List.append_nil] at h1
    have hbs : bs.length = 1 := by
      have := congrArg List.length h5
      rw [List.length_map] at this
      rw [this]
      simp [hC, oneBallCfg]
    obtain ⟨e, he⟩ := List.length_eq_one_iff.1 hbs
    have e1 : e.1 = ground := by
      have : e.1 ∈ C.bounds := by rw [← h5, he]; simp
      simpa [hC, oneBallCfg] using this
    have e2 : e.2.map Prod.snd = [x] := by
      have := h6 e (by rw [he]; simp)
      rw [hx] at this
      exact List.perm_singleton.1 this
    obtain ⟨y, hy⟩ := List.length_eq_one_iff.1 (by have := congrArg List.length e2; simpa using this : e.2.length = 1)
    rw [hy] at e2
    have hyx : y.2 = x := by simpa using e2
    rw [he, List.flatMap_singleton, hy, List.flatMap_singleton, e1, hyx, l1, hblk] at h1
    exact List.perm_singleton.1 h1
  obtain ⟨p, hp, -, hgood⟩ := l2 blk (by rw [hblk]; simp)
  obtain ⟨ranks, hranks⟩ : ∃ ranks : List RankIn, ranks = [⟨[(D, x)], none, none, pool,
    6 * (Place.total q.P 0 : ℤ), 6 * (Place.total q.P (0 + 1) : ℤ) - 1, matrixWrites pool, vectorWrites pool⟩] := ⟨_, rfl⟩
  have hget : ∀ (r : ℕ) rk, ranks[r]? = some rk → r = 0 ∧ rk = ⟨[(D, x)], none, none, pool,
    6 * (Place.total q.P 0 : ℤ), 6 * (Place.total q.P (0 + 1) : ℤ) - 1, matrixWrites pool, vectorWrites pool⟩ := by
    intro r rk hrk
    rw [hranks] at hrk
    cases r with
    | zero => cases hrk; exact ⟨rfl, rfl⟩
    | succ r => simp at hrk
  have hmemr : ∀ rk ∈ ranks, rk = ⟨[(D, x)], none, none, pool,
    6 * (Place.total q.P 0 : ℤ), 6 * (Place.total q.P (0 + 1) : ℤ) - 1, matrixWrites pool, vectorWrites pool⟩ := by
    intro rk hrk
    rw [hranks] at hrk
    exact List.mem_singleton.1 hrk
  have hin : C91_Input C false q (s.dir.buildIndex order) (fun r => Force.plainExec 3 ((numbered C.place.g.n q.P r).map toEp)) ranks := by
    refine ⟨by rw [hranks, hn']; rfl, ?_, ?_, ?_, ?_, ?_, ?_⟩
    · intro r rk hrk
      obtain ⟨rfl, rfl⟩ := hget r rk hrk
      rw [hx]; rfl
    · intro r rk hrk
      obtain ⟨rfl, rfl⟩ := hget r rk hrk
      exact hpool
    · intro rk hrk
      rw [hmemr rk hrk]
      exact ⟨fun f hf => by simp at hf, fun f hf => by simp at hf⟩
    · intro r rk hrk
      obtain ⟨rfl, rfl⟩ := hget r rk hrk
      exact ⟨rfl, rfl⟩
    · intro rk hrk
      rw [hmemr rk hrk]
    · intro rk hrk
      rw [hmemr rk hrk]
  have hbig : 6 * ((all C.place.g.n oneBall).length : ℤ) ≤ 2 ^ 31 - 1 := by rw [hn', oneBall_all]; norm_num
  have hfit : ∀ rk ∈ ranks, (((rk.pool.flatten.map (fun b => if b.oneSide then 6 else 12)).sum : ℕ) : ℤ) ≤ 2 ^ 31 - 1 := by
    intro rk hrk
    rw [hmemr rk hrk]
    show (((pool.flatten.map (fun b => if b.oneSide then 6 else 12)).sum : ℕ) : ℤ) ≤ 2 ^ 31 - 1
    rw [hflat]
    simp only [List.map_cons, List.map_nil, List.sum_cons, List.sum_nil]
    split <;> norm_num
  obtain ⟨out, s', hst⟩ := hstep false ranks hin hbig hfit
  have hcons : constraints ranks = [blk] := by
    rw [hranks]
    simp [constraints, hflat]
  have hbodies : C109_bodies ranks = [x] := by rw [hranks]; rfl
  have hdel : blk.delta0 = -0.02 := by rw [hgood.value, (hsd p hp).2, hsp.2]; norm_num
  have hposI : blk.posI = 0 := by
    have e := hgood.lab.2
    rw [(hsd p hp).1] at e
    have ex := congrArg V3.x e
    have ey := congrArg V3.y e
    have ez := congrArg V3.z e
    simp only [V3.add_x, V3.add_y, V3.add_z] at ex ey ez
    exact V3.ext (by simp; linarith) (by simp; linarith) (by simp; linarith)
  refine ⟨C, s, s', q, ranks, out, h, hch, rfl, rfl, hrun, hst, ⟨hbig, hfit, by rw [hcons]; rfl, ?_, fun _ => 0, fun _ => 0, ?_, ?_⟩, ?_⟩
  · intro i j b b' hi hj hij
    rw [hcons] at hi hj
    have a1 := (List.getElem?_eq_some_iff.1 hi).1
    have a2 := (List.getElem?_eq_some_iff.1 hj).1
    simp at a1 a2
    omega
  · intro rk hrk so hso i D' y hy
    rw [hmemr rk hrk] at hso hy
    refine (rest_step (C.mobility false) h.viscosity h.dt (by norm_num [hC, oneBallCfg, Sim.Cfg.mobility, C88_cfg]) [(D, x)] ?_ ?_ so hso).1 i D' y hy
    · intro z hz
      rw [List.mem_singleton.1 hz]
      exact hval
    · intro z hz
      rw [List.mem_singleton.1 hz]
      have := hq.clean hr0 (x := x) (by rw [hx]; simp)
      exact ⟨this.1, this.2.1⟩
  · intro b hbm
    rw [hcons, List.mem_singleton] at hbm
    subst hbm
    have hlam := ball_response x hb hval b hgood.oneSide hgood.unilateral (by rw [hgood.gid.2.2.1]; exact hb.2.2.2.2.2.2.2) hposI hgood.unit
    have hbd : (1 / 2 : ℝ) ≤ 1 / (0.54 * Pi) ∧ 1 / (0.54 * Pi) ≤ 1 := by
      unfold Pi
      constructor <;> norm_num
    have hg : gapRate (fun _ => 0) (fun _ => 0) b = 0 := by simp [gapRate, V3.dot]
    have hpos : (0 : ℝ) < BCQP.dblMax / 20 := by unfold BCQP.dblMax; norm_num
    have e3 : (C.mobility false).dt = 1 := rfl
    refine ⟨⟨_, by rw [hbodies]; exact hlam, hbd.1, hbd.2, ?_⟩, ?_, ?_, ?_⟩
    · rw [hg, hdel, e3, hgood.guess.1]
      norm_num [abs_le]
    · rw [hgood.guess.1]; exact fun _ => le_rfl
    · rw [hgood.guess.1]; norm_num
    · rw [hgood.guess.1]; exact hpos.le
  · intro b hbm
    rw [hcons, List.mem_singleton] at hbm
    rw [hbm, hdel]
    norm_num

/-- C109_run applies to it: with enough iterations the sphere is pushed out of the wall. -/
example (D : Draws) : ∃ (C : Sim.Cfg) (s s' : Sim.State) (q : Place.Sys) (ranks : List RankIn) (out : Out) (res : ℝ),
    Sim.Run (Sim.Ok (fun _ => false) (fun _ => 0) (fun _ => 1)) id C oneBall C oneBall 0 s ∧ Sim.Step C id false s q ranks out s' ∧
    (∃ b ∈ constraints ranks, b.delta0 < 0) ∧ Sim.Converged C id out res := by
  have hbig : (10 : ℝ) ^ 9 ≤ BCQP.dblMax / 40 := by
    unfold BCQP.dblMax
    have : (2 : ℝ) ^ 100 ≤ 2 ^ 1023 := pow_le_pow_right₀ (by norm_num) (by norm_num)
    generalize (2 : ℝ) ^ 1023 = w at *
    norm_num at *
    linarith
  obtain ⟨N, hN⟩ := C109_run 1 (1 / 2) 1 2 (1 / 10 ^ 5) (by norm_num) (by norm_num) (by norm_num) (by norm_num) (by unfold BCQP.dblEps; norm_num)
    (by rw [min_eq_right (by norm_num)]; unfold BCQP.dblEps; norm_num) (le_trans (by norm_num) hbig)
  obtain ⟨C, s, s', q, ranks, out, h, h1, h2, h3, h4, h5, h6, h7⟩ := oneBall_step N D
  obtain ⟨res, hc⟩ := hN C C _ _ _ _ _ h h1 h2 (le_of_eq h3.symm) 0 s h4 false q ranks out s' h5 h6
  obtain ⟨b, hb⟩ := List.exists_mem_of_length_pos (l := constraints ranks) (by rw [h6.count]; norm_num)
  exact ⟨C, s, s', q, ranks, out, res, h4, h5, ⟨b, hb, h7 b hb⟩, hc⟩

end Verif.Dilute
