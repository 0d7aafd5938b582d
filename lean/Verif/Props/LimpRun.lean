import Verif.Props.Limp
/-!
C93: a run in which a compressed spring never extends.
-/
namespace Verif
open Domain Near Collector RunStep Mobility Collide Sim Rest Links Spec.Springs Spec.Collector Spec.Momentum Spec.Mobility Spec.Dilute

namespace Limp

/-- A rod along z. -/
noncomputable def rod (g : ℤ) (z : ℝ) : Sylinder := Sylinder.make g (1 / 10) (1 / 10) 2 1 ⟨5, 5, z⟩ ⟨1, 0, 0, 0⟩ (3 / 10)

/-- The plus end of the first is the minus end of the second. -/
noncomputable def twoRods : ℕ → List Sylinder := fun r => if r = 0 then [rod 7 4, rod 9 6] else []

theorem twoRods_all : all 1 twoRods = [rod 7 4, rod 9 6] := by simp [all, twoRods]

/-- No periodic axes and boundaries, a spring from the first to the second; rods are half as long for the contacts; `m` iterations. -/
noncomputable def cfg (m : ℕ) (d : Stats.Domain) : Sim.Cfg :=
  ⟨⟨⟨1, 1, 1⟩, d, 0.5, 400, insertSort, 1, 1 / 2, 3 / 10, false, 0.5, id⟩, C88_cfg, ⟨fun _ => false, fun _ => 0, fun _ => 10, 0.02, 1⟩, [(7, 9)], [], ⟨1 / 10 ^ 5, m, 0⟩, ⟨100, 1, 2, 3⟩, 0⟩

theorem rod_sized (m : ℕ) (d : Stats.Domain) (g : ℤ) (z : ℝ) : sized (cfg m d) (rod g z) = rod g z := by
  unfold sized cfg rod Sylinder.make
  simp

theorem rod_direction (g : ℤ) (z : ℝ) : (rod g z).direction = ⟨0, 0, 1⟩ := by
  show (⟨1, 0, 0, 0⟩ : Quat).rot ⟨0, 0, 1⟩ = _
  simp only [Quat.rot, Quat.vec, V3.cross]
  ext <;> simp

theorem not_sphere (g : ℤ) (z : ℝ) : ¬ Spec.Near.Sphere (EP.copyFromFP (rod g z)) := by
  show ¬ (1 : ℝ) < 2 * (1 / 10)
  norm_num

theorem rod_body (g : ℤ) (z : ℝ) : Body (rod g z) := by
  refine ⟨⟨by show (0 : ℝ) < 1 / 10; norm_num, by show (0 : ℝ) ≤ 1; norm_num, ?_⟩, by show (0 : ℝ) < 1 / 10; norm_num, by show (0 : ℝ) ≤ 2; norm_num, by show (0 : ℝ) ≤ 3 / 10; norm_num,
    fun h => absurd h (not_sphere g z)⟩
  show V3.norm (rod g z).direction = 1
  rw [rod_direction]
  norm_num [V3.norm, V3.normSq, V3.dot]

theorem large : (10 : ℝ) ^ 9 ≤ BCQP.dblMax / 40 := by
  unfold BCQP.dblMax
  have : (2 : ℝ) ^ 100 ≤ 2 ^ 1023 := pow_le_pow_right₀ (by norm_num) (by norm_num)
  generalize (2 : ℝ) ^ 1023 = w at *
  norm_num at *
  linarith

theorem sound (m : ℕ) : ∃ d, Sim.Sound (cfg m d) (fun _ => false) (fun _ => 0) (fun _ => 10) twoRods ∧ ∀ k, d.periodic k = false := by
  obtain ⟨d, hd, hp, -, -⟩ := (C56_axes (fun _ => false) (fun _ => 0) (fun _ => 10)).1 (fun _ => by norm_num)
  have hn : (cfg m d).place.g.n = 1 := rfl
  have hall : ∀ b ∈ all (cfg m d).place.g.n twoRods, ∃ g z, b = rod g z := by
    intro b hb
    rw [hn, twoRods_all] at hb
    simp only [List.mem_cons, List.not_mem_nil, or_false] at hb
    rcases hb with rfl | rfl <;> exact ⟨_, _, rfl⟩
  have hbig := large
  refine ⟨d, ⟨⟨hd, fun _ h => by simp at h, le_rfl, le_rfl, le_rfl, by norm_num [cfg], insertSort_sorts, by simp [cfg, Grid.n]⟩,
    .inl ⟨rfl, rfl⟩, ?_, by norm_num [cfg, C88_cfg, C43_cfg], by norm_num [cfg, C88_cfg, C43_cfg], ?_, ?_, ?_, ⟨1 / 10, ?_, ?_, ?_⟩, ?_, ⟨rfl, rfl, rfl⟩⟩, hp⟩
  · show 1 ≤ Place.total twoRods 1
    simp [Place.total, twoRods]
  · intro b hb
    obtain ⟨g, z, rfl⟩ := hall b hb
    exact ⟨by show (0 : ℝ) < 1 / 10; norm_num, by show (0 : ℝ) ≤ 2; norm_num, by norm_num [rod, Sylinder.make, Spec.UnitQuat, Quat.normSq]⟩
  · intro b hb
    obtain ⟨g, z, rfl⟩ := hall b hb
    rw [rod_sized]
    exact rod_body g z
  · refine ⟨by norm_num [cfg], by norm_num [cfg], by norm_num [cfg], ?_, ?_⟩
    · intro k hk
      rw [show (cfg m d).place.d.periodic k = d.periodic k from rfl, hp k] at hk
      simp at hk
    · intro hk
      rw [show (cfg m d).place.d.periodic 0 = d.periodic 0 from rfl, hp 0] at hk
      simp at hk
  · intro b hb
    obtain ⟨g, z, rfl⟩ := hall b hb
    rw [rod_sized]
    unfold Spec.Near.Rad
    rw [if_neg (not_sphere g z)]
    exact ⟨le_rfl, le_rfl⟩
  · norm_num at *
    linarith
  · show 2 * (1 / 10) + 0.02 ≤ BCQP.dblMax / 10
    norm_num at *
    linarith
  · intro l hl
    rw [List.mem_singleton.1 hl, hn, twoRods_all]
    exact ⟨rod 9 6, by simp, rfl⟩

/-- A rod is where it was at the beginning. -/
def At (b : Sylinder) : Prop := (kind b = kind (rod 7 4) ∧ b.pos = (rod 7 4).pos ∧ b.orientation = ⟨1, 0, 0, 0⟩) ∨ (kind b = kind (rod 9 6) ∧ b.pos = (rod 9 6).pos ∧ b.orientation = ⟨1, 0, 0, 0⟩)

theorem carry {a b : Sylinder} (hk : kind b = kind a) (ho : b.orientation = a.orientation)
    (hp : ∀ k : Fin 3, |Near.comp a.pos k| < Stats.largeFloat → Near.comp b.pos k = Near.comp a.pos k) (ha : At a) : At b := by
  have hbig : (10 : ℝ) < Stats.largeFloat := by norm_num [Stats.largeFloat]
  have hpos : b.pos = a.pos := by
    refine comp_ext fun k => hp k (lt_of_le_of_lt ?_ hbig)
    rcases ha with ⟨-, h, -⟩ | ⟨-, h, -⟩ <;> rw [h]
    · have : Near.comp (rod 7 4).pos k = 5 ∨ Near.comp (rod 7 4).pos k = 4 := by fin_cases k <;> simp [Near.comp, rod, Sylinder.make]
      rcases this with h | h <;> rw [h] <;> norm_num
    · have : Near.comp (rod 9 6).pos k = 5 ∨ Near.comp (rod 9 6).pos k = 6 := by fin_cases k <;> simp [Near.comp, rod, Sylinder.make]
      rcases this with h | h <;> rw [h] <;> norm_num
  unfold At
  rw [hk, hpos, ho]
  exact ha

/-- What the search for contacts sees. -/
structure Seen (e : EP) (z : ℝ) : Prop where
  pos : e.pos = ⟨5, 5, z⟩
  direction : e.direction = ⟨0, 0, 1⟩
  length : e.lengthCollision = 1
  radius : e.radiusCollision = 1 / 10
  colBuf : e.colBuf = 3 / 10

theorem Seen.facts {e : EP} {z : ℝ} (h : Seen e z) : Spec.Near.Valid e ∧ Spec.Near.Rad e = 1 / 10 ∧ ∀ P, Spec.Near.Core e P → |P.z - z| ≤ 1 / 2 := by
  have hs : ¬ Spec.Near.Sphere e := by
    unfold Spec.Near.Sphere
    rw [h.length, h.radius]
    norm_num
  refine ⟨⟨by rw [h.radius]; norm_num, by rw [h.length]; norm_num, by rw [h.direction]; norm_num [V3.norm, V3.normSq, V3.dot]⟩, ?_, ?_⟩
  · unfold Spec.Near.Rad
    rw [if_neg hs, h.radius]
  · rintro P (⟨hh, -⟩ | ⟨-, x, hx, rfl⟩)
    · exact absurd hh hs
    · rw [h.pos, h.direction]
      rw [h.length] at hx
      simpa using hx

/-- The rods are too far apart for a contact: 3.5 to 4.5 and 5.5 to 6.5. -/
theorem far {x y : EP} (hx : Seen x 4) (hy : Seen y 6) : recorded x y = none := by
  obtain ⟨x1, x2, x3⟩ := hx.facts
  obtain ⟨y1, y2, y3⟩ := hy.facts
  by_contra hc
  obtain ⟨P, Q, hP, hQ, hlt⟩ := recorded_points x y x1 y1 (Option.isSome_iff_ne_none.2 hc)
  unfold Spec.Near.bufferOf at hlt
  rw [x2, y2, hx.colBuf, hy.colBuf] at hlt
  have a := x3 P hP
  have b := y3 Q hQ
  rw [abs_le] at a b
  have : 1 ≤ (P - Q).norm := by
    have h2 : (P - Q).norm ^ 2 = V3.normSq (P - Q) := V3.norm_sq _
    have h3 := V3.norm_nonneg (P - Q)
    have h4 : 1 ≤ V3.normSq (P - Q) := by
      simp only [V3.normSq, V3.dot, V3.sub_x, V3.sub_y, V3.sub_z]
      nlinarith [sq_nonneg (P.x - Q.x), sq_nonneg (P.y - Q.y)]
    nlinarith
  norm_num at hlt
  linarith

/-- The constraint of the spring. -/
structure Slack (b : Block) : Prop where
  normI : b.normI = 0
  normJ : b.normJ = 0
  delta : b.delta0 = -0.22
  gamma : b.gamma = 0.22
  bilateral : b.bilateral = true
  kappa : b.kappa = 1
  gid : b.gidI = 7 ∧ b.gidJ = 9

/-- One step: nothing moves, with enough iterations the solver converges. -/
theorem step {m : ℕ} (hm : ∀ (C C₀ : Sim.Cfg) (pbc : Fin 3 → Bool) (low high : Fin 3 → ℝ) (P₀ B : ℕ → List Sylinder), Sim.Sound C pbc low high P₀ →
      C.ctl.choice ≠ 1 → C.ctl.res = 1 / 10 ^ 5 → m ≤ C.ctl.maxIte →
      ∀ (k : ℕ) (s : Sim.State), Sim.Run (Sim.Ok pbc low high) id C₀ B C P₀ k s →
      ∀ (pre : Bool) (q : Place.Sys) (ranks : List RankIn) (out : Out) (s' : Sim.State), Sim.Step C id pre s q ranks out s' → C109_Dilute C P₀ pre ranks 1 1 1 2 →
      ∃ res, Sim.Converged C id out res) {d : Stats.Domain} (h : Sim.Sound (cfg m d) (fun _ => false) (fun _ => 0) (fun _ => 10) twoRods) (hper : ∀ k, d.periodic k = false) (s : Sim.State)
    (hrun : Sim.Run (Sim.Ok (fun _ => false) (fun _ => 0) (fun _ => 10)) id (cfg m d) twoRods (cfg m d) twoRods 0 s) (hst : ∀ b ∈ all 1 s.sys.P, At b) :
    ∃ q ranks out s' res, Sim.Step (cfg m d) id false s q ranks out s' ∧ Sim.Converged (cfg m d) id out res ∧ (∀ b ∈ all 1 q.P, At b) ∧
      ∀ u ∈ all 1 s'.sys.P, At u ∧ u.vel = 0 ∧ u.omega = 0 := by
  obtain ⟨C, hC⟩ : ∃ C, C = cfg m d := ⟨_, rfl⟩
  have hn : C.place.g.n = 1 := by rw [hC]; rfl
  have hch : C.ctl.choice ≠ 1 := by rw [hC]; simp [cfg]
  have hres : 0 < C.ctl.res := by rw [hC]; norm_num [cfg]
  have hres' : C.ctl.res = 1 / 10 ^ 5 := by rw [hC]; rfl
  have hite : m ≤ C.ctl.maxIte := by rw [hC]; exact le_rfl
  have hmono : C.place.monolayer = false ∧ C.mob.monolayer = false := by rw [hC]; exact ⟨rfl, rfl⟩
  have hbounds : C.bounds = [] := by rw [hC]; rfl
  have hlinks : C.linkMap = [(7, 9)] := by rw [hC]; rfl
  have hF : C.F = ⟨100, 1, 2, 3⟩ := by rw [hC]; rfl
  have hcold : C.mob.KBT ≤ 0 := by rw [hC]; norm_num [cfg, C88_cfg]
  have hdt : (C.mobility false).dt = 1 := by rw [hC]; rfl
  have hK : ¬ (C.mobility false).KBT > 0 := by rw [hC]; norm_num [cfg, Sim.Cfg.mobility, C88_cfg]
  have hper' : ∀ k, C.place.d.periodic k = false := by rw [hC]; exact hper
  have hlink : C.link = ⟨fun _ => false, fun _ => 0, fun _ => 10, 0.02, 1⟩ := by rw [hC]; rfl
  have hsz : ∀ g z, sized C (rod g z) = rod g z := by rw [hC]; exact rod_sized m d
  rw [← hn] at hst ⊢
  rw [← hC] at h hrun ⊢
  have hvalid : ∀ b ∈ C.bounds, Spec.BoundaryCol.ValidBound b := by rw [hbounds]; simp
  obtain ⟨-, prog⟩ := C91_progress h hch hres hvalid
  obtain ⟨⟨q, hpq⟩, -⟩ := prog C twoRods 0 s hrun _ (Place.plain_valid C.place)
  have hi := Sim.run_inv hrun
  have hq := Sim.prepare h hi (Place.plain_valid C.place) hpq
  have hqst : ∀ b ∈ all C.place.g.n q.P, At b := by
    intro b hb
    obtain ⟨a, ha, e1, e2, e3⟩ := prepare_pos h hmono.1 hi (Place.plain_valid C.place) hpq b hb
    exact carry e1 e2 (fun k hk => (e3 k).2 rfl hk) (hst a ha)
  have hnum : ∀ r < C.place.g.n, ∀ x ∈ numbered C.place.g.n q.P r, At x := by
    intro r hr x hx
    obtain ⟨b, hb, g, rfl⟩ := numbered_mem _ _ _ _ hx
    exact hqst b (mem_all.2 ⟨r, hr, hb⟩)
  have hseen : ∀ r < C.place.g.n, ∀ x ∈ numbered C.place.g.n q.P r, (x.gid = 7 ∧ Seen (EP.copyFromFP x) 4) ∨ (x.gid = 9 ∧ Seen (EP.copyFromFP x) 6) := by
    intro r hr x hx
    obtain ⟨b0, hb0, hl⟩ := hq.like hr hx
    rw [hn, twoRods_all] at hb0
    have hb1 : ∃ g z, b0 = rod g z := by
      simp only [List.mem_cons, List.not_mem_nil, or_false] at hb0
      rcases hb0 with rfl | rfl <;> exact ⟨_, _, rfl⟩
    obtain ⟨g, z, rfl⟩ := hb1
    have l1 := hl.lengthCollision
    have l2 := hl.radiusCollision
    have l3 := hl.colBuf
    rw [hsz] at l1 l2 l3
    have hdir : x.orientation = ⟨1, 0, 0, 0⟩ → (EP.copyFromFP x).direction = ⟨0, 0, 1⟩ := by
      intro e
      show x.orientation.rot _ = _
      rw [e]
      exact rod_direction 0 0
    rcases hnum r hr x hx with ⟨g1, g2, g3⟩ | ⟨g1, g2, g3⟩
    · exact .inl ⟨congrArg Prod.fst g1, g2, hdir g3, l1, l2, l3⟩
    · exact .inr ⟨congrArg Prod.fst g1, g2, hdir g3, l1, l2, l3⟩
  have himg : ∀ o y, imageAt C.place (numbered C.place.g.n q.P) o = some y → IsImage C.place o → (y.gid = 7 ∧ Seen y 4) ∨ (y.gid = 9 ∧ Seen y 6) := by
    rintro ⟨o1, o2, ⟨ox, oy, oz⟩⟩ y hy ⟨i1, i2, i3, i4⟩
    obtain rfl : ox = 0 := i2 (hper' 0)
    obtain rfl : oy = 0 := i3 (hper' 1)
    obtain rfl : oz = 0 := i4 (hper' 2)
    obtain ⟨z, hz, rfl⟩ := Option.map_eq_some_iff.1 hy
    have e : z.pos + ⟨((0 : ℤ) : ℝ) * (C.place.d.high 0 - C.place.d.low 0), ((0 : ℤ) : ℝ) * (C.place.d.high 1 - C.place.d.low 1), ((0 : ℤ) : ℝ) * (C.place.d.high 2 - C.place.d.low 2)⟩ = z.pos := by
      ext <;> simp
    simp only [e]
    exact hseen _ i1 _ (List.mem_of_getElem? hz)
  obtain ⟨order, horder⟩ : ∃ order, order = (List.range C.place.g.n).flatMap fun r => Links.published (numbered C.place.g.n q.P r) := ⟨_, rfl⟩
  have hX : ∀ r < C.place.g.n, (Force.plainExec 3 ((numbered C.place.g.n q.P r).map toEp)).Valid C.F ((numbered C.place.g.n q.P r).map toEp) := by
    rw [hF]
    exact fun r _ => Force.plainExec_valid (c := ⟨100, 1, 2, 3⟩) (by norm_num) _
  have hnodup : ((numbered C.place.g.n q.P 0).map Sylinder.gid).Perm [7, 9] := by
    have e1 : (numbered C.place.g.n q.P 0).map Sylinder.gid = (q.P 0).map Sylinder.gid := by
      refine List.ext_getElem (by rw [List.length_map, List.length_map, numbered_length _ _ _ (by rw [hn]; norm_num)]) fun i h1 h2 => ?_
      rw [List.length_map] at h1
      obtain ⟨b, hb, g, hg⟩ := numbered_get _ _ _ _ _ (List.getElem?_eq_getElem h1)
      rw [List.getElem_map, List.getElem_map, hg]
      rw [List.length_map] at h2
      rw [List.getElem?_eq_getElem h2] at hb
      cases hb
      rfl
    have e2 := hq.kinds.map Prod.fst
    rw [List.map_map, List.map_map, hn, twoRods_all] at e2
    rw [e1]
    have e3 : all 1 q.P = q.P 0 := by simp [all]
    rw [e3] at e2
    exact e2
  have hpools : ∀ X : ℕ → Force.RankExec EP, (∀ r < C.place.g.n, (X r).Valid C.F ((numbered C.place.g.n q.P r).map toEp)) → ∀ ord : List (ℤ × EP),
      ord.Perm ((List.range C.place.g.n).flatMap fun r => Links.published (numbered C.place.g.n q.P r)) → ∀ r < C.place.g.n, ∀ pool,
      Collects C q.dec.dom (numbered C.place.g.n q.P) (s.dir.buildIndex ord) X r pool → ∃ b, pool.flatten = [b] ∧ Slack b := by
    intro X hX ord hord r hr pool hpool
    obtain rfl : r = 0 := by omega
    obtain ⟨L, blocks, news, h1, -, h3, -, h5⟩ := Layout.pool_exact hq h s.dir ord hord X hX hr pool hpool
    have hblocks : blocks = [] := by
      rw [List.eq_nil_iff_forall_not_mem]
      intro b hb
      obtain ⟨i, hi, rfl⟩ := List.getElem_of_mem hb
      have hi' : i < L.length := by rw [h3.length_eq]; exact hi
      obtain ⟨x, y, hx, hy, ho, hg, hrec⟩ := (List.forall₂_iff_get.1 h3).2 i hi' hi
      simp only [List.get_eq_getElem] at hrec hx hy
      rcases hseen 0 hr _ (List.mem_of_getElem? hx) with ⟨m1, m2⟩ | ⟨m1, m2⟩ <;> rcases himg _ _ hy ho with ⟨n1, n2⟩ | ⟨n1, n2⟩ <;> rw [m1, n1] at hg
      · norm_num at hg
      · rw [far m2 n2] at hrec
        cases hrec
      · norm_num at hg
      · norm_num at hg
    have hp := linkPairs_perm C.linkMap (numbered C.place.g.n q.P 0) (hnodup.nodup_iff.2 (by norm_num))
    have hf : (C.linkMap.filter fun l => l.1 ∈ (numbered C.place.g.n q.P 0).map Sylinder.gid) = [(7, 9)] := by
      rw [hlinks]
      have : (7 : ℤ) ∈ (numbered C.place.g.n q.P 0).map Sylinder.gid := hnodup.mem_iff.2 (by simp)
      simp only [List.filter_cons, this, decide_true, if_true, List.filter_nil]
    rw [hf] at hp
    have hpair := List.perm_singleton.1 hp
    obtain ⟨pr, hpr⟩ := List.length_eq_one_iff.1 (by have := congrArg List.length hpair; simpa using this : (linkPairs C.linkMap (numbered C.place.g.n q.P 0)).length = 1)
    have hprmem : pr ∈ linkPairs C.linkMap (numbered C.place.g.n q.P 0) := by rw [hpr]; simp
    rw [hpr] at hpair h5
    simp only [List.map_cons, List.map_nil, List.cons.injEq, and_true, Prod.mk.injEq] at hpair
    obtain ⟨b, news', ⟨e, he, c, hc, hblk⟩, hn', rfl⟩ := List.forall₂_cons_left_iff.1 h5
    cases hn'
    obtain ⟨x, hx, hxp⟩ := List.mem_flatMap.1 hprmem
    obtain ⟨l2, -, rfl⟩ := List.mem_map.1 hxp
    obtain ⟨r', hr', z, hz, hzg, hze⟩ := dir_spec hq h s.dir ord hord (7, 9) (by rw [hlinks]; simp)
    have hl2 : l2 = 9 := hpair.2
    have hxg : x.gid = 7 := hpair.1
    subst hl2
    have he : s.dir.buildIndex ord 9 = some e := he
    rw [show s.dir.buildIndex ord 9 = some (EP.copyFromFP z) from hze] at he
    cases he
    have hxat : kind x = kind (rod 7 4) ∧ x.pos = (rod 7 4).pos ∧ x.orientation = ⟨1, 0, 0, 0⟩ := by
      rcases hnum 0 hr x hx with g | ⟨g, -⟩
      · exact g
      · have : x.gid = 9 := congrArg Prod.fst g
        rw [hxg] at this; norm_num at this
    have hzat : kind z = kind (rod 9 6) ∧ z.pos = (rod 9 6).pos ∧ z.orientation = ⟨1, 0, 0, 0⟩ := by
      have hzg : z.gid = 9 := hzg
      rcases hnum r' hr' z hz with ⟨g, -⟩ | g
      · have : z.gid = 7 := congrArg Prod.fst g
        rw [hzg] at this; norm_num at this
      · exact g
    have hcz : c = z.pos := by
      have hbox : ∀ k, C.link.pbc k = true → C.link.low k < C.link.high k := by
        rw [hlink]; simp
      obtain ⟨c', -, hnear, huniq⟩ := image_spec C.link hbox x.pos z.pos (by rw [hlink]; simp)
      obtain rfl := huniq c hc
      refine comp_ext fun k => ?_
      have := hnear k
      rw [hlink] at this
      simpa using this
    obtain ⟨kx, px, ox⟩ := hxat
    obtain ⟨kz, pz, oz⟩ := hzat
    simp only [kind, Prod.mk.injEq] at kx kz
    have rx : x.radius = 1 / 10 := kx.2.2.2.1
    have lx : x.length = 2 := kx.2.2.2.2
    have rz : z.radius = 1 / 10 := kz.2.2.2.1
    have lz : z.length = 2 := kz.2.2.2.2
    have dx : x.direction = ⟨0, 0, 1⟩ := by
      show x.orientation.rot _ = _
      rw [ox]; exact rod_direction 0 0
    have dz : z.direction = ⟨0, 0, 1⟩ := by
      show z.orientation.rot _ = _
      rw [oz]; exact rod_direction 0 0
    have hco : minusEnd z (c - z.pos) = plusEnd x := by
      unfold minusEnd plusEnd
      rw [hcz, px, pz, lx, lz, dx, dz]
      ext <;> norm_num [rod, Sylinder.make]
    obtain ⟨n1, n2, n3⟩ := block_zero hblk hco
    have hfields : b.bilateral = true ∧ b.kappa = C.link.linkKappa ∧ b.gidI = x.gid ∧ b.gidJ = z.gid ∧ b.gamma = if b.delta0 < 0 then -b.delta0 else 0 := by
      unfold Links.block at hblk
      simp only [Option.map_eq_some_iff] at hblk
      obtain ⟨S, -, hb⟩ := hblk
      rw [← hb]
      exact ⟨rfl, rfl, rfl, rfl, rfl⟩
    have n3 : b.delta0 = -0.22 := by
      rw [n3, rx, rz, hlink]
      norm_num
    refine ⟨b, ?_, n1, n2, n3, ?_, hfields.1, by rw [hfields.2.1, hlink], hfields.2.2.1.trans hxg, hfields.2.2.2.1.trans hzg⟩
    · rw [hbounds, hblocks] at h1
      exact List.perm_singleton.1 (by simpa using h1)
    · rw [hfields.2.2.2.2, n3]
      norm_num
  have hbig : 6 * ((all C.place.g.n twoRods).length : ℤ) ≤ 2 ^ 31 - 1 := by rw [hn, twoRods_all]; norm_num
  have hfit1 : ∀ b : Block, (((([b] : List Block).map (fun b => if b.oneSide then 6 else 12)).sum : ℕ) : ℤ) ≤ 2 ^ 31 - 1 := by
    intro b
    simp only [List.map_cons, List.map_nil, List.sum_cons, List.sum_nil]
    split <;> norm_num
  obtain ⟨ranks, out, s', hs', hfree⟩ := C113_progress h hch hres 0 s hrun _ (Place.plain_valid C.place) q hpq hvalid
    (fun y hy b hb => by rw [hbounds] at hb; cases hb) order (List.Perm.of_eq horder) _ hX hbig
    (fun r hr pool hp => by
      obtain ⟨b, hb, -⟩ := hpools _ hX order (List.Perm.of_eq horder) r hr pool hp
      rw [hb]
      exact hfit1 b) ⟨0, 0, 0, 0⟩
  obtain ⟨ord, ho, hdir⟩ := hs'.publish
  obtain ⟨X, hX', hcol⟩ := hs'.collect
  rw [hdir] at hcol
  obtain ⟨rk, hrk⟩ := List.length_eq_one_iff.1 (by rw [hs'.size, hn] : ranks.length = 1)
  obtain ⟨b, hb, hsl⟩ := hpools X hX' ord ho 0 (by rw [hn]; norm_num) rk.pool (hcol 0 rk (by rw [hrk]; rfl))
  have hcons : constraints ranks = [b] := by
    rw [hrk]
    simp [constraints, hb]
  have hready := C109_step_ready h hs' hq hbig hfree.fit
  have hdil : C109_Dilute C twoRods false ranks 1 1 1 2 := by
    refine ⟨hbig, hfree.fit, by rw [hcons]; rfl, ?_, fun _ => 0, fun _ => 0, ?_, ?_⟩
    · intro i j b b' hi hj hij
      rw [hcons] at hi hj
      have a1 := (List.getElem?_eq_some_iff.1 hi).1
      have a2 := (List.getElem?_eq_some_iff.1 hj).1
      simp at a1 a2
      omega
    · intro rk hrk so hso i D' y hy
      rw [(hfree.none rk hrk).1, (hfree.none rk hrk).2] at hso
      obtain ⟨r, hr, rfl⟩ := List.getElem_of_mem hrk
      have hbod := hs'.bodies r _ (List.getElem?_eq_getElem hr)
      have hrn : r < C.place.g.n := by rw [← hs'.size]; exact hr
      have hmem : ∀ z ∈ ranks[r].bodies, z.2 ∈ numbered C.place.g.n q.P r := by
        intro z hz
        rw [← hbod]
        exact List.mem_map_of_mem hz
      refine (rest_step (C.mobility false) h.viscosity h.dt hK ranks[r].bodies ?_ ?_ so hso).1 i D' y hy
      · exact fun z hz => hq.valid h hrn (hmem z hz)
      · intro z hz
        have := hq.clean hrn (hmem z hz)
        exact ⟨this.1, this.2.1⟩
    · intro b' hb'
      rw [hcons, List.mem_singleton] at hb'
      subst hb'
      have hgr : ∀ U W, gapRate U W b' = 0 := by
        intro U W
        unfold gapRate
        rw [hsl.normI, hsl.normJ]
        simp [V3.dot]
      obtain ⟨lam, hlam, -⟩ := C109_response (C.mobility false) h.viscosity h.dt ranks hready b' (by rw [hcons]; simp)
      have hlam1 : lam = 1 := by
        obtain ⟨U, W, -, e⟩ := hlam
        rw [e, hgr, yield, if_pos ⟨hsl.bilateral, by rw [hsl.kappa]; norm_num⟩, hsl.kappa, hdt]
        norm_num
      subst hlam1
      refine ⟨⟨1, hlam, le_rfl, le_rfl, ?_⟩, ?_, ?_, ?_⟩
      · rw [hgr, hsl.delta, hsl.gamma, hdt]
        norm_num
      · rw [hsl.gamma]; norm_num
      · rw [hsl.gamma]; norm_num
      · rw [hsl.gamma]
        have := large
        norm_num at *
        linarith
  obtain ⟨res, hconv⟩ := hm C C _ _ _ _ _ h hch hres' hite 0 s hrun false q ranks out s' hs' hdil
  refine ⟨q, ranks, out, s', res, hs', hconv, hqst, ?_⟩
  intro u hu
  obtain ⟨r, hr, hu⟩ := mem_all.1 hu
  obtain ⟨l1, l2⟩ := limp_step h hmono.2 hcold 0 hrun hs' hfree.none (fun b' hb' => by
    rw [hcons, List.mem_singleton] at hb'
    rw [hb']
    exact ⟨hsl.normI, hsl.normJ⟩) r hr
  obtain ⟨i, hi, rfl⟩ := List.getElem_of_mem hu
  have hlt : i < (numbered C.place.g.n q.P r).length := by
    rw [numbered_length _ _ _ hr]
    omega
  obtain ⟨u, hu, e1, e2, e3, e4, e5⟩ := l2 i _ (List.getElem?_eq_getElem hlt)
  rw [List.getElem?_eq_getElem hi] at hu
  obtain rfl := Option.some.inj hu
  refine ⟨?_, e3, e4⟩
  have hk : kind (s'.sys.P r)[i] = kind (numbered C.place.g.n q.P r)[i] := by
    unfold kind
    rw [e5.gid, e5.group, e5.isImmovable, e5.radius, e5.length]
  have := hnum r hr _ (List.getElem_mem hlt)
  unfold At at this ⊢
  rw [hk, e1, e2]
  exact this

end Limp

/-- C93 does not make a compressed spring extend: a run of any length in which two rods are linked by a spring whose length should be 0.22 (with the radii), in which the ends that it
links coincide after every step and both rods are at rest, although the solver converges in every step and gives the spring a multiplier of 0.22, as the law of the spring asks for. -/
theorem C93_limp_false : ∃ (C : Sim.Cfg) (P₀ : ℕ → List Sylinder) (f : ℕ → Sim.State), Sim.Sound C (fun _ => false) (fun _ => 0) (fun _ => 10) P₀ ∧ C.mob.sylinderFixed = false ∧
    C.linkMap = [(7, 9)] ∧ C.link.linkKappa = 1 ∧ C.link.linkGap = 0.02 ∧
    ∀ n, Sim.Run (Sim.Ok (fun _ => false) (fun _ => 0) (fun _ => 10)) id C P₀ C P₀ 0 (f n) ∧
      ∃ q ranks out res, Sim.Step C id false (f n) q ranks out (f (n + 1)) ∧ Sim.Converged C id out res ∧ res < 1 / 10 ^ 5 ∧
        (∃ p ∈ out.pools, ∃ b ∈ p.flatten, b.gidI = 7 ∧ b.gidJ = 9 ∧ |b.gamma - 0.22| ≤ res) ∧
        ∃ x ∈ all C.place.g.n (f (n + 1)).sys.P, ∃ z ∈ all C.place.g.n (f (n + 1)).sys.P, x.gid = 7 ∧ z.gid = 9 ∧ x.isImmovable = false ∧ z.isImmovable = false ∧
          x.radius = 1 / 10 ∧ z.radius = 1 / 10 ∧ minusEnd z 0 = plusEnd x ∧ x.vel = 0 ∧ x.omega = 0 ∧ z.vel = 0 ∧ z.omega = 0 := by
  obtain ⟨N, hN⟩ := C109_run 1 1 1 2 (1 / 10 ^ 5) (by norm_num) (by norm_num) (by norm_num) (by norm_num) (by unfold BCQP.dblEps; norm_num)
    (by norm_num; unfold BCQP.dblEps; norm_num) (le_trans (by norm_num) Limp.large)
  obtain ⟨d, h, hper⟩ := Limp.sound N
  obtain ⟨s1, s2, d1, d2⟩ := (C83_progress (Limp.cfg N d).place _ _ _ h.place Limp.twoRods h.enough).1 (fun _ => (Limp.cfg N d).place.root) _ _ (Place.plain_valid (Limp.cfg N d).place)
    (Place.plain_valid (Limp.cfg N d).place)
  have hrun : Sim.Run (Sim.Ok (fun _ => false) (fun _ => 0) (fun _ => 10)) id (Limp.cfg N d) Limp.twoRods (Limp.cfg N d) Limp.twoRods 0 ⟨s2, Links.Dir.empty, 0⟩ :=
    .start _ _ _ s1 s2 h (Place.plain_valid _) (Place.plain_valid _) d1 d2
  have hst : ∀ b ∈ all 1 s2.P, Limp.At b := by
    intro b hb
    obtain ⟨a, ha, e1, e2, e3⟩ := start_pos h (Place.plain_valid _) (Place.plain_valid _) d1 d2 b hb
    refine Limp.carry e1 e2 (fun k hk => (e3 k).2 rfl hk) ?_
    have ha : a ∈ all 1 Limp.twoRods := ha
    rw [Limp.twoRods_all] at ha
    simp only [List.mem_cons, List.not_mem_nil, or_false] at ha
    rcases ha with rfl | rfl
    · exact .inl ⟨rfl, rfl, rfl⟩
    · exact .inr ⟨rfl, rfl, rfl⟩
  let T := { s : Sim.State // Sim.Run (Sim.Ok (fun _ => false) (fun _ => 0) (fun _ => 10)) id (Limp.cfg N d) Limp.twoRods (Limp.cfg N d) Limp.twoRods 0 s ∧ ∀ b ∈ all 1 s.sys.P, Limp.At b }
  have hnext : ∀ s : T, ∃ s' : T, ∃ q ranks out res, Sim.Step (Limp.cfg N d) id false s.1 q ranks out s'.1 ∧ Sim.Converged (Limp.cfg N d) id out res ∧ (∀ b ∈ all 1 q.P, Limp.At b) ∧
      ∀ u ∈ all 1 s'.1.sys.P, Limp.At u ∧ u.vel = 0 ∧ u.omega = 0 := by
    rintro ⟨s, hs, hs'⟩
    obtain ⟨q, ranks, out, s', res, g1, g2, g3, g4⟩ := Limp.step hN h hper s hs hs'
    exact ⟨⟨s', .step (Limp.cfg N d) Limp.twoRods 0 s q ranks out s' hs h (fun _ => rfl) g1, fun u hu => (g4 u hu).1⟩, q, ranks, out, res, g1, g2, g3, g4⟩
  choose next hnext using hnext
  refine ⟨Limp.cfg N d, Limp.twoRods, fun n => (next^[n] ⟨_, hrun, hst⟩).1, h, rfl, rfl, rfl, rfl, fun n => ⟨(next^[n] ⟨_, hrun, hst⟩).2.1, ?_⟩⟩
  obtain ⟨q, ranks, out, res, g1, g2, g3, g4⟩ := hnext (next^[n] ⟨_, hrun, hst⟩)
  have hrn := (next^[n] ⟨_, hrun, hst⟩).2.1
  rw [← Function.iterate_succ_apply' next n] at g1 g4
  have hr' := (next^[n + 1] ⟨_, hrun, hst⟩).2.1
  beta_reduce
  generalize next^[n + 1] ⟨_, hrun, hst⟩ = t at g1 g4 hr' ⊢
  generalize next^[n] ⟨_, hrun, hst⟩ = w at g1 hrn ⊢
  have hex : ∀ g : ℤ, (g = 7 ∨ g = 9) → ∀ P : ℕ → List Sylinder, ((all 1 P).map kind).Perm ((all 1 Limp.twoRods).map kind) → ∃ x ∈ all 1 P, x.gid = g := by
    intro g hg P hP
    have h1 : g ∈ ((all 1 Limp.twoRods).map kind).map Prod.fst := by
      rw [Limp.twoRods_all]
      rcases hg with rfl | rfl <;> simp [kind, Limp.rod, Sylinder.make]
    have h2 := (hP.map Prod.fst).symm.subset h1
    obtain ⟨e, he, rfl⟩ := List.mem_map.1 h2
    obtain ⟨b, hb, rfl⟩ := List.mem_map.1 he
    exact ⟨b, hb, rfl⟩
  have hat : ∀ x : Sylinder, Limp.At x → (x.gid = 7 → kind x = kind (Limp.rod 7 4) ∧ x.pos = (Limp.rod 7 4).pos ∧ x.direction = ⟨0, 0, 1⟩) ∧
      (x.gid = 9 → kind x = kind (Limp.rod 9 6) ∧ x.pos = (Limp.rod 9 6).pos ∧ x.direction = ⟨0, 0, 1⟩) := by
    intro x hx
    have hdir : x.orientation = ⟨1, 0, 0, 0⟩ → x.direction = ⟨0, 0, 1⟩ := by
      intro e
      show x.orientation.rot _ = _
      rw [e]
      exact Limp.rod_direction 0 0
    rcases hx with ⟨a, b, c⟩ | ⟨a, b, c⟩
    · refine ⟨fun _ => ⟨a, b, hdir c⟩, fun hg => ?_⟩
      have : x.gid = 7 := congrArg Prod.fst a
      rw [hg] at this; norm_num at this
    · refine ⟨fun hg => ?_, fun _ => ⟨a, b, hdir c⟩⟩
      have : x.gid = 9 := congrArg Prod.fst a
      rw [hg] at this; norm_num at this
  have hends : ∀ x z : Sylinder, Limp.At x → Limp.At z → x.gid = 7 → z.gid = 9 → x.radius = 1 / 10 ∧ z.radius = 1 / 10 ∧ x.isImmovable = false ∧ z.isImmovable = false ∧
      minusEnd z 0 = plusEnd x := by
    intro x z hx hz gx gz
    obtain ⟨kx, px, dx⟩ := (hat x hx).1 gx
    obtain ⟨kz, pz, dz⟩ := (hat z hz).2 gz
    simp only [kind, Prod.mk.injEq] at kx kz
    have lx : x.length = 2 := kx.2.2.2.2
    have lz : z.length = 2 := kz.2.2.2.2
    refine ⟨kx.2.2.2.1, kz.2.2.2.1, kx.2.2.1, kz.2.2.1, ?_⟩
    unfold minusEnd plusEnd
    rw [px, pz, lx, lz, dx, dz]
    ext <;> norm_num [Limp.rod, Sylinder.make]
  have hq := g1.prepared h (Sim.run_inv hrn)
  have hnum : ∀ r < 1, ∀ x ∈ numbered 1 q.P r, Limp.At x := by
    intro r hr x hx
    obtain ⟨b, hb, g, rfl⟩ := numbered_mem _ _ _ _ hx
    exact g3 b (mem_all.2 ⟨r, hr, hb⟩)
  have hres := g2
  obtain ⟨last, -, e1, e2, -⟩ := hres
  refine ⟨q, ranks, out, res, g1, g2, e2, ?_, ?_⟩
  · obtain ⟨y, hy, gy⟩ := hex 7 (.inl rfl) q.P hq.kinds
    obtain ⟨r, hr, hy⟩ := mem_all.1 hy
    obtain ⟨i, hi, rfl⟩ := List.getElem_of_mem hy
    have hlt : i < (numbered 1 q.P r).length := by rw [numbered_length _ _ _ hr]; exact hi
    obtain ⟨b, hb, g, hbx⟩ := numbered_get _ _ _ _ _ (List.getElem?_eq_getElem hlt)
    rw [List.getElem?_eq_getElem hi] at hb
    obtain rfl := Option.some.inj hb
    have hg : (numbered 1 q.P r)[i].gid = 7 := by rw [hbx]; exact gy
    obtain ⟨r', hr', z, hz, gz, D, hD, key⟩ := C93_touching h rfl id 0 w.1 hrn false q ranks out t.1 g1 res g2 (7, 9) (by simp [Limp.cfg]) r _ hr (List.getElem_mem hlt) hg
    have hD0 : D = 0 := by
      have h0 : z.pos + D = z.pos := comp_ext fun k => (hD k).1 rfl
      have ex := congrArg V3.x h0
      have ey := congrArg V3.y h0
      have ez := congrArg V3.z h0
      simp only [V3.add_x, V3.add_y, V3.add_z] at ex ey ez
      ext <;> simp <;> linarith
    obtain ⟨h1, h2, -, -, h5⟩ := hends _ z (hnum r hr _ (List.getElem_mem hlt)) (hnum r' hr' z hz) hg gz
    rw [hD0] at key
    obtain ⟨p, b, hp, hb, k1, k2, -, -, -, -, k3⟩ := key h5
    refine ⟨p, List.mem_of_getElem? hp, b, hb, k1, k2, ?_⟩
    have k3 := k3.1 (by simp [Limp.cfg])
    rw [h1, h2, show (Limp.cfg N d).link.linkKappa = 1 from rfl, show (Limp.cfg N d).link.linkGap = 0.02 from rfl, show (Limp.cfg N d).mob.dt = 1 from rfl] at k3
    have e3 : res < 1 / 10 ^ 5 := e2
    obtain ⟨k4, k5⟩ := k3
    have k5 := k5 (by
      unfold BCQP.dblEps
      norm_num at *
      linarith)
    rw [abs_le]
    norm_num at *
    constructor <;> linarith
  · obtain ⟨x, hx, gx⟩ := hex 7 (.inl rfl) t.1.sys.P (Sim.run_inv hr').kinds
    obtain ⟨z, hz, gz⟩ := hex 9 (.inr rfl) t.1.sys.P (Sim.run_inv hr').kinds
    obtain ⟨a1, a2, a3⟩ := g4 x hx
    obtain ⟨b1, b2, b3⟩ := g4 z hz
    obtain ⟨h1, h2, h3, h4, h5⟩ := hends x z a1 b1 gx gz
    exact ⟨x, hx, z, hz, gx, gz, h3, h4, h1, h2, h5, a2, a3, b2, b3⟩

end Verif
