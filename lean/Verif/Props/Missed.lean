import Verif.Lemmas.Missed
import Verif.Lemmas.Layout
import Verif.Props.Sim
/-!
C39, C84, C89, C91: two rods that overlap and get no contact, and a run in which they overlap for ever.
-/
namespace Verif
open Domain Near Collector RunStep Mobility Collide Sim DCP

namespace Missed

theorem quat (c s : ℝ) (h : c ^ 2 + s ^ 2 = 1) : Spec.UnitQuat ⟨√(1 / 2), -s * √(1 / 2), c * √(1 / 2), 0⟩ ∧
    (⟨√(1 / 2), -s * √(1 / 2), c * √(1 / 2), 0⟩ : Quat).rot ⟨0, 0, 1⟩ = ⟨c, s, 0⟩ := by
  have hh : √(1 / 2 : ℝ) ^ 2 = 1 / 2 := Real.sq_sqrt (by norm_num)
  generalize √(1 / 2 : ℝ) = w at *
  constructor
  · simp only [Spec.UnitQuat, Quat.normSq]
    nlinarith
  · simp only [Quat.rot, Quat.vec, V3.cross]
    ext <;> simp
    · linear_combination (2 * c) * hh
    · linear_combination (2 * s) * hh
    · linear_combination (-2) * hh - 2 * w ^ 2 * h

/-- The two bodies. -/
noncomputable def slanted : Sylinder := Sylinder.make 7 (2 / 5) (2 / 5) tilt tilt ⟨2 + (1 + dblEps) / 2, 7 / 2, 2⟩ ⟨√(1 / 2), -(2 / tilt) * √(1 / 2), (1 + dblEps) / tilt * √(1 / 2), 0⟩ (3 / 10)
noncomputable def level : Sylinder := Sylinder.make 9 (2 / 5) (2 / 5) 1 1 ⟨5 / 2, 2, 2⟩ ⟨√(1 / 2), -0 * √(1 / 2), 1 * √(1 / 2), 0⟩ (3 / 10)

theorem unit_dir : ((1 + dblEps) / tilt) ^ 2 + (2 / tilt) ^ 2 = 1 := by
  have ht := tilt_ge
  have : tilt ≠ 0 := by linarith
  field_simp
  linarith [tilt_sq]

theorem Slanted.of {b : Sylinder} (h1 : b.pos = slanted.pos) (h2 : b.orientation = slanted.orientation) (h3 : b.lengthCollision = tilt) (h4 : b.radiusCollision = 2 / 5)
    (h5 : b.colBuf = 3 / 10) : Slanted (EP.copyFromFP b) :=
  ⟨h1, by
    show b.orientation.rot _ = _
    rw [h2]
    exact (quat _ _ unit_dir).2, h3, h4, h5⟩

theorem Level.of {b : Sylinder} (h1 : b.pos = level.pos) (h2 : b.orientation = level.orientation) (h3 : b.lengthCollision = 1) (h4 : b.radiusCollision = 2 / 5)
    (h5 : b.colBuf = 3 / 10) : Level (EP.copyFromFP b) :=
  ⟨h1, by
    show b.orientation.rot _ = _
    rw [h2]
    exact (quat 1 0 (by norm_num)).2, h3, h4, h5⟩

theorem slanted_ep : Slanted (EP.copyFromFP slanted) := .of rfl rfl rfl rfl rfl
theorem level_ep : Level (EP.copyFromFP level) := .of rfl rfl rfl rfl rfl

end Missed
open Missed

/-- C39 is false: two rods of radius 2/5 whose surfaces overlap by 3/10 get no contact, however they are grouped, ordered and spread over threads.  `DCPQuery` finds a
distance of the axes above 1.1 instead of 1/2 (as in `C32_false`). -/
theorem C39_false : ∃ x y : EP, Spec.Near.Valid x ∧ Spec.Near.Valid y ∧ ¬ Spec.Near.Sphere x ∧ ¬ Spec.Near.Sphere y ∧ 0 ≤ x.colBuf ∧ 0 ≤ y.colBuf ∧ x.gid ≠ y.gid ∧
    Spec.Near.Separation x y (-(3 / 10)) ∧ Spec.Near.Close x y ∧
    ∀ (calls : List Call) (threads : ℕ), Spec.Near.Offers [x, y] calls → (∀ c ∈ calls, c.thread < threads) →
      ∃ pool, collect (List.replicate threads []) calls = some pool ∧ pool.flatten = [] := by
  have hx := slanted_ep
  have hy := level_ep
  have gx : (EP.copyFromFP slanted).gid = 7 := rfl
  have gy : (EP.copyFromFP level).gid = 9 := rfl
  have hsep := overlap hx hy
  refine ⟨_, _, hx.valid, hy.valid, hx.rod, hy.rod, by rw [hx.colBuf]; norm_num, by rw [hy.colBuf]; norm_num, by rw [gx, gy]; norm_num, hsep, ⟨_, hsep, ?_⟩, ?_⟩
  · unfold Spec.Near.bufferOf Spec.Near.Rad
    rw [if_neg hx.rod, if_neg hy.rod, hx.radius, hy.radius, hx.colBuf, hy.colBuf]
    norm_num
  generalize EP.copyFromFP slanted = x at *
  generalize EP.copyFromFP level = y at *
  intro calls threads hof hth
  have hv : ∀ s ∈ [x, y], Spec.Near.Valid s := by
    intro s hs
    simp only [List.mem_cons, List.not_mem_nil, or_false] at hs
    rcases hs with rfl | rfl
    · exact hx.valid
    · exact hy.valid
  have htb : ∀ c ∈ calls, ∀ s ∈ c.targets, s ∈ [x, y] := fun c hc s hs => hof.targets.mem_iff.1 (List.mem_flatMap.2 ⟨c, hc, hs⟩)
  obtain ⟨pool, hp, hperm⟩ := collect_eq calls (List.replicate threads []) (by simpa using hth) (fun c hc s hs => hv s (htb c hc s hs)) (fun c hc s hs => hv s (hof.known c hc s hs))
  refine ⟨pool, hp, ?_⟩
  rw [show (List.replicate threads ([] : List Block)).flatten = [] by simp, List.nil_append] at hperm
  rw [List.eq_nil_iff_forall_not_mem]
  intro b hb
  obtain ⟨p, hpo, hbt⟩ := List.mem_flatMap.1 (hperm.mem_iff.1 hb)
  obtain ⟨c, hc, ht, hs⟩ := mem_offered calls p hpo
  obtain ⟨J, hJ, hlt, hr⟩ := (mem_targetBlocks p.1 p.2 b).1 hbt
  rw [hs] at hJ
  have h1 := htb c hc _ ht
  have h2 := hof.known c hc J hJ
  simp only [List.mem_cons, List.not_mem_nil, or_false] at h1 h2
  rcases h1 with h1 | h1 <;> rcases h2 with h2 | h2 <;> rw [h1, h2] at hlt hr
  · exact absurd hlt (lt_irrefl _)
  · rw [recorded_none hx hy] at hr
    cases hr
  · rw [gx, gy] at hlt
    norm_num at hlt
  · exact absurd hlt (lt_irrefl _)

namespace Missed

/-- Both on rank 0. -/
noncomputable def twoRods : ℕ → List Sylinder := fun r => if r = 0 then [slanted, level] else []

theorem twoRods_all : all 1 twoRods = [slanted, level] := by simp [all, twoRods]

/-- No periodic axes, boundaries and links, nothing moves by itself. -/
noncomputable def cfg (d : Stats.Domain) : Sim.Cfg :=
  ⟨⟨⟨1, 1, 1⟩, d, 0.5, 400, insertSort, 1, 1, 3 / 10, false, 0.5, id⟩, C88_cfg, ⟨fun _ => false, fun _ => 0, fun _ => 10, 0.02, 1⟩, [], [], ⟨1 / 10 ^ 5, 100, 0⟩, ⟨100, 1, 2, 3⟩, 0⟩

theorem slanted_sized (d : Stats.Domain) : sized (cfg d) slanted = slanted := by
  unfold sized cfg slanted Sylinder.make
  simp

theorem level_sized (d : Stats.Domain) : sized (cfg d) level = level := by
  unfold sized cfg level Sylinder.make
  simp

theorem body_of {x : Sylinder} (hv : Spec.Near.Valid (EP.copyFromFP x)) (hr : 0 < x.radius) (hl : 0 ≤ x.length) (hc : 0 ≤ x.colBuf) (hs : ¬ Spec.Near.Sphere (EP.copyFromFP x)) :
    Body x := ⟨hv, hr, hl, hc, fun h => absurd h hs⟩

theorem sound : ∃ d, Sim.Sound (cfg d) (fun _ => false) (fun _ => 0) (fun _ => 10) twoRods ∧ ∀ k, d.periodic k = false := by
  obtain ⟨d, hd, hp, -, -⟩ := (C56_axes (fun _ => false) (fun _ => 0) (fun _ => 10)).1 (fun _ => by norm_num)
  have ht := tilt_ge
  have hn : (cfg d).place.g.n = 1 := rfl
  have hall : ∀ b ∈ all (cfg d).place.g.n twoRods, b = slanted ∨ b = level := by
    intro b hb
    rw [hn, twoRods_all] at hb
    simpa using hb
  have hs1 : slanted.radius = 2 / 5 := rfl
  have hs2 : slanted.length = tilt := rfl
  have hs3 : slanted.colBuf = 3 / 10 := rfl
  have hl1 : level.radius = 2 / 5 := rfl
  have hl2 : level.length = 1 := rfl
  have hl3 : level.colBuf = 3 / 10 := rfl
  have hbig : (10 : ℝ) ≤ BCQP.dblMax / 10 := by
    unfold BCQP.dblMax
    have : (2 : ℝ) ^ 10 ≤ 2 ^ 1023 := pow_le_pow_right₀ (by norm_num) (by norm_num)
    generalize (2 : ℝ) ^ 1023 = w at *
    norm_num at *
    linarith
  refine ⟨d, ⟨⟨hd, fun _ h => by simp at h, le_rfl, le_rfl, le_rfl, by norm_num [cfg], insertSort_sorts, by simp [cfg, Grid.n]⟩,
    .inl ⟨rfl, rfl⟩, ?_, by norm_num [cfg, C88_cfg, C43_cfg], by norm_num [cfg, C88_cfg, C43_cfg], ?_, ?_, ?_, ⟨2 / 5, ?_, ?_, ?_⟩, ?_, ⟨rfl, rfl, rfl⟩⟩, hp⟩
  · show 1 ≤ Place.total twoRods 1
    simp [Place.total, twoRods]
  · intro b hb
    rcases hall b hb with rfl | rfl
    · exact ⟨by rw [hs1]; norm_num, by rw [hs2]; linarith, (quat _ _ unit_dir).1⟩
    · exact ⟨by rw [hl1]; norm_num, by rw [hl2]; norm_num, (quat 1 0 (by norm_num)).1⟩
  · intro b hb
    rcases hall b hb with rfl | rfl
    · rw [slanted_sized]
      exact body_of slanted_ep.valid (by rw [hs1]; norm_num) (by rw [hs2]; linarith) (by rw [hs3]; norm_num) slanted_ep.rod
    · rw [level_sized]
      exact body_of level_ep.valid (by rw [hl1]; norm_num) (by rw [hl2]; norm_num) (by rw [hl3]; norm_num) level_ep.rod
  · refine ⟨by norm_num [cfg], by norm_num [cfg], by norm_num [cfg], ?_, ?_⟩
    · intro k hk
      rw [show (cfg d).place.d.periodic k = d.periodic k from rfl, hp k] at hk
      simp at hk
    · intro hk
      rw [show (cfg d).place.d.periodic 0 = d.periodic 0 from rfl, hp 0] at hk
      simp at hk
  · intro b hb
    unfold Spec.Near.Rad
    rcases hall b hb with rfl | rfl
    · rw [slanted_sized, if_neg slanted_ep.rod, slanted_ep.radius, hs1]; exact ⟨le_rfl, le_rfl⟩
    · rw [level_sized, if_neg level_ep.rod, level_ep.radius, hl1]; exact ⟨le_rfl, le_rfl⟩
  · linarith
  · show 2 * (2 / 5) + 0.02 ≤ BCQP.dblMax / 10
    norm_num at *
    linarith
  · intro l hl
    simp [cfg] at hl

/-- The rods are where they were at the beginning. -/
def Stuck (l : List Sylinder) : Prop := ∀ b ∈ l, (b.gid = 7 ∧ b.pos = slanted.pos ∧ b.orientation = slanted.orientation) ∨ (b.gid = 9 ∧ b.pos = level.pos ∧ b.orientation = level.orientation)

theorem carry {a b : Sylinder} (hk : kind b = kind a) (ho : b.orientation = a.orientation)
    (hp : ∀ k : Fin 3, |Near.comp a.pos k| < Stats.largeFloat → Near.comp b.pos k = Near.comp a.pos k)
    (ha : (a.gid = 7 ∧ a.pos = slanted.pos ∧ a.orientation = slanted.orientation) ∨ (a.gid = 9 ∧ a.pos = level.pos ∧ a.orientation = level.orientation)) :
    (b.gid = 7 ∧ b.pos = slanted.pos ∧ b.orientation = slanted.orientation) ∨ (b.gid = 9 ∧ b.pos = level.pos ∧ b.orientation = level.orientation) := by
  have hg : b.gid = a.gid := by
    simp only [kind, Prod.mk.injEq] at hk
    exact hk.1
  have hbig : (10 : ℝ) < Stats.largeFloat := by norm_num [Stats.largeFloat]
  have h0 : 0 < dblEps := dblEps_pos
  have h1 : dblEps ≤ 1 / 1000 := dblEps_small
  have hpos : b.pos = a.pos := by
    have hl : ∀ k : Fin 3, |Near.comp a.pos k| < Stats.largeFloat := by
      intro k
      refine lt_of_le_of_lt ?_ hbig
      rw [abs_le]
      rcases ha with ⟨-, h, -⟩ | ⟨-, h, -⟩ <;> rw [h] <;> fin_cases k <;>
        simp only [slanted, level, Sylinder.make, Near.comp, Fin.zero_eta, Fin.mk_one, Fin.reduceFinMk, Matrix.cons_val_zero, Matrix.cons_val_one, Matrix.cons_val] <;>
        constructor <;> linarith
    exact V3.ext (hp 0 (hl 0)) (hp 1 (hl 1)) (hp 2 (hl 2))
  rw [hg, hpos, ho]
  exact ha

/-- One step: no contact, and nothing moves. -/
theorem step (D : Draws) {d : Stats.Domain} (h : Sim.Sound (cfg d) (fun _ => false) (fun _ => 0) (fun _ => 10) twoRods) (hper : ∀ k, d.periodic k = false) (s : Sim.State)
    (hrun : Sim.Run (Sim.Ok (fun _ => false) (fun _ => 0) (fun _ => 10)) id (cfg d) twoRods (cfg d) twoRods 0 s) (hst : Stuck (all 1 s.sys.P)) :
    ∃ q ranks out s', Sim.Step (cfg d) id false s q ranks out s' ∧ Stuck (all 1 s'.sys.P) ∧ Sim.Converged (cfg d) id out 0 ∧
      (∀ rk ∈ ranks, rk.pool.flatten = [] ∧ rk.force = none ∧ rk.velPart = none) ∧
      ∃ x ∈ all 1 s'.sys.P, ∃ y ∈ all 1 s'.sys.P, x.gid = 7 ∧ y.gid = 9 ∧ Slanted (EP.copyFromFP x) ∧ Level (EP.copyFromFP y) := by
  obtain ⟨C, hC⟩ : ∃ C, C = cfg d := ⟨_, rfl⟩
  have hn : C.place.g.n = 1 := by rw [hC]; rfl
  have hch : C.ctl.choice ≠ 1 := by rw [hC]; simp [cfg]
  have hres : 0 < C.ctl.res := by rw [hC]; norm_num [cfg]
  have hmono : C.place.monolayer = false := by rw [hC]; rfl
  have hbounds : C.bounds = [] := by rw [hC]; rfl
  have hlinks : C.linkMap = [] := by rw [hC]; rfl
  have hF : C.F = ⟨100, 1, 2, 3⟩ := by rw [hC]; rfl
  have hfree : C.mob.sylinderFixed = false := by rw [hC]; rfl
  have hK : ¬ (C.mobility false).KBT > 0 := by rw [hC]; norm_num [cfg, Sim.Cfg.mobility, C88_cfg]
  have hper' : ∀ k, C.place.d.periodic k = false := by rw [hC]; exact hper
  have hsize : C.place.diameterColRatio = 1 ∧ C.place.lengthColRatio = 1 ∧ C.place.colBuf = 3 / 10 := by rw [hC]; exact ⟨rfl, rfl, rfl⟩
  rw [← hn] at hst ⊢
  rw [← hC] at h hrun ⊢
  obtain ⟨-, prog⟩ := C91_progress h hch hres (by rw [hbounds]; simp)
  obtain ⟨⟨q, hpq⟩, prog⟩ := prog C twoRods 0 s hrun _ (Place.plain_valid C.place)
  have hi := Sim.run_inv hrun
  have hq := Sim.prepare h hi (Place.plain_valid C.place) hpq
  have hqst : Stuck (all C.place.g.n q.P) := by
    intro b hb
    obtain ⟨a, ha, e1, e2, e3⟩ := prepare_pos h hmono hi (Place.plain_valid C.place) hpq b hb
    exact carry e1 e2 (fun k hk => (e3 k).2 rfl hk) (hst a ha)
  -- the bodies when the contacts are collected
  have hmem : ∀ r < C.place.g.n, ∀ x ∈ numbered C.place.g.n q.P r, (x.gid = 7 ∧ x.pos = slanted.pos ∧ x.orientation = slanted.orientation ∧ Slanted (EP.copyFromFP x)) ∨
      (x.gid = 9 ∧ x.pos = level.pos ∧ x.orientation = level.orientation ∧ Level (EP.copyFromFP x)) := by
    intro r hr x hx
    obtain ⟨b, hb, g, hbx⟩ := numbered_mem _ _ _ _ hx
    obtain ⟨b0, hb0, hl⟩ := hq.like hr hx
    have e1 : x.pos = b.pos := by rw [hbx]; rfl
    have e2 : x.orientation = b.orientation := by rw [hbx]; rfl
    have e3 : x.gid = b.gid := by rw [hbx]; rfl
    rw [hn, twoRods_all] at hb0
    simp only [List.mem_cons, List.not_mem_nil, or_false] at hb0
    have l1 := hl.lengthCollision
    have l2 := hl.radiusCollision
    have l3 := hl.colBuf
    have l4 := hl.radius.2.2
    rcases hb0 with rfl | rfl
    · rw [hC, slanted_sized] at l1 l2 l3
      have l4 : x.gid = 7 := l4
      rcases hqst b (mem_all.2 ⟨r, hr, hb⟩) with ⟨g1, g2, g3⟩ | ⟨g1, -⟩
      · exact .inl ⟨l4, e1.trans g2, e2.trans g3, .of (e1.trans g2) (e2.trans g3) l1 l2 l3⟩
      · rw [← e3, l4] at g1; norm_num at g1
    · rw [hC, level_sized] at l1 l2 l3
      have l4 : x.gid = 9 := l4
      rcases hqst b (mem_all.2 ⟨r, hr, hb⟩) with ⟨g1, -⟩ | ⟨g1, g2, g3⟩
      · rw [← e3, l4] at g1; norm_num at g1
      · exact .inr ⟨l4, e1.trans g2, e2.trans g3, .of (e1.trans g2) (e2.trans g3) l1 l2 l3⟩
  obtain ⟨order, horder⟩ : ∃ order, order = (List.range C.place.g.n).flatMap fun r => Links.published (numbered C.place.g.n q.P r) := ⟨_, rfl⟩
  have hX : ∀ r < C.place.g.n, (Force.plainExec 3 ((numbered C.place.g.n q.P r).map toEp)).Valid C.F ((numbered C.place.g.n q.P r).map toEp) := by
    rw [hF]
    exact fun r _ => Force.plainExec_valid (c := ⟨100, 1, 2, 3⟩) (by norm_num) _
  obtain ⟨hpool, hstep⟩ := prog q hpq order (List.Perm.of_eq horder) (fun r => Force.plainExec 3 ((numbered C.place.g.n q.P r).map toEp)) hX
  have hpool := hpool (by
    intro r hr y hy b hb
    rw [hbounds] at hb
    cases hb)
  have hpool' : ∀ r, ∃ pool, r < C.place.g.n → Collects C q.dec.dom (numbered C.place.g.n q.P) (s.dir.buildIndex order)
      (fun r => Force.plainExec 3 ((numbered C.place.g.n q.P r).map toEp)) r pool := by
    intro r
    by_cases hr : r < C.place.g.n
    · obtain ⟨p, hp⟩ := hpool r hr
      exact ⟨p, fun _ => hp⟩
    · exact ⟨[], fun h => absurd h hr⟩
  choose f hf using hpool'
  have himg : ∀ o y, imageAt C.place (numbered C.place.g.n q.P) o = some y → IsImage C.place o → (y.gid = 7 ∧ Slanted y) ∨ (y.gid = 9 ∧ Level y) := by
    rintro ⟨o1, o2, ⟨ox, oy, oz⟩⟩ y hy ⟨i1, i2, i3, i4⟩
    obtain rfl : ox = 0 := i2 (hper' 0)
    obtain rfl : oy = 0 := i3 (hper' 1)
    obtain rfl : oz = 0 := i4 (hper' 2)
    obtain ⟨z, hz, rfl⟩ := Option.map_eq_some_iff.1 hy
    have e : z.pos + ⟨((0 : ℤ) : ℝ) * (C.place.d.high 0 - C.place.d.low 0), ((0 : ℤ) : ℝ) * (C.place.d.high 1 - C.place.d.low 1), ((0 : ℤ) : ℝ) * (C.place.d.high 2 - C.place.d.low 2)⟩ = z.pos := by
      ext <;> simp
    simp only [e]
    rcases hmem _ i1 _ (List.mem_of_getElem? hz) with ⟨m1, -, -, m2⟩ | ⟨m1, -, -, m2⟩
    · exact .inl ⟨m1, m2⟩
    · exact .inr ⟨m1, m2⟩
  have hempty : ∀ r < C.place.g.n, (f r).flatten = [] := by
    intro r hr
    obtain ⟨L, blocks, news, h1, -, h3, -, h5⟩ := Layout.pool_exact hq h s.dir order (List.Perm.of_eq horder) _ hX hr (f r) (hf r hr)
    have hnews : news = [] := by
      have : linkPairs C.linkMap (numbered C.place.g.n q.P r) = [] := by
        rw [hlinks]
        simp [linkPairs, Links.nexts]
      rw [this] at h5
      cases h5
      rfl
    have hblocks : blocks = [] := by
      rw [List.eq_nil_iff_forall_not_mem]
      intro b hb
      obtain ⟨i, hi, rfl⟩ := List.getElem_of_mem hb
      have hi' : i < L.length := by rw [h3.length_eq]; exact hi
      obtain ⟨x, y, hx, hy, ho, hg, hrec⟩ := (List.forall₂_iff_get.1 h3).2 i hi' hi
      simp only [List.get_eq_getElem] at hrec hx hy
      rcases hmem r hr _ (List.mem_of_getElem? hx) with ⟨m1, -, -, m2⟩ | ⟨m1, -, -, m2⟩ <;> rcases himg _ _ hy ho with ⟨n1, n2⟩ | ⟨n1, n2⟩ <;> rw [m1, n1] at hg
      · norm_num at hg
      · rw [recorded_none m2 n2] at hrec
        cases hrec
      · norm_num at hg
      · norm_num at hg
    rw [hbounds, hblocks, hnews] at h1
    simpa using h1
  obtain ⟨ranks, hranks⟩ : ∃ ranks : List RankIn, ranks = (List.range C.place.g.n).map fun r => ⟨(numbered C.place.g.n q.P r).map fun y => (D, y), none, none, f r,
    6 * (Place.total q.P r : ℤ), 6 * (Place.total q.P (r + 1) : ℤ) - 1, matrixWrites (f r), vectorWrites (f r)⟩ := ⟨_, rfl⟩
  have hget : ∀ r rk, ranks[r]? = some rk → r < C.place.g.n ∧ rk = ⟨(numbered C.place.g.n q.P r).map fun y => (D, y), none, none, f r,
    6 * (Place.total q.P r : ℤ), 6 * (Place.total q.P (r + 1) : ℤ) - 1, matrixWrites (f r), vectorWrites (f r)⟩ := by
    intro r rk hrk
    rw [hranks, List.getElem?_map] at hrk
    obtain ⟨a, ha, rfl⟩ := Option.map_eq_some_iff.1 hrk
    obtain ⟨h1, h2⟩ := List.getElem?_eq_some_iff.1 ha
    rw [List.length_range] at h1
    rw [List.getElem_range] at h2
    subst h2
    exact ⟨h1, rfl⟩
  have hmemr : ∀ rk ∈ ranks, ∃ r < C.place.g.n, rk = ⟨(numbered C.place.g.n q.P r).map fun y => (D, y), none, none, f r,
    6 * (Place.total q.P r : ℤ), 6 * (Place.total q.P (r + 1) : ℤ) - 1, matrixWrites (f r), vectorWrites (f r)⟩ := by
    intro rk hrk
    obtain ⟨i, hi, rfl⟩ := List.getElem_of_mem hrk
    obtain ⟨h1, h2⟩ := hget i _ (List.getElem?_eq_getElem hi)
    exact ⟨i, h1, h2⟩
  have hin : C91_Input C false q (s.dir.buildIndex order) (fun r => Force.plainExec 3 ((numbered C.place.g.n q.P r).map toEp)) ranks := by
    refine ⟨by rw [hranks]; simp, ?_, ?_, ?_, ?_, ?_, ?_⟩
    · intro r rk hrk
      obtain ⟨-, rfl⟩ := hget r rk hrk
      rw [List.map_map]
      exact List.map_id' _
    · intro r rk hrk
      obtain ⟨hr, rfl⟩ := hget r rk hrk
      exact hf r hr
    · intro rk hrk
      obtain ⟨r, hr, rfl⟩ := hmemr rk hrk
      exact ⟨fun f hf => by simp at hf, fun f hf => by simp at hf⟩
    · intro r rk hrk
      obtain ⟨-, rfl⟩ := hget r rk hrk
      exact ⟨rfl, rfl⟩
    · intro rk hrk
      obtain ⟨r, hr, rfl⟩ := hmemr rk hrk
      exact List.Perm.refl _
    · intro rk hrk
      obtain ⟨r, hr, rfl⟩ := hmemr rk hrk
      exact List.Perm.refl _
  have hbig : 6 * ((all C.place.g.n twoRods).length : ℤ) ≤ 2 ^ 31 - 1 := by rw [hn, twoRods_all]; norm_num
  have hnil : ∀ rk ∈ ranks, rk.pool.flatten = [] := by
    intro rk hrk
    obtain ⟨r, hr, rfl⟩ := hmemr rk hrk
    exact hempty r hr
  have hfit : ∀ rk ∈ ranks, (((rk.pool.flatten.map (fun b => if b.oneSide then 6 else 12)).sum : ℕ) : ℤ) ≤ 2 ^ 31 - 1 := by
    intro rk hrk
    rw [hnil rk hrk]
    norm_num
  have hnone : ∀ rk ∈ ranks, rk.force = none ∧ rk.velPart = none := by
    intro rk hrk
    obtain ⟨r, hr, rfl⟩ := hmemr rk hrk
    exact ⟨rfl, rfl⟩
  obtain ⟨out, s', hs'⟩ := hstep false ranks hin hbig hfit
  obtain ⟨hconv, -, hrest⟩ := rest_converged h hch hres hK hs' hq hbig hfit hnone (fun rk hrk b hb => by rw [hnil rk hrk] at hb; cases hb)
  -- the bodies afterwards
  have hafter : ∀ u ∈ all C.place.g.n s'.sys.P, (u.gid = 7 ∧ u.pos = slanted.pos ∧ u.orientation = slanted.orientation ∧ Slanted (EP.copyFromFP u)) ∨
      (u.gid = 9 ∧ u.pos = level.pos ∧ u.orientation = level.orientation ∧ Level (EP.copyFromFP u)) := by
    intro u hu
    obtain ⟨hv0, hw0⟩ := hrest u hu
    obtain ⟨r, hrn, hu⟩ := mem_all.1 hu
    obtain ⟨-, h1⟩ := step_bodies hs' h hq
    obtain ⟨so, h2, -, h4, h5⟩ := h1 r hrn
    have hP : s'.sys.P r = so.moved := by rw [hs'.moved]; simp only [after, h2]; rfl
    rw [hP] at hu
    obtain ⟨i, hi, rfl⟩ := List.getElem_of_mem hu
    have hlt : i < (numbered C.place.g.n q.P r).length := by rw [numbered_length _ _ _ hrn]; omega
    have hx := List.getElem?_eq_getElem hlt
    generalize (numbered C.place.g.n q.P r)[i] = x at hx
    obtain ⟨t, u, k1, k2, -, k4, k5, k6, k7⟩ := h5 i x hx
    have hu' : so.moved[i] = u := by rw [List.getElem?_eq_getElem hi] at k2; exact Option.some.inj k2
    rw [hu'] at hv0 hw0 ⊢
    rw [hfree] at k7
    simp only [Bool.false_eq_true, if_false] at k7
    have tv : t.vel = 0 := by rw [k7] at hv0; exact hv0
    have tw : t.omega = 0 := by rw [k7] at hw0; exact hw0
    have up : u.pos = x.pos := by
      rw [k7]
      show t.pos + C.mob.dt • t.vel = _
      rw [tv, k5]
      ext <;> simp
    have uo : u.orientation = x.orientation := by
      rw [k7]
      show Equatn.rotateEquatn t.orientation t.omega C.mob.dt = _
      rw [tw, C13_small _ _ _ (by norm_num [V3.norm, V3.normSq, V3.dot, Equatn.fltEps]), k6]
    have ug : u.gid = x.gid := by rw [k7]; exact k4.gid
    have e1 : u.lengthCollision = x.lengthCollision := by rw [k7]; exact k4.lengthCollision
    have e2 : u.radiusCollision = x.radiusCollision := by rw [k7]; exact k4.radiusCollision
    have e3 : u.colBuf = x.colBuf := by rw [k7]; exact k4.colBuf
    rcases hmem r hrn x (List.mem_of_getElem? hx) with ⟨g1, g2, g3, g4⟩ | ⟨g1, g2, g3, g4⟩
    · exact .inl ⟨ug.trans g1, up.trans g2, uo.trans g3, .of (up.trans g2) (uo.trans g3) (e1.trans g4.length) (e2.trans g4.radius) (e3.trans g4.colBuf)⟩
    · exact .inr ⟨ug.trans g1, up.trans g2, uo.trans g3, .of (up.trans g2) (uo.trans g3) (e1.trans g4.length) (e2.trans g4.radius) (e3.trans g4.colBuf)⟩
  have hr' : Sim.Run (Sim.Ok (fun _ => false) (fun _ => 0) (fun _ => 10)) id C twoRods C twoRods 0 s' :=
    .step C twoRods 0 s q ranks out s' hrun h (fun _ => by rw [hC]; rfl) hs'
  have hex : ∀ g : ℤ, (g = 7 ∨ g = 9) → ∃ x ∈ all C.place.g.n s'.sys.P, x.gid = g := by
    intro g hg
    have h1 : g ∈ ((all C.place.g.n twoRods).map kind).map Prod.fst := by
      rw [hn, twoRods_all]
      rcases hg with rfl | rfl <;> simp [kind, slanted, level, Sylinder.make]
    have h2 := ((Sim.run_inv hr').kinds.map Prod.fst).symm.subset h1
    obtain ⟨e, he, rfl⟩ := List.mem_map.1 h2
    obtain ⟨b, hb, rfl⟩ := List.mem_map.1 he
    exact ⟨b, hb, rfl⟩
  refine ⟨q, ranks, out, s', hs', ?_, hconv, fun rk hrk => ⟨hnil rk hrk, hnone rk hrk⟩, ?_⟩
  · intro u hu
    rcases hafter u hu with ⟨g1, g2, g3, -⟩ | ⟨g1, g2, g3, -⟩
    · exact .inl ⟨g1, g2, g3⟩
    · exact .inr ⟨g1, g2, g3⟩
  · obtain ⟨x, hx, gx⟩ := hex 7 (.inl rfl)
    obtain ⟨y, hy, gy⟩ := hex 9 (.inr rfl)
    refine ⟨x, hx, y, hy, gx, gy, ?_, ?_⟩
    · rcases hafter x hx with ⟨-, -, -, g⟩ | ⟨g, -⟩
      · exact g
      · rw [gx] at g; norm_num at g
    · rcases hafter y hy with ⟨g, -⟩ | ⟨-, -, -, g⟩
      · rw [gy] at g; norm_num at g
      · exact g

end Missed

/-- C84, C89 and C91 are false for rods: a run of any length in which two rods overlap by three tenths (their radius is 2/5) after every step.  In each step no contact is
recorded (C84), so the solver has nothing to do and is converged with residual zero, and the rods stay where they are (C89, C91).  Everything else that these properties ask
for is given (`Sound`). -/
theorem C91_rods_false : ∃ (C : Sim.Cfg) (P₀ : ℕ → List Sylinder) (f : ℕ → Sim.State), Sim.Sound C (fun _ => false) (fun _ => 0) (fun _ => 10) P₀ ∧ C.mob.sylinderFixed = false ∧
    ∀ n, Sim.Run (Sim.Ok (fun _ => false) (fun _ => 0) (fun _ => 10)) id C P₀ C P₀ 0 (f n) ∧
      ∃ q ranks out, Sim.Step C id false (f n) q ranks out (f (n + 1)) ∧ Sim.Converged C id out 0 ∧ (∀ rk ∈ ranks, rk.pool.flatten = []) ∧
        ∃ x ∈ all C.place.g.n (f (n + 1)).sys.P, ∃ y ∈ all C.place.g.n (f (n + 1)).sys.P, x.gid ≠ y.gid ∧
          Spec.Near.Rad (EP.copyFromFP x) = 2 / 5 ∧ Spec.Near.Rad (EP.copyFromFP y) = 2 / 5 ∧ Spec.Near.Separation (EP.copyFromFP x) (EP.copyFromFP y) (-(3 / 10)) := by
  obtain ⟨d, h, hper⟩ := sound
  obtain ⟨s1, s2, d1, d2⟩ := (C83_progress (cfg d).place _ _ _ h.place twoRods h.enough).1 (fun _ => (cfg d).place.root) _ _ (Place.plain_valid (cfg d).place) (Place.plain_valid (cfg d).place)
  have hrun : Sim.Run (Sim.Ok (fun _ => false) (fun _ => 0) (fun _ => 10)) id (cfg d) twoRods (cfg d) twoRods 0 ⟨s2, Links.Dir.empty, 0⟩ :=
    .start _ _ _ s1 s2 h (Place.plain_valid _) (Place.plain_valid _) d1 d2
  have hst : Stuck (all 1 s2.P) := by
    intro b hb
    obtain ⟨a, ha, e1, e2, e3⟩ := start_pos h (Place.plain_valid _) (Place.plain_valid _) d1 d2 b hb
    refine carry e1 e2 (fun k hk => (e3 k).2 rfl hk) ?_
    have ha : a ∈ all 1 twoRods := ha
    rw [twoRods_all] at ha
    simp only [List.mem_cons, List.not_mem_nil, or_false] at ha
    rcases ha with rfl | rfl
    · exact .inl ⟨rfl, rfl, rfl⟩
    · exact .inr ⟨rfl, rfl, rfl⟩
  let T := { s : Sim.State // Sim.Run (Sim.Ok (fun _ => false) (fun _ => 0) (fun _ => 10)) id (cfg d) twoRods (cfg d) twoRods 0 s ∧ Stuck (all 1 s.sys.P) }
  have hnext : ∀ s : T, ∃ s' : T, ∃ q ranks out, Sim.Step (cfg d) id false s.1 q ranks out s'.1 ∧ Sim.Converged (cfg d) id out 0 ∧ (∀ rk ∈ ranks, rk.pool.flatten = []) ∧
      ∃ x ∈ all 1 s'.1.sys.P, ∃ y ∈ all 1 s'.1.sys.P, x.gid = 7 ∧ y.gid = 9 ∧ Slanted (EP.copyFromFP x) ∧ Level (EP.copyFromFP y) := by
    rintro ⟨s, hs, hs'⟩
    obtain ⟨q, ranks, out, s', g1, g2, g3, g4, g5⟩ := step ⟨0, 0, 0, 0⟩ h hper s hs hs'
    exact ⟨⟨s', .step (cfg d) twoRods 0 s q ranks out s' hs h (fun _ => rfl) g1, g2⟩, q, ranks, out, g1, g3, fun rk hrk => (g4 rk hrk).1, g5⟩
  choose next hnext using hnext
  refine ⟨cfg d, twoRods, fun n => (next^[n] ⟨_, hrun, hst⟩).1, h, rfl, fun n => ⟨(next^[n] ⟨_, hrun, hst⟩).2.1, ?_⟩⟩
  obtain ⟨q, ranks, out, g1, g3, g4, x, hx, y, hy, gx, gy, h1, h2⟩ := hnext (next^[n] ⟨_, hrun, hst⟩)
  rw [← Function.iterate_succ_apply' next n] at g1 hx hy
  refine ⟨q, ranks, out, g1, g3, g4, x, hx, y, hy, by rw [gx, gy]; norm_num, ?_, ?_, overlap h1 h2⟩
  · unfold Spec.Near.Rad
    rw [if_neg h1.rod, h1.radius]
  · unfold Spec.Near.Rad
    rw [if_neg h2.rod, h2.radius]

end Verif
