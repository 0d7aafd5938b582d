import Verif.Props.Rest
/-!
C90, C91: a run in which a rod pierces an obstacle for ever (an application of C113).
-/
namespace Verif
open Domain Near Collector RunStep Mobility Collide Sim Rest

namespace Obstacle

/-- A rod along z. -/
noncomputable def rod : Sylinder := Sylinder.make 7 (1 / 10) (1 / 10) 4 4 ⟨5, 5, 5⟩ ⟨1, 0, 0, 0⟩ (3 / 10)

/-- A ball with the centre of the rod as its centre; bodies should be outside of it. -/
noncomputable def ball : BoundaryCol.Bound := .sphere ⟨⟨5, 5, 5⟩, 1, false⟩

noncomputable def oneRod : ℕ → List Sylinder := fun r => if r = 0 then [rod] else []

theorem oneRod_all : all 1 oneRod = [rod] := by simp [all, oneRod]

noncomputable def cfg (d : Stats.Domain) : Sim.Cfg :=
  ⟨⟨⟨1, 1, 1⟩, d, 0.5, 400, insertSort, 1, 1, 3 / 10, false, 0.5, id⟩, C88_cfg, ⟨fun _ => false, fun _ => 0, fun _ => 10, 0.02, 1⟩, [], [ball], ⟨1 / 10 ^ 5, 100, 0⟩, ⟨100, 1, 2, 3⟩, 0⟩

theorem rod_sized (d : Stats.Domain) : sized (cfg d) rod = rod := by
  unfold sized cfg rod Sylinder.make
  simp

theorem rod_direction : rod.direction = ⟨0, 0, 1⟩ := by
  simp [Sylinder.direction, rod, Sylinder.make, Quat.rot, Quat.vec, V3.cross]
  ext <;> simp

theorem not_sphere : ¬ Spec.Near.Sphere (EP.copyFromFP rod) := by
  show ¬ (4 : ℝ) < 2 * (1 / 10)
  norm_num

theorem sound : ∃ d, Sim.Sound (cfg d) (fun _ => false) (fun _ => 0) (fun _ => 10) oneRod ∧ ∀ k, d.periodic k = false := by
  obtain ⟨d, hd, hp, -, -⟩ := (C56_axes (fun _ => false) (fun _ => 0) (fun _ => 10)).1 (fun _ => by norm_num)
  have hn : (cfg d).place.g.n = 1 := rfl
  have hall : ∀ b ∈ all (cfg d).place.g.n oneRod, b = rod := by
    intro b hb
    rw [hn, oneRod_all] at hb
    simpa using hb
  have hs1 : rod.radius = 1 / 10 := rfl
  have hs2 : rod.length = 4 := rfl
  have hs3 : rod.colBuf = 3 / 10 := rfl
  have hbig : (10 : ℝ) ≤ BCQP.dblMax / 10 := by
    unfold BCQP.dblMax
    have : (2 : ℝ) ^ 10 ≤ 2 ^ 1023 := pow_le_pow_right₀ (by norm_num) (by norm_num)
    generalize (2 : ℝ) ^ 1023 = w at *
    norm_num at *
    linarith
  refine ⟨d, ⟨⟨hd, fun _ h => by simp at h, le_rfl, le_rfl, le_rfl, by norm_num [cfg], insertSort_sorts, by simp [cfg, Grid.n]⟩,
    .inl ⟨rfl, rfl⟩, ?_, by norm_num [cfg, C88_cfg, C43_cfg], by norm_num [cfg, C88_cfg, C43_cfg], ?_, ?_, ?_, ⟨1 / 10, ?_, ?_, ?_⟩, ?_, ⟨rfl, rfl, rfl⟩⟩, hp⟩
  · show 1 ≤ Place.total oneRod 1
    simp [Place.total, oneRod]
  · intro b hb
    rw [hall b hb]
    exact ⟨by rw [hs1]; norm_num, by rw [hs2]; norm_num, by norm_num [rod, Sylinder.make, Spec.UnitQuat, Quat.normSq]⟩
  · intro b hb
    rw [hall b hb, rod_sized]
    refine ⟨⟨by show (0 : ℝ) < 1 / 10; norm_num, by show (0 : ℝ) ≤ 4; norm_num, ?_⟩, by rw [hs1]; norm_num, by rw [hs2]; norm_num, by rw [hs3]; norm_num, fun h => absurd h not_sphere⟩
    show V3.norm rod.direction = 1
    rw [rod_direction]
    norm_num [V3.norm, V3.normSq, V3.dot]
  · refine ⟨by norm_num [cfg], by norm_num [cfg], by norm_num [cfg], ?_, ?_⟩
    · intro k hk
      rw [show (cfg d).place.d.periodic k = d.periodic k from rfl, hp k] at hk
      simp at hk
    · intro hk
      rw [show (cfg d).place.d.periodic 0 = d.periodic 0 from rfl, hp 0] at hk
      simp at hk
  · intro b hb
    rw [hall b hb, rod_sized]
    unfold Spec.Near.Rad
    rw [if_neg not_sphere]
    exact ⟨le_rfl, le_rfl⟩
  · linarith
  · show 2 * (1 / 10) + 0.02 ≤ BCQP.dblMax / 10
    norm_num at *
    linarith
  · intro l hl
    simp [cfg] at hl

theorem end_far (p : V3) (hp : Spec.BoundaryCol.End rod p) : ¬ Spec.BoundaryCol.Singular ball p ∧ Spec.BoundaryCol.sd ball p = 1 := by
  have h4 : √(4 : ℝ) = 2 := by rw [show (4 : ℝ) = 2 ^ 2 by norm_num]; exact Real.sqrt_sq (by norm_num)
  have hp' : p = ⟨5, 5, 3⟩ ∨ p = ⟨5, 5, 7⟩ := by
    rcases hp with ⟨h, -⟩ | ⟨-, h⟩
    · exact absurd h not_sphere
    · rw [rod_direction] at h
      rcases h with rfl | rfl
      · left
        ext <;> norm_num [rod, Sylinder.make]
      · right
        ext <;> norm_num [rod, Sylinder.make]
  rcases hp' with rfl | rfl
  · refine ⟨?_, ?_⟩
    · norm_num [Spec.BoundaryCol.Singular, ball]
    · norm_num [Spec.BoundaryCol.sd, ball, V3.norm, V3.normSq, V3.dot, h4]
  · refine ⟨?_, ?_⟩
    · norm_num [Spec.BoundaryCol.Singular, ball]
    · norm_num [Spec.BoundaryCol.sd, ball, V3.norm, V3.normSq, V3.dot, h4]

theorem calm (d : Stats.Domain) : Calm (cfg d) [rod] := by
  refine ⟨?_, ?_, ?_, ?_⟩
  · intro x hx k
    rw [List.mem_singleton.1 hx]
    have : Near.comp rod.pos k = 5 := by fin_cases k <;> rfl
    rw [this]
    norm_num [Stats.largeFloat]
  · intro x hx y hy hg
    rw [List.mem_singleton.1 hx, List.mem_singleton.1 hy] at hg
    exact absurd rfl hg
  · intro b hb
    rw [show b = ball from List.mem_singleton.1 hb]
    refine ⟨by norm_num [ball, Spec.BoundaryCol.ValidBound], fun x hx p hp => ?_⟩
    rw [List.mem_singleton.1 hx] at hp ⊢
    refine ⟨(end_far p hp).1, ?_⟩
    rw [(end_far p hp).2]
    unfold Spec.BoundaryCol.Rad
    rw [if_neg (show ¬ Spec.BoundaryCol.Sphere rod from not_sphere)]
    show (1 / 10 : ℝ) ≤ 1
    norm_num
  · intro e he
    simp [cfg] at he

/-- The rod is where it was at the beginning. -/
def Stuck (l : List Sylinder) : Prop := ∀ b ∈ l, kind b = kind rod ∧ b.pos = rod.pos ∧ b.orientation = rod.orientation

theorem carry {a b : Sylinder} (hk : kind b = kind a) (ho : b.orientation = a.orientation)
    (hp : ∀ k : Fin 3, |Near.comp a.pos k| < Stats.largeFloat → Near.comp b.pos k = Near.comp a.pos k)
    (ha : kind a = kind rod ∧ a.pos = rod.pos ∧ a.orientation = rod.orientation) : kind b = kind rod ∧ b.pos = rod.pos ∧ b.orientation = rod.orientation := by
  refine ⟨hk.trans ha.1, ?_, ho.trans ha.2.2⟩
  rw [← ha.2.1]
  refine comp_ext fun k => hp k ?_
  rw [ha.2.1]
  have : Near.comp rod.pos k = 5 := by fin_cases k <;> rfl
  rw [this]
  norm_num [Stats.largeFloat]

/-- One step. -/
theorem step {d : Stats.Domain} (h : Sim.Sound (cfg d) (fun _ => false) (fun _ => 0) (fun _ => 10) oneRod) (s : Sim.State)
    (hrun : Sim.Run (Sim.Ok (fun _ => false) (fun _ => 0) (fun _ => 10)) id (cfg d) oneRod (cfg d) oneRod 0 s) (hst : Stuck (all 1 s.sys.P)) :
    ∃ q ranks out s', Sim.Step (cfg d) id false s q ranks out s' ∧ Calm (cfg d) (all 1 q.P) ∧ C113_Free (cfg d) oneRod ranks ∧ Stuck (all 1 s'.sys.P) ∧ (∃ u ∈ all 1 s'.sys.P, Same u rod) ∧
      Sim.Converged (cfg d) id out 0 ∧ (∀ rk ∈ ranks, rk.pool.flatten = []) := by
  obtain ⟨C, hC⟩ : ∃ C, C = cfg d := ⟨_, rfl⟩
  have hn : C.place.g.n = 1 := by rw [hC]; rfl
  have hch : C.ctl.choice ≠ 1 := by rw [hC]; simp [cfg]
  have hres : 0 < C.ctl.res := by rw [hC]; norm_num [cfg]
  have hmono : C.place.monolayer = false := by rw [hC]; rfl
  have hbounds : C.bounds = [ball] := by rw [hC]; rfl
  have hlinks : C.linkMap = [] := by rw [hC]; rfl
  have hF : C.F = ⟨100, 1, 2, 3⟩ := by rw [hC]; rfl
  have hK : C.mob.KBT ≤ 0 := by rw [hC]; norm_num [cfg, C88_cfg]
  have hbuf : C.place.colBuf = 3 / 10 := by rw [hC]; rfl
  have hratio : C.place.diameterColRatio = 1 ∧ C.place.lengthColRatio = 1 := by rw [hC]; exact ⟨rfl, rfl⟩
  have hcalm0 : Calm C [rod] := by rw [hC]; exact calm d
  rw [← hn] at hst ⊢
  rw [← hC] at h hrun ⊢
  have hvalid : ∀ b ∈ C.bounds, Spec.BoundaryCol.ValidBound b := fun b hb => (hcalm0.bounds b hb).1
  obtain ⟨-, prog⟩ := C91_progress h hch hres hvalid
  obtain ⟨⟨q, hpq⟩, -⟩ := prog C oneRod 0 s hrun _ (Place.plain_valid C.place)
  have hi := Sim.run_inv hrun
  have hq := Sim.prepare h hi (Place.plain_valid C.place) hpq
  have hsame : ∀ b ∈ all C.place.g.n q.P, Same b rod := by
    intro b hb
    obtain ⟨a, ha, e1, e2, e3⟩ := prepare_pos h hmono hi (Place.plain_valid C.place) hpq b hb
    obtain ⟨g1, g2, g3⟩ := carry e1 e2 (fun k hk => (e3 k).2 rfl hk) (hst a ha)
    obtain ⟨r, hr, hbr⟩ := mem_all.1 hb
    obtain ⟨w, hw⟩ := hq.fresh r hr b hbr
    have hk := g1
    simp only [kind, Prod.mk.injEq] at hk
    have k1 : b.radius = 1 / 10 := hk.2.2.2.1
    have k2 : b.length = 4 := hk.2.2.2.2
    refine ⟨g1, g2, g3, ?_, ?_⟩
    · have : b.radiusCollision = b.radius * C.place.diameterColRatio := by rw [hw]; rfl
      rw [this, k1, hratio.1]
      norm_num [rod, Sylinder.make]
    · have : b.lengthCollision = b.length * C.place.lengthColRatio := by rw [hw]; rfl
      rw [this, k2, hratio.2]
      norm_num [rod, Sylinder.make]
  have hcalm : Calm C (all C.place.g.n q.P) := hcalm0.congr fun b hb => ⟨rod, by simp, hsame b hb⟩
  have hreg : ∀ b, Same b rod → BoundaryCol.Regular ball b := by
    intro b hb p hp
    obtain ⟨g1, g2⟩ := end_far p ((hb.ends p).1 hp)
    exact ⟨g1, by rw [g2]; norm_num⟩
  obtain ⟨order, horder⟩ : ∃ order, order = (List.range C.place.g.n).flatMap fun r => Links.published (numbered C.place.g.n q.P r) := ⟨_, rfl⟩
  have hX : ∀ r < C.place.g.n, (Force.plainExec 3 ((numbered C.place.g.n q.P r).map toEp)).Valid C.F ((numbered C.place.g.n q.P r).map toEp) := by
    rw [hF]
    exact fun r _ => Force.plainExec_valid (c := ⟨100, 1, 2, 3⟩) (by norm_num) _
  have hnum : ∀ r < C.place.g.n, ∀ x ∈ numbered C.place.g.n q.P r, Same x rod := by
    intro r hr x hx
    obtain ⟨b, hb, g, rfl⟩ := numbered_mem _ _ _ _ hx
    have := hsame b (mem_all.2 ⟨r, hr, hb⟩)
    exact ⟨this.kind, this.pos, this.orientation, this.radiusCollision, this.lengthCollision⟩
  have hempty : ∀ X : ℕ → Force.RankExec EP, (∀ r < C.place.g.n, (X r).Valid C.F ((numbered C.place.g.n q.P r).map toEp)) → ∀ ord : List (ℤ × EP),
      ord.Perm ((List.range C.place.g.n).flatMap fun r => Links.published (numbered C.place.g.n q.P r)) → ∀ r < C.place.g.n, ∀ pool,
      Collects C q.dec.dom (numbered C.place.g.n q.P) (s.dir.buildIndex ord) X r pool → pool.flatten = [] := by
    intro X hX ord hord r hr pool hpool
    obtain ⟨L, blocks, news, h1, -, h3, -, h5⟩ := Layout.pool_exact hq h s.dir ord hord X hX hr pool hpool
    have hnews : news = [] := by
      have : linkPairs C.linkMap (numbered C.place.g.n q.P r) = [] := by
        rw [hlinks]
        simp [linkPairs, Links.nexts]
      rw [this] at h5
      cases h5
      rfl
    have hblocks : blocks = [] := by
      rw [List.eq_nil_iff_forall_not_mem]
      intro b hb
      obtain ⟨i, hi, rfl⟩ := List.getElem_of_mem hb
      have hi' : i < L.length := by rw [h3.length_eq]; exact hi
      obtain ⟨x, y, hx, hy, ho, hg, hrec⟩ := (List.forall₂_iff_get.1 h3).2 i hi' hi
      simp only [List.get_eq_getElem] at hrec hx hy ho
      obtain ⟨z, hz, rfl⟩ := Option.map_eq_some_iff.1 hy
      have m1 := (hnum r hr x (List.mem_of_getElem? hx)).parts.1
      have m2 := (hnum _ ho.1 z (List.mem_of_getElem? hz)).parts.1
      have hg' : x.gid < z.gid := hg
      rw [m1, m2] at hg'
      exact absurd hg' (lt_irrefl _)
    have hwall : C.bounds.flatMap (fun b => (numbered C.place.g.n q.P r).flatMap fun y => (BoundaryCol.bodyBlocks b C.place.colBuf y).getD []) = [] := by
      rw [List.eq_nil_iff_forall_not_mem]
      intro b hb
      obtain ⟨bd, hbd, hb⟩ := List.mem_flatMap.1 hb
      obtain ⟨y, hy, hb⟩ := List.mem_flatMap.1 hb
      have hs := hnum r hr y hy
      have hv := hvalid bd hbd
      rw [hbounds] at hbd
      obtain rfl := List.mem_singleton.1 hbd
      have hR : y.radiusCollision = 1 / 10 := hs.radiusCollision
      obtain ⟨l, e1, e2, -⟩ := BoundaryCol.bodyBlocks_spec ball hv C.place.colBuf (by rw [hbuf]; norm_num) y (by rw [hR]; norm_num) (hreg y hs)
      rw [e1, Option.getD_some] at hb
      obtain ⟨p, hp, hlt, -⟩ := e2 b hb
      rw [(end_far p ((hs.ends p).1 hp)).2, hR, hbuf] at hlt
      norm_num at hlt
    rw [hwall, hblocks, hnews] at h1
    simpa using h1
  have hbig : 6 * ((all C.place.g.n oneRod).length : ℤ) ≤ 2 ^ 31 - 1 := by rw [hn, oneRod_all]; norm_num
  obtain ⟨ranks, out, s', hs', hfree⟩ := C113_progress h hch hres 0 s hrun _ (Place.plain_valid C.place) q hpq hvalid
    (fun y hy b hb => by rw [hbounds] at hb; rw [List.mem_singleton.1 hb]; exact hreg y (hsame y hy)) order (List.Perm.of_eq horder) _ hX hbig
    (fun r hr pool hp => by rw [hempty _ hX order (List.Perm.of_eq horder) r hr pool hp]; norm_num) ⟨0, 0, 0, 0⟩
  obtain ⟨g1, -, g3⟩ := C113_step h hch hres hK 0 s hrun false q ranks out s' hs' hfree hcalm
  have hafter : ∀ u ∈ all C.place.g.n s'.sys.P, Same u rod := by
    intro u hu
    obtain ⟨r, hr, hu⟩ := mem_all.1 hu
    obtain ⟨j, hj, rfl⟩ := List.getElem_of_mem hu
    obtain ⟨y, hy, y1, y2, y3, y4, y5, -⟩ := (g3 r hr).2 j _ (List.getElem?_eq_getElem hj)
    have := hsame y (mem_all.2 ⟨r, hr, List.mem_of_getElem? hy⟩)
    exact ⟨y1.trans this.kind, y2.trans this.pos, y3.trans this.orientation, y4.trans this.radiusCollision, y5.trans this.lengthCollision⟩
  refine ⟨q, ranks, out, s', hs', hcalm, hfree, fun u hu => ⟨(hafter u hu).kind, (hafter u hu).pos, (hafter u hu).orientation⟩, ?_, g1, ?_⟩
  · have hr' : Sim.Run (Sim.Ok (fun _ => false) (fun _ => 0) (fun _ => 10)) id C oneRod C oneRod 0 s' :=
      .step C oneRod 0 s q ranks out s' hrun h (fun _ => by rw [hC]; rfl) hs'
    have hlen := (Sim.run_inv hr').kinds.length_eq
    rw [List.length_map, List.length_map, hn, oneRod_all, ← hn] at hlen
    obtain ⟨u, hu⟩ := List.exists_mem_of_length_pos (l := all C.place.g.n s'.sys.P) (by rw [hlen]; simp)
    exact ⟨u, hu, hafter u hu⟩
  · intro rk hrk
    obtain ⟨r, hr, rfl⟩ := List.getElem_of_mem hrk
    obtain ⟨ord, ho, hdir⟩ := hs'.publish
    obtain ⟨X, hX, hcol⟩ := hs'.collect
    rw [hdir] at hcol
    exact hempty X hX ord ho r (by rw [← hs'.size]; exact hr) _ (hcol r _ (List.getElem?_eq_getElem hr))

/-- The run. -/
theorem run : ∃ (d : Stats.Domain) (f : ℕ → Sim.State), Sim.Sound (cfg d) (fun _ => false) (fun _ => 0) (fun _ => 10) oneRod ∧
    ∀ n, Sim.Run (Sim.Ok (fun _ => false) (fun _ => 0) (fun _ => 10)) id (cfg d) oneRod (cfg d) oneRod 0 (f n) ∧ Stuck (all 1 (f n).sys.P) ∧
      ∃ q ranks out, Sim.Step (cfg d) id false (f n) q ranks out (f (n + 1)) ∧ Calm (cfg d) (all 1 q.P) ∧ C113_Free (cfg d) oneRod ranks ∧ Sim.Converged (cfg d) id out 0 ∧
        (∀ rk ∈ ranks, rk.pool.flatten = []) ∧ ∃ u ∈ all 1 (f (n + 1)).sys.P, Same u rod := by
  obtain ⟨d, h, -⟩ := sound
  obtain ⟨s1, s2, d1, d2⟩ := (C83_progress (cfg d).place _ _ _ h.place oneRod h.enough).1 (fun _ => (cfg d).place.root) _ _ (Place.plain_valid (cfg d).place) (Place.plain_valid (cfg d).place)
  have hrun : Sim.Run (Sim.Ok (fun _ => false) (fun _ => 0) (fun _ => 10)) id (cfg d) oneRod (cfg d) oneRod 0 ⟨s2, Links.Dir.empty, 0⟩ :=
    .start _ _ _ s1 s2 h (Place.plain_valid _) (Place.plain_valid _) d1 d2
  have hst : Stuck (all 1 s2.P) := by
    intro b hb
    obtain ⟨a, ha, e1, e2, e3⟩ := start_pos h (Place.plain_valid _) (Place.plain_valid _) d1 d2 b hb
    refine carry e1 e2 (fun k hk => (e3 k).2 rfl hk) ?_
    have ha : a ∈ all 1 oneRod := ha
    rw [oneRod_all] at ha
    rw [List.mem_singleton.1 ha]
    exact ⟨rfl, rfl, rfl⟩
  let T := { s : Sim.State // Sim.Run (Sim.Ok (fun _ => false) (fun _ => 0) (fun _ => 10)) id (cfg d) oneRod (cfg d) oneRod 0 s ∧ Stuck (all 1 s.sys.P) }
  have hnext : ∀ s : T, ∃ s' : T, ∃ q ranks out, Sim.Step (cfg d) id false s.1 q ranks out s'.1 ∧ Calm (cfg d) (all 1 q.P) ∧ C113_Free (cfg d) oneRod ranks ∧
      Sim.Converged (cfg d) id out 0 ∧ (∀ rk ∈ ranks, rk.pool.flatten = []) ∧ ∃ u ∈ all 1 s'.1.sys.P, Same u rod := by
    rintro ⟨s, hs, hs'⟩
    obtain ⟨q, ranks, out, s', g1, g2, g3, g4, g5, g6, g7⟩ := step h s hs hs'
    exact ⟨⟨s', .step (cfg d) oneRod 0 s q ranks out s' hs h (fun _ => rfl) g1, g4⟩, q, ranks, out, g1, g2, g3, g6, g7, g5⟩
  choose next hnext using hnext
  refine ⟨d, fun n => (next^[n] ⟨_, hrun, hst⟩).1, h, fun n => ⟨(next^[n] ⟨_, hrun, hst⟩).2.1, (next^[n] ⟨_, hrun, hst⟩).2.2, ?_⟩⟩
  obtain ⟨q, ranks, out, g1, g2⟩ := hnext (next^[n] ⟨_, hrun, hst⟩)
  rw [← Function.iterate_succ_apply' next n] at g1 g2
  exact ⟨q, ranks, out, g1, g2⟩

end Obstacle

/-- The case of `C113_rest`: any number of steps, with a body and a boundary. -/
example (n : ℕ) : ∃ (C : Sim.Cfg) (P₀ : ℕ → List Sylinder) (s : ℕ → Sim.State) (q : ℕ → Place.Sys) (ranks : ℕ → List RankIn) (out : ℕ → Out),
    Sim.Sound C (fun _ => false) (fun _ => 0) (fun _ => 10) P₀ ∧ C.place.monolayer = false ∧ C.ctl.choice ≠ 1 ∧ 0 < C.ctl.res ∧ C.mob.KBT ≤ 0 ∧
    (∀ i ≤ n, Sim.Run (Sim.Ok (fun _ => false) (fun _ => 0) (fun _ => 10)) id C P₀ C P₀ 0 (s i)) ∧ (∀ i ≤ n, Sim.Step C id false (s i) (q i) (ranks i) (out i) (s (i + 1))) ∧
    (∀ i ≤ n, C113_Free C P₀ (ranks i)) ∧ Calm C (all C.place.g.n (q 0).P) ∧ C.bounds ≠ [] := by
  obtain ⟨d, f, h, hf⟩ := Obstacle.run
  choose hr _ q ranks out hs hc hfree _ using hf
  exact ⟨Obstacle.cfg d, Obstacle.oneRod, f, q, ranks, out, h, rfl, by simp [Obstacle.cfg], by norm_num [Obstacle.cfg], by norm_num [Obstacle.cfg, C88_cfg], fun i _ => hr i,
    fun i _ => hs i, fun i _ => hfree i, hc 0, by simp [Obstacle.cfg]⟩

/-- C90 and C91 are false for a boundary that is not convex on the allowed side: a run of any length in which the middle of a rod is inside a ball that it should be outside of (at the
centre of the ball, as far inside as possible), after every step.  Only the ends of a rod are looked at, so in no step is there a constraint; the solver is converged with residual
zero and the rod stays where it is.  Everything else that these properties ask for is given (`Sound`, a valid boundary, ends away from it). -/
theorem C90_obstacle_false : ∃ (C : Sim.Cfg) (P₀ : ℕ → List Sylinder) (f : ℕ → Sim.State) (b : BoundaryCol.Bound), Sim.Sound C (fun _ => false) (fun _ => 0) (fun _ => 10) P₀ ∧
    C.mob.sylinderFixed = false ∧ C.bounds = [b] ∧ Spec.BoundaryCol.ValidBound b ∧
    ∀ n, Sim.Run (Sim.Ok (fun _ => false) (fun _ => 0) (fun _ => 10)) id C P₀ C P₀ 0 (f n) ∧
      ∃ q ranks out, Sim.Step C id false (f n) q ranks out (f (n + 1)) ∧ Sim.Converged C id out 0 ∧ (∀ rk ∈ ranks, rk.pool.flatten = []) ∧
        ∃ x ∈ all C.place.g.n (f (n + 1)).sys.P, Spec.BoundaryCol.Core x x.pos ∧ Spec.BoundaryCol.sd b x.pos = -1 ∧ Spec.BoundaryCol.Penetrates b x := by
  obtain ⟨d, f, h, hf⟩ := Obstacle.run
  refine ⟨Obstacle.cfg d, Obstacle.oneRod, f, Obstacle.ball, h, rfl, rfl, by norm_num [Obstacle.ball, Spec.BoundaryCol.ValidBound], fun n => ⟨(hf n).1, ?_⟩⟩
  obtain ⟨-, -, q, ranks, out, g1, -, -, g2, g3, x, hx, hs⟩ := hf n
  have hsd : Spec.BoundaryCol.sd Obstacle.ball x.pos = -1 := by
    rw [hs.pos]
    norm_num [Spec.BoundaryCol.sd, Obstacle.ball, Obstacle.rod, Sylinder.make, V3.norm, V3.normSq, V3.dot]
  have hns : ¬ Spec.BoundaryCol.Sphere x := by
    unfold Spec.BoundaryCol.Sphere
    rw [hs.radiusCollision, hs.lengthCollision]
    exact Obstacle.not_sphere
  have hcore : Spec.BoundaryCol.Core x x.pos := by
    refine .inr ⟨hns, 0, ?_, by ext <;> simp⟩
    rw [hs.lengthCollision]
    norm_num [Obstacle.rod, Sylinder.make]
  refine ⟨q, ranks, out, g1, g2, g3, x, hx, hcore, hsd, x.pos, x.pos, hcore, ?_, by rw [hsd]; norm_num⟩
  unfold Spec.BoundaryCol.Rad
  rw [if_neg hns, hs.radiusCollision]
  norm_num [Obstacle.rod, Sylinder.make, V3.norm, V3.normSq, V3.dot]

end Verif
