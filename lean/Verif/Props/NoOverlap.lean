import Verif.Lemmas.NoOverlap
/-!
C89: what a converged time step means for the shapes of the bodies.
-/
namespace Verif
open RunStep Mobility Collector Near Place Domain Collide Tree Image Spec.Near Spec.NoOverlap NoOverlap Spec.RunStep Spec.Collector

/-- The bodies of the ranks after the step. -/
noncomputable def C89_after (out : Out) (r : ℕ) : List Sylinder := ((out.steps[r]?).map StepOut.moved).getD []

/-- The bodies `S r` of the `n` ranks and the step `runStepAll` of all ranks, which converges: the residual of the last iteration is below the tolerance, and no
multiplier is at its upper bound.  `U g` and `W g` are the velocity and angular velocity of the body with global index `g` in this step. -/
structure C89_Converged (n : ℕ) (S : ℕ → List Sylinder) (cfg : Mobility.Cfg) (ctl : ConOp.Control) (fl : ℝ → ℝ) (ranks : List RankIn) (out : Out)
    (last : BCQP.Hist) (U W : ℤ → V3) : Prop where
  viscosity : 0 < cfg.viscosity
  dt : 0 < cfg.dt
  free : cfg.sylinderFixed = false
  mono : ¬ (cfg.monolayer = true ∧ cfg.KBT > 0)
  size : ranks.length = n
  bodies : ∀ r rk, ranks[r]? = some rk → rk.bodies.map Prod.snd = S r
  ready : ∀ r ∈ ranks, C88_Ready r
  matrix : ∀ r ∈ ranks, r.matOrder.Perm (matrixWrites r.pool)
  vector : ∀ r ∈ ranks, r.vecOrder.Perm (vectorWrites r.pool)
  index : ∀ (g : ℕ) (D : Draws) (s : Sylinder), (ranks.flatMap RankIn.bodies)[g]? = some (D, s) → s.globalIndex = g
  guess : ∀ r ∈ ranks, ∀ b ∈ r.pool.flatten, (b.bilateral = false → 0 ≤ b.gamma) ∧ -(10 : ℝ) ^ 8 ≤ b.gamma ∧ b.gamma ≤ BCQP.dblMax / 10
  step : ∃ sfuel, runStepAll cfg ctl fl sfuel ranks = some out
  lastEntry : out.history.getLast? = some last
  residual : last.res < ctl.res
  apgd : ctl.choice = 1 → last.res < BCQP.dblMax ∧ 2 ≤ out.history.length
  bound : ∀ p ∈ out.pools, ∀ b ∈ p.flatten, b.gamma ≤ fl (BCQP.dblMax / 10 - BCQP.dblEps * 100)
  velocity : ∀ so ∈ out.steps, ∀ t ∈ so.summed, U t.globalIndex = t.vel ∧ W t.globalIndex = t.omega

/-- Such a step in which every rank has the contacts that `collectPairCollision` finds (and whatever other constraints) in its pool. -/
structure C89_Step (c : Place.Cfg) (dom : ℕ → Box) (S : ℕ → List Sylinder) (F : Force.Config) (X : ℕ → Force.RankExec EP) (fuel : ℕ)
    (cfg : Mobility.Cfg) (ctl : ConOp.Control) (fl : ℝ → ℝ) (ranks : List RankIn) (out : Out) (last : BCQP.Hist) (U W : ℤ → V3) : Prop where
  converged : C89_Converged c.g.n S cfg ctl fl ranks out last U W
  collected : ∀ r rk, ranks[r]? = some rk → ∃ (thr : ℕ → ℕ) (pool₀ pool' : Pool), (∀ i, thr i < pool₀.length) ∧
    collectPairCollision F (dinfo c dom) S X thr r fuel pool₀ = some pool' ∧ ∀ b ∈ pool'.flatten, b ∈ rk.pool.flatten

/-- What the step does to a body and to the constraints of its rank. -/
theorem C89_Converged.use {n : ℕ} {S : ℕ → List Sylinder} {cfg : Mobility.Cfg} {ctl : ConOp.Control} {fl : ℝ → ℝ} {ranks : List RankIn} {out : Out}
    {last : BCQP.Hist} {U W : ℤ → V3} (hst : C89_Converged n S cfg ctl fl ranks out last U W) :
    (∀ (r j : ℕ) (z : Sylinder), r < n → (S r)[j]? = some z → ∃ z', (C89_after out r)[j]? = some z' ∧ Spec.Mobility.SameBody z' z ∧
      z'.pos = z.pos + cfg.dt • U z.globalIndex ∧ z'.orientation = Equatn.rotateEquatn z.orientation (W z.globalIndex) cfg.dt ∧ Spec.Mobility.Valid z) ∧
    ∀ (r : ℕ) (rk : RankIn) (b : Block), ranks[r]? = some rk → b ∈ rk.pool.flatten → b.bilateral = false →
      -(cfg.dt * last.res) ≤ b.delta0 + cfg.dt * gapRate U W b := by
  obtain ⟨hmu, hdt, hfix, hno, hlen, hbod, hready, hm, hvv, hidx, hguess, ⟨sfuel, hout⟩, hlast, hres, hap, hbd, hUW⟩ := hst
  obtain ⟨-, hsolve, hmove⟩ := C88_step_partial cfg hmu hdt ctl fl sfuel ranks hready hm hvv hidx hguess hno out hout last hlast hres hap U W hUW
  constructor
  · intro r j z hr hz
    have hr' : ranks[r]? = some (ranks[r]'(by omega)) := List.getElem?_eq_getElem _
    rw [← hbod r _ hr', List.getElem?_map, Option.map_eq_some_iff] at hz
    obtain ⟨⟨D, z0⟩, hz, rfl⟩ := hz
    obtain ⟨so, t, u, h1, h2, h3, -, h5, -, -, -, h6, -⟩ := hmove r j _ D z0 hr' hz
    refine ⟨u, ?_, h5.2, (h6 hfix).1, (h6 hfix).2, (hready _ (List.mem_of_getElem? hr')).1 _ (List.mem_of_getElem? hz)⟩
    unfold C89_after
    rw [h1]; exact h3
  · intro r rk blk hr hmem hbi
    obtain ⟨ql, hql, hbq⟩ := List.mem_flatten.1 hmem
    obtain ⟨a, ha, haq⟩ := List.getElem_of_mem hql
    obtain ⟨b, hb, hbb⟩ := List.getElem_of_mem hbq
    obtain ⟨p, q', b', g1, g2, g3, -, g5⟩ := hsolve r a b _ ql blk hr (by rw [← haq]; exact List.getElem?_eq_getElem ha)
      (by rw [← hbb]; exact List.getElem?_eq_getElem hb)
    have hb' : b' ∈ p.flatten := List.mem_flatten.2 ⟨q', List.mem_of_getElem? g2, List.mem_of_getElem? g3⟩
    exact ((g5.uni hbi).2.2 (hbd p (List.mem_of_getElem? g1) b' hb')).1

/-- C89.  The bodies are on the ranks where they belong, and the step is as in `C89_Step`.  Take a body `x` and an image `y` with a larger id, and the same body and
image `x'`, `y'` after the step.

* If they were close, their separation afterwards is at least `- dt · (res + |W| L + |W'| L')`, with the angular velocities and the lengths of the axes (none for
  spheres).
* If not, it is at least the buffer distance less what the bodies moved.

Missing: pairs of rods for which `DCPQuery` is wrong (`C32_false`), spheres that the search misses (`C40_false`, excluded by `Body`), monolayers with Brownian
motion (`C88_false_monolayer`); a body and its own images, for which no contact is made. -/
theorem C89_no_overlap_partial (c : Place.Cfg) (pbc : Fin 3 → Bool) (low high : Fin 3 → ℝ) (h : Sound c pbc low high) (dom : ℕ → Box)
    (hd : Tiles c.root c.g.n dom) (S : ℕ → List Sylinder) (hS : ∀ r < c.g.n, ∀ x ∈ S r, Box.MemHalf x.pos (dom r)) (hv : ∀ r < c.g.n, ∀ x ∈ S r, Body x)
    (F : Force.Config) (hF : Limits F c S) (X : ℕ → Force.RankExec EP) (hX : ∀ r < c.g.n, (X r).Valid F ((S r).map toEp)) :
    ∃ N, ∀ fuel, N ≤ fuel → ∀ (cfg : Mobility.Cfg) (ctl : ConOp.Control) (fl : ℝ → ℝ) (ranks : List RankIn) (out : Out) (last : BCQP.Hist) (U W : ℤ → V3),
      C89_Step c dom S F X fuel cfg ctl fl ranks out last U W →
      ∀ (r i : ℕ) (o : ℕ × ℕ × Idx) (x : Sylinder) (y : EP), r < c.g.n → (S r)[i]? = some x → imageAt c S o = some y → IsImage c o → x.gid < y.gid →
      (¬ Sphere (EP.copyFromFP x) ∧ ¬ Sphere y → QueryExact (EP.copyFromFP x) y) →
      ∃ x' y', (C89_after out r)[i]? = some x' ∧ imageAt c (C89_after out) o = some y' ∧ Spec.Mobility.SameBody x' x ∧
        (y'.gid = y.gid ∧ y'.radiusCollision = y.radiusCollision ∧ y'.lengthCollision = y.lengthCollision) ∧
        (Close (EP.copyFromFP x) y → ∀ d, Separation (EP.copyFromFP x') y' d →
          -(cfg.dt * (last.res + (W x.globalIndex).norm * arm (EP.copyFromFP x) + (W y.globalIndex).norm * arm y)) ≤ d) ∧
        (¬ Close (EP.copyFromFP x) y → ∀ d, Separation (EP.copyFromFP x') y' d →
          bufferOf (EP.copyFromFP x) y - cfg.dt * ((U x.globalIndex).norm + (U y.globalIndex).norm +
            ((W x.globalIndex).norm * arm (EP.copyFromFP x) + (W y.globalIndex).norm * arm y) / 2) ≤ d) := by
  obtain ⟨N, hN⟩ := C84_pairs_partial c pbc low high h dom hd S hS hv F hF X hX
  refine ⟨N, ?_⟩
  intro fuel hfuel cfg ctl fl ranks out last U W hst r i o x y hr hx hy ho hg hq
  have hpool := hst.collected
  have hlen := hst.converged.size
  have hdt := hst.converged.dt
  obtain ⟨hbody, hsolve⟩ := hst.converged.use
  have hmoves : ∀ (r j : ℕ) (z : Sylinder) (D : V3), r < c.g.n → (S r)[j]? = some z → ∃ z', (C89_after out r)[j]? = some z' ∧ Spec.Mobility.SameBody z' z ∧
      Moves cfg.dt { EP.copyFromFP z with pos := z.pos + D } { EP.copyFromFP z' with pos := z'.pos + D } (U z.globalIndex) (W z.globalIndex) := by
    intro r j z D hr hz
    obtain ⟨z', h1, h2, h3, h4, h5⟩ := hbody r j z hr hz
    refine ⟨z', h1, h2, ⟨h2.radiusCollision, h2.lengthCollision⟩, ?_, ?_⟩
    · show z'.pos + D = z.pos + D + _
      rw [h3]; ext <;> simp <;> ring
    · show V3.norm (z'.orientation.rot ⟨0, 0, 1⟩ - z.orientation.rot ⟨0, 0, 1⟩) ≤ _
      rw [h4]
      exact rotate_le _ h5.unit _ _ hdt.le _ (hv r hr z (List.mem_of_getElem? hz)).valid.direction
  have zero : ∀ p : V3, p + 0 = p := fun p => by ext <;> simp
  obtain ⟨x', hx', hsame, mx⟩ := hmoves r i x 0 hr hx
  have mx : Moves cfg.dt (EP.copyFromFP x) (EP.copyFromFP x') (U x.globalIndex) (W x.globalIndex) := by
    rw [zero, zero] at mx
    exact mx
  have hy0 := hy
  rw [imageAt, Option.map_eq_some_iff] at hy
  obtain ⟨z, hz, rfl⟩ := hy
  obtain ⟨z', hz', hsz, my⟩ := hmoves o.1 o.2.1 z
    ⟨o.2.2.x * (c.d.high 0 - c.d.low 0), o.2.2.y * (c.d.high 1 - c.d.low 1), o.2.2.z * (c.d.high 2 - c.d.low 2)⟩ ho.1 hz
  refine ⟨x', _, hx', by rw [imageAt, hz']; rfl, hsame, ⟨hsz.gid, hsz.radiusCollision, hsz.lengthCollision⟩, ?_, ?_⟩
  · intro hclose d hdd
    obtain ⟨thr, pool₀, pool', hthr, hcol, hsub⟩ := hpool r (ranks[r]'(by omega)) (List.getElem?_eq_getElem _)
    obtain ⟨pool'', e2, L, blocks, hperm, -, hforall, hiff⟩ := hN fuel hfuel r hr thr pool₀ hthr
    rw [hcol] at e2
    obtain rfl := Option.some.inj e2
    have hL := (hiff i o x _ hx hy0 ho hg hq).2 hclose
    obtain ⟨k, hk, hkL⟩ := List.getElem_of_mem hL
    have hf := (List.forall₂_iff_get.1 hforall)
    have hk2 : k < blocks.length := by rw [← hf.1]; exact hk
    obtain ⟨x1, y1, hx1, hy1, -, -, hcon, hsep⟩ := hf.2 k hk hk2
    simp only [List.get_eq_getElem, hkL] at hx1 hy1 hcon hsep
    rw [hx] at hx1
    rw [hy0] at hy1
    obtain rfl := Option.some.inj hx1
    obtain rfl := Option.some.inj hy1
    have hmem : blocks[k] ∈ (ranks[r]'(by omega)).pool.flatten :=
      hsub _ (hperm.mem_iff.2 (List.mem_append_right _ (List.getElem_mem hk2)))
    have hs := hsolve r _ _ (List.getElem?_eq_getElem (by omega)) hmem hcon.kind.2
    have hgap := pair_gap _ _ _ _ (hv r hr x (List.mem_of_getElem? hx)).valid
      (by have hb := (hv o.1 ho.1 z (List.mem_of_getElem? hz)).valid; exact ⟨hb.radius, hb.length, hb.direction⟩) _ hcon (hsep hq) cfg.dt hdt.le U W mx my d hdd
    refine le_trans ?_ hgap
    show -(cfg.dt * (last.res + (W x.globalIndex).norm * _ + (W z.globalIndex).norm * _)) ≤ _
    have e3 : ∀ u v w : ℝ, -(cfg.dt * (u + v + w)) = -(cfg.dt * u) - cfg.dt * (v + w) := fun u v w => by ring
    rw [e3]
    exact sub_le_sub_right hs _
  · intro hfar d hdd
    obtain ⟨-, -, sep, -, -, -, -, -, hsepa, -⟩ := collide_spec (EP.copyFromFP x) _ (hv r hr x (List.mem_of_getElem? hx)).valid
      (by have hb := (hv o.1 ho.1 z (List.mem_of_getElem? hz)).valid; exact ⟨hb.radius, hb.length, hb.direction⟩ :
        Spec.Near.Valid { EP.copyFromFP z with
          pos := z.pos + ⟨o.2.2.x * (c.d.high 0 - c.d.low 0), o.2.2.y * (c.d.high 1 - c.d.low 1), o.2.2.z * (c.d.high 2 - c.d.low 2)⟩ })
    have hs := hsepa hq
    have hb : bufferOf (EP.copyFromFP x) _ ≤ sep := not_lt.1 fun hh => hfar ⟨sep, hs, hh⟩
    exact far_gap _ _ _ _ cfg.dt hdt.le _ _ _ _ mx my _ (fun p q hp hq => hb.trans (hs.2 p q hp hq)) d hdd

/-- C89 for spheres: if every body is a sphere and moves less than its buffer in the step, then no two bodies with different ids, on any ranks and with any
periodic image, overlap by more than `dt` times the tolerance of the solver. -/
theorem C89_spheres (c : Place.Cfg) (pbc : Fin 3 → Bool) (low high : Fin 3 → ℝ) (h : Sound c pbc low high) (dom : ℕ → Box)
    (hd : Tiles c.root c.g.n dom) (S : ℕ → List Sylinder) (hS : ∀ r < c.g.n, ∀ x ∈ S r, Box.MemHalf x.pos (dom r)) (hv : ∀ r < c.g.n, ∀ x ∈ S r, Body x)
    (hs : ∀ r < c.g.n, ∀ x ∈ S r, Sphere (EP.copyFromFP x)) (F : Force.Config) (hF : Limits F c S) (X : ℕ → Force.RankExec EP)
    (hX : ∀ r < c.g.n, (X r).Valid F ((S r).map toEp)) :
    ∃ N, ∀ fuel, N ≤ fuel → ∀ (cfg : Mobility.Cfg) (ctl : ConOp.Control) (fl : ℝ → ℝ) (ranks : List RankIn) (out : Out) (last : BCQP.Hist) (U W : ℤ → V3),
      C89_Step c dom S F X fuel cfg ctl fl ranks out last U W → 0 ≤ ctl.res →
      (∀ r < c.g.n, ∀ x ∈ S r, cfg.dt * (U x.globalIndex).norm ≤ Rad (EP.copyFromFP x) * x.colBuf) →
      ∀ (r i : ℕ) (o : ℕ × ℕ × Idx) (x : Sylinder) (y : EP), r < c.g.n → (S r)[i]? = some x → imageAt c S o = some y → IsImage c o → x.gid ≠ y.gid →
      ∃ x' y', (C89_after out r)[i]? = some x' ∧ imageAt c (C89_after out) o = some y' ∧
        Rad (EP.copyFromFP x) + Rad y - cfg.dt * ctl.res ≤ (x'.pos - y'.pos).norm := by
  obtain ⟨N, hN⟩ := C89_no_overlap_partial c pbc low high h dom hd S hS hv F hF X hX
  refine ⟨N, ?_⟩
  intro fuel hfuel cfg ctl fl ranks out last U W hst hres0 hmv
  have hdt := hst.converged.dt
  have hres := hst.converged.residual
  -- the pair in the order of the ids
  have key : ∀ (r i : ℕ) (o : ℕ × ℕ × Idx) (x : Sylinder) (y : EP), r < c.g.n → (S r)[i]? = some x → imageAt c S o = some y → IsImage c o → x.gid < y.gid →
      ∃ x' y', (C89_after out r)[i]? = some x' ∧ imageAt c (C89_after out) o = some y' ∧
        Rad (EP.copyFromFP x) + Rad y - cfg.dt * ctl.res ≤ (x'.pos - y'.pos).norm := by
    intro r i o x y hr hx hy ho hg
    have hsx := hs r hr x (List.mem_of_getElem? hx)
    obtain ⟨z, hz, hyz⟩ := Option.map_eq_some_iff.1 hy
    have hsz := hs o.1 ho.1 z (List.mem_of_getElem? hz)
    have hsy : Sphere y := by rw [← hyz]; exact hsz
    obtain ⟨x', y', hx', hy', hsame, ⟨-, hr', hl'⟩, hclose, hfar⟩ := hN fuel hfuel cfg ctl fl ranks out last U W hst r i o x y hr hx hy ho hg (fun hh => absurd hsx hh.1)
    refine ⟨x', y', hx', hy', ?_⟩
    have hsx' : Sphere (EP.copyFromFP x') := by
      show x'.lengthCollision < 2 * x'.radiusCollision
      rw [hsame.lengthCollision, hsame.radiusCollision]; exact hsx
    have hsy' : Sphere y' := by unfold Sphere; rw [hr', hl']; exact hsy
    have hRx : Rad (EP.copyFromFP x') = Rad (EP.copyFromFP x) := by
      unfold Rad
      rw [if_pos hsx, if_pos hsx']
      show x'.lengthCollision / 2 + x'.radiusCollision = x.lengthCollision / 2 + x.radiusCollision
      rw [hsame.lengthCollision, hsame.radiusCollision]
    have hRy : Rad y' = Rad y := by unfold Rad; rw [if_pos hsy, if_pos hsy', hr', hl']
    have hsep : Separation (EP.copyFromFP x') y' (V3.norm (x'.pos - y'.pos) - (Rad (EP.copyFromFP x') + Rad y')) := by
      refine ⟨⟨_, _, (Core_sphere _ hsx' _).2 rfl, (Core_sphere _ hsy' _).2 rfl, rfl⟩, ?_⟩
      intro p q hp hq
      rw [Core_sphere _ hsx'] at hp
      rw [Core_sphere _ hsy'] at hq
      subst hp hq
      exact le_rfl
    have hax : arm (EP.copyFromFP x) = 0 := by unfold arm; rw [if_pos hsx]
    have hay : arm y = 0 := by unfold arm; rw [if_pos hsy]
    rw [hax, hay, mul_zero, mul_zero] at hclose hfar
    rw [hRx, hRy] at hsep
    by_cases hcl : Close (EP.copyFromFP x) y
    · have h1 := hclose hcl _ hsep
      have h2 : cfg.dt * last.res ≤ cfg.dt * ctl.res := mul_le_mul_of_nonneg_left hres.le hdt.le
      rw [add_zero, add_zero] at h1
      linarith
    · have h1 := hfar hcl _ hsep
      have h2 := hmv r hr x (List.mem_of_getElem? hx)
      have h3 := hmv o.1 ho.1 z (List.mem_of_getElem? hz)
      have h4 : 0 ≤ cfg.dt * ctl.res := mul_nonneg hdt.le hres0
      have h5 : y.globalIndex = z.globalIndex ∧ y.colBuf = z.colBuf ∧ Rad y = Rad (EP.copyFromFP z) := by
        rw [← hyz]; exact ⟨rfl, rfl, rfl⟩
      rw [add_zero, zero_div, add_zero, mul_add, h5.1] at h1
      unfold bufferOf at h1
      rw [h5.2.1, h5.2.2] at h1
      rw [h5.2.2]
      have h6 : (EP.copyFromFP x).colBuf = x.colBuf := rfl
      rw [h6] at h1
      linarith
  intro r i o x y hr hx hy ho hg
  rcases lt_or_gt_of_ne hg with hg | hg
  · exact key r i o x y hr hx hy ho hg
  · obtain ⟨z, hz, hyz⟩ := Option.map_eq_some_iff.1 hy
    obtain ⟨z', w, hz', hw, hle⟩ := key o.1 o.2.1 (r, i, ⟨-o.2.2.x, -o.2.2.y, -o.2.2.z⟩) z _ ho.1 hz (by rw [imageAt]; simp only [hx]; rfl)
      ⟨hr, fun hp => by simp [ho.2.1 hp], fun hp => by simp [ho.2.2.1 hp], fun hp => by simp [ho.2.2.2 hp]⟩ (by rw [← hyz] at hg; exact hg)
    obtain ⟨x', hx', hxw⟩ := Option.map_eq_some_iff.1 hw
    have hRy : Rad y = Rad (EP.copyFromFP z) := by rw [← hyz]; rfl
    refine ⟨x', _, hx', by rw [imageAt, hz']; rfl, ?_⟩
    rw [← hxw] at hle
    rw [hRy, add_comm (Rad _)]
    refine le_trans hle (le_of_eq ?_)
    rw [V3.norm_sub_comm]
    congr 1
    ext <;> simp <;> ring

/-! ### Example -/
namespace NoOverlap

/-- A sphere at rest. -/
noncomputable def ball (gid : ℤ) (idx : ℕ) (x : ℝ) : Sylinder :=
  { Sylinder.make gid 0.09 0.09 0 0 ⟨x, 0.5, 0.5⟩ ⟨1, 0, 0, 0⟩ 0.5 with globalIndex := idx }

/-- Two spheres on two ranks, close to each other. -/
noncomputable def balls : ℕ → List Sylinder := fun r => if r = 0 then [ball 7 0 0.4] else if r = 1 then [ball 9 1 0.6] else []

theorem ball_dir (gid : ℤ) (idx : ℕ) (x : ℝ) : (EP.copyFromFP (ball gid idx x)).direction = ⟨0, 0, 1⟩ := by
  ext <;> norm_num [ball, EP.copyFromFP, Sylinder.make, Quat.rot, Quat.vec, V3.cross]

theorem ball_sphere (gid : ℤ) (idx : ℕ) (x : ℝ) : Sphere (EP.copyFromFP (ball gid idx x)) := by
  norm_num [Sphere, ball, EP.copyFromFP, Sylinder.make]

theorem ball_rad (gid : ℤ) (idx : ℕ) (x : ℝ) : Rad (EP.copyFromFP (ball gid idx x)) = 0.09 := by
  unfold Rad
  rw [if_pos (ball_sphere gid idx x)]
  norm_num [ball, EP.copyFromFP, Sylinder.make]

theorem ball_body (gid : ℤ) (idx : ℕ) (x : ℝ) : Body (ball gid idx x) := by
  refine ⟨⟨?_, ?_, ?_⟩, ?_, ?_, ?_, fun _ => Or.inr ?_⟩
  · norm_num [EP.copyFromFP, ball, Sylinder.make]
  · norm_num [EP.copyFromFP, ball, Sylinder.make]
  · rw [ball_dir]; norm_num [V3.norm, V3.normSq, V3.dot]
  · norm_num [ball, Sylinder.make]
  · norm_num [ball, Sylinder.make]
  · norm_num [ball, Sylinder.make]
  · norm_num [EP.copyFromFP, ball, Sylinder.make]

theorem mem_balls {r : ℕ} {x : Sylinder} (hx : x ∈ balls r) : (r = 0 ∧ x = ball 7 0 0.4) ∨ (r = 1 ∧ x = ball 9 1 0.6) := by
  unfold balls at hx
  split_ifs at hx with h0 h1 <;> simp only [List.mem_singleton, List.not_mem_nil] at hx
  · exact Or.inl ⟨h0, hx⟩
  · exact Or.inr ⟨h1, hx⟩

/-- Without forces and Brownian motion nothing moves. -/
theorem ball_rest (W : Draws) (gid : ℤ) (idx : ℕ) (x : ℝ) (so : StepOut)
    (h : runStep C88_cfg none none (noConstraints 1) [(W, ball gid idx x)] = some so) :
    Spec.Mobility.at6 so.velNonCon 0 = (0, 0) ∧ ∀ t ∈ so.summed, t.vel = 0 ∧ t.omega = 0 := by
  have hval : ∀ y ∈ [(W, ball gid idx x)], Spec.Mobility.Valid y.2 := by
    intro y hy
    rw [List.mem_singleton.1 hy]
    exact ⟨by norm_num [ball, Sylinder.make], by norm_num [ball, Sylinder.make], by norm_num [ball, Sylinder.make, Spec.UnitQuat]⟩
  obtain ⟨m, v, fu, vu, fb, vb, out, hm, hrun, hvn, hvl, hso, l1, l2, l3, l4, ls, lm, hall⟩ :=
    runStep_spec C88_cfg (by norm_num [C88_cfg, C43_cfg]) (by norm_num [C88_cfg, C43_cfg]) none none (noConstraints 1) [(W, ball gid idx x)] hval
      (by simp) (by simp) (fun m v _ _ => ⟨_, _, _, _, rfl, by simp, by simp, by simp, by simp⟩)
  obtain ⟨vi, fui, vui, fbi, vbi, t, u, gv, gfu, gvu, gfb, gvb, ht, hu, hst⟩ := hall 0 W (ball gid idx x) rfl
  obtain ⟨s1, mf, nb, hk1, hk2, hmo, hnb, hvi, htv, hto⟩ := hst.ex
  have hrun : runStep C88_cfg none none (noConstraints 1) [(W, ball gid idx x)] = some out := hrun
  rw [hrun] at h
  cases h
  have hnb0 : nb = (0, 0) := by
    rw [hnb]
    unfold nbOf
    simp only [Option.bind_none]
    refine Prod.ext (V3.ext ?_ ?_ ?_) (V3.ext ?_ ?_ ?_) <;> simp
  have hk : ¬ C88_cfg.KBT > 0 := by norm_num [C88_cfg]
  have hs1 := hk2 hk
  simp only [noConstraints, Option.some.injEq, SolverOut.mk.injEq] at hso
  obtain ⟨-, e2, -, e4⟩ := hso
  have e2 := flat6_injective _ _ e2
  have e4 := flat6_injective _ _ e4
  subst e2 e4
  simp at gvu gvb
  constructor
  · rw [hvn, at6_flat6 v 0 vi gv, hvi, if_neg hk, hnb0]
    refine Prod.ext (V3.ext ?_ ?_ ?_) (V3.ext ?_ ?_ ?_) <;> simp
  · intro t' ht'
    have hsm : so.summed = [t] := by
      obtain ⟨y, hy⟩ := List.length_eq_one_iff.1 ls
      rw [hy] at ht ⊢
      exact congrArg (fun x => [x]) (Option.some.inj ht)
    rw [hsm, List.mem_singleton] at ht'
    subst ht'
    rw [htv, hto, hnb0, hs1, ← gvu, ← gvb]
    constructor <;> ext <;> simp [ball, Sylinder.make]

/-- A rank with one sphere. -/
noncomputable def ballRank (D : Draws) (gid : ℤ) (idx : ℕ) (x : ℝ) (pool : Pool) : RankIn :=
  ⟨[(D, ball gid idx x)], none, none, pool, 6 * idx, 6 * idx + 5, matrixWrites pool, vectorWrites pool⟩

theorem ballRank_ready (D : Draws) (gid : ℤ) (idx : ℕ) (x : ℝ) (pool : Pool) : C88_Ready (ballRank D gid idx x pool) := by
  refine ⟨?_, ?_, ?_, ?_⟩
  · intro y hy
    simp only [ballRank, List.mem_singleton] at hy
    subst hy
    exact ⟨by norm_num [ball, Sylinder.make], by norm_num [ball, Sylinder.make], by norm_num [ball, Sylinder.make, Spec.UnitQuat]⟩
  · intro y hy
    simp only [ballRank, List.mem_singleton] at hy
    subst hy
    exact ⟨rfl, rfl, rfl, rfl⟩
  · intro f hf
    simp [ballRank] at hf
  · intro f hf
    simp [ballRank] at hf

/-- Spheres at rest, with constraints that are not violated: a converged step. -/
theorem balls_at_rest (S : ℕ → List Sylinder) (ranks : List RankIn) (hcases : ∀ r ∈ ranks, ∃ D gid idx x pool, r = ballRank D gid idx x pool)
    (hbod : ∀ r rk, ranks[r]? = some rk → rk.bodies.map Prod.snd = S r)
    (hnum : (ranks.flatMap RankIn.bodies).length ≤ 100) (hcount : ∀ r ∈ ranks, r.pool.flatten.length ≤ 2)
    (hidx : ∀ (g : ℕ) (D' : Draws) (s : Sylinder), (ranks.flatMap RankIn.bodies)[g]? = some (D', s) → s.globalIndex = g)
    (hblk : ∀ r ∈ ranks, ∀ b ∈ r.pool.flatten, 0 ≤ b.delta0 ∧ b.gamma = 0 ∧ b.bilateral = false ∧
      (0 ≤ b.globalIndexI ∧ b.globalIndexI < (ranks.flatMap RankIn.bodies).length) ∧ (0 ≤ b.globalIndexJ ∧ b.globalIndexJ < (ranks.flatMap RankIn.bodies).length)) :
    ∃ out, C89_Converged ranks.length S C88_cfg ⟨1 / 10 ^ 5, 100, 0⟩ id ranks out ⟨0, 0, 0, 1⟩ (fun _ => 0) (fun _ => 0) := by
  have hready : ∀ r ∈ ranks, C88_Ready r := by
    intro r hr
    obtain ⟨D, gid, idx, x, pool, rfl⟩ := hcases r hr
    exact ballRank_ready _ _ _ _ _
  have hmat : ∀ r ∈ ranks, r.matOrder.Perm (matrixWrites r.pool) := by
    intro r hr
    obtain ⟨D, gid, idx, x, pool, rfl⟩ := hcases r hr
    exact List.Perm.refl _
  have hvec : ∀ r ∈ ranks, r.vecOrder.Perm (vectorWrites r.pool) := by
    intro r hr
    obtain ⟨D, gid, idx, x, pool, rfl⟩ := hcases r hr
    exact List.Perm.refl _
  have hfits : ∀ r ∈ ranks, C88_Fits (ranks.flatMap RankIn.bodies).length r := by
    intro r hr
    refine ⟨?_, ?_, ?_⟩
    · intro q hq b hb
      obtain ⟨-, -, -, h5, h6⟩ := hblk r hr b (List.mem_flatten.2 ⟨q, hq, hb⟩)
      exact ⟨h5, fun _ => h6⟩
    · have hle : (r.pool.flatten.map (fun b => if b.oneSide then 6 else 12)).sum ≤ 24 := by
        have h1 := hcount r hr
        have h2 := List.sum_le_card_nsmul (r.pool.flatten.map (fun b => if b.oneSide then 6 else 12)) 12 (by
          intro x hx
          obtain ⟨b, -, rfl⟩ := List.mem_map.1 hx
          split <;> norm_num)
        rw [List.length_map, smul_eq_mul] at h2
        omega
      have : (((r.pool.flatten.map (fun b => if b.oneSide then 6 else 12)).sum : ℕ) : ℤ) ≤ 24 := by exact_mod_cast hle
      exact this.trans (by norm_num)
    · obtain ⟨D, gid, idx, x, pool, rfl⟩ := hcases r hr
      show (6 * idx : ℤ) ≤ 6 * idx + 5 + 1
      omega
  have hgr : ∀ b : Block, gapRate (fun _ => 0) (fun _ => 0) b = 0 := by
    intro b
    unfold gapRate
    simp [V3.dot]
  have hrest : ∀ r ∈ ranks, ∀ so, runStep C88_cfg r.force r.velPart (noConstraints r.bodies.length) r.bodies = some so →
      Spec.Mobility.at6 so.velNonCon 0 = (0, 0) ∧ (∀ t ∈ so.summed, t.vel = 0 ∧ t.omega = 0) ∧ r.bodies.length = 1 := by
    intro r hr so hso
    obtain ⟨D, gid, idx, x, pool, rfl⟩ := hcases r hr
    obtain ⟨h1, h2⟩ := ball_rest D gid idx x so hso
    exact ⟨h1, h2, rfl⟩
  obtain ⟨out, hout, hh, hsl, hsteps, hpools⟩ := C88_free C88_cfg (by norm_num [C88_cfg, C43_cfg]) (by norm_num [C88_cfg, C43_cfg]) ⟨1 / 10 ^ 5, 100, 0⟩
    (by norm_num) (by norm_num) 0 ranks hready hmat hvec (by omega) hfits hidx
    (fun r hr b hb => (hblk r hr b hb).2.1) (fun _ => 0) (fun _ => 0)
    (by
      intro r hr so hso i D' s hi
      obtain ⟨h1, -, h3⟩ := hrest r hr so hso
      have : i = 0 := by have := (List.getElem?_eq_some_iff.1 hi).1; omega
      rw [this, h1])
    (by
      intro r hr b hb
      rw [hgr, mul_zero, add_zero, (hblk r hr b hb).2.2.1]
      exact ⟨fun _ => (hblk r hr b hb).1, fun h => by cases h⟩)
  have hstep : ∀ so ∈ out.steps, ∀ t ∈ so.summed, (0 : V3) = t.vel ∧ (0 : V3) = t.omega := by
    intro so hso t ht
    obtain ⟨k, hk, rfl⟩ := List.getElem_of_mem hso
    obtain ⟨so', h1, h2⟩ := hsteps k (ranks[k]'(by omega)) (List.getElem?_eq_getElem _)
    rw [List.getElem?_eq_getElem hk] at h1
    cases h1
    obtain ⟨-, h3, -⟩ := hrest _ (List.getElem_mem _) _ h2
    exact ⟨(h3 t ht).1.symm, (h3 t ht).2.symm⟩
  have hpos : 0 < BCQP.dblMax := by unfold BCQP.dblMax; norm_num
  have hguess : ∀ r ∈ ranks, ∀ b ∈ r.pool.flatten, (b.bilateral = false → 0 ≤ b.gamma) ∧ -(10 : ℝ) ^ 8 ≤ b.gamma ∧ b.gamma ≤ BCQP.dblMax / 10 := by
    intro r hr b hb
    rw [(hblk r hr b hb).2.1]
    exact ⟨fun _ => le_refl _, by norm_num, by positivity⟩
  obtain ⟨hshape, -⟩ := C88_step_partial C88_cfg (by norm_num [C88_cfg, C43_cfg]) (by norm_num [C88_cfg, C43_cfg]) ⟨1 / 10 ^ 5, 100, 0⟩ id 0 ranks hready hmat hvec
    hidx hguess (by norm_num [C88_cfg]) out hout ⟨0, 0, 0, 1⟩ (by rw [hh]; rfl) (by norm_num) (by norm_num) (fun _ => 0) (fun _ => 0) hstep
  have hgam : ∀ p ∈ out.pools, ∀ b ∈ p.flatten, b.gamma = 0 := by
    intro p hp b hb
    obtain ⟨k, hk, rfl⟩ := List.getElem_of_mem hp
    obtain ⟨q, hq, hb⟩ := List.mem_flatten.1 hb
    obtain ⟨i, hi, rfl⟩ := List.getElem_of_mem hq
    obtain ⟨j, hj, rfl⟩ := List.getElem_of_mem hb
    have hkl : k < ranks.length := by
      have := congrArg List.length hshape
      simp only [List.length_map] at this
      omega
    have h1 : (out.pools[k]).map List.length = (ranks[k].pool).map List.length := by
      have := congrArg (fun l => l[k]?) hshape
      simp only [List.getElem?_map, List.getElem?_eq_getElem hk, List.getElem?_eq_getElem hkl, Option.map_some, Option.some.injEq] at this
      exact this
    have hil : i < ranks[k].pool.length := by
      have := congrArg List.length h1
      simp only [List.length_map] at this
      omega
    have h2 : (out.pools[k][i]).length = (ranks[k].pool[i]).length := by
      have := congrArg (fun l => l[i]?) h1
      simp only [List.getElem?_map, List.getElem?_eq_getElem hi, List.getElem?_eq_getElem hil, Option.map_some, Option.some.injEq] at this
      exact this
    obtain ⟨p', q', b', g1, g2, g3, g4⟩ := hpools k i j _ _ _ (List.getElem?_eq_getElem hkl) (List.getElem?_eq_getElem hil) (List.getElem?_eq_getElem (by omega))
    rw [List.getElem?_eq_getElem hk] at g1
    cases g1
    rw [List.getElem?_eq_getElem hi] at g2
    cases g2
    rw [List.getElem?_eq_getElem hj] at g3
    cases g3
    exact g4
  refine ⟨out, by norm_num [C88_cfg, C43_cfg], by norm_num [C88_cfg, C43_cfg], rfl, by norm_num [C88_cfg], rfl, hbod, hready, hmat, hvec, hidx,
    hguess, ⟨0, hout⟩, by rw [hh]; rfl, by norm_num, by norm_num, ?_, hstep⟩
  intro p hp b hb
  rw [hgam p hp b hb]
  have : (1 : ℝ) ≤ BCQP.dblMax / 10 - BCQP.dblEps * 100 := by
    unfold BCQP.dblMax BCQP.dblEps
    have : (2 : ℝ) ^ 10 ≤ 2 ^ 1023 := pow_le_pow_right₀ (by norm_num) (by norm_num)
    generalize (2 : ℝ) ^ 1023 = w at *
    norm_num at *
    linarith
  exact le_trans zero_le_one this

/-- An image of the second sphere. -/
noncomputable def imageBall (k l m : ℤ) : EP := { EP.copyFromFP (ball 9 1 0.6) with pos := (⟨0.6, 0.5, 0.5⟩ : V3) + ⟨k, l, m⟩ }

theorem imageBall_sphere (k l m : ℤ) : Sphere (imageBall k l m) := ball_sphere 9 1 0.6

theorem imageBall_rad (k l m : ℤ) : Rad (imageBall k l m) = 0.09 := ball_rad 9 1 0.6

theorem norm_ge_y (a : V3) : |a.y| ≤ a.norm := by
  rw [V3.norm]
  apply Real.le_sqrt_of_sq_le
  rw [sq_abs]
  simp only [V3.normSq, V3.dot]
  nlinarith [sq_nonneg a.x, sq_nonneg a.z]

theorem norm_ge_z (a : V3) : |a.z| ≤ a.norm := by
  rw [V3.norm]
  apply Real.le_sqrt_of_sq_le
  rw [sq_abs]
  simp only [V3.normSq, V3.dot]
  nlinarith [sq_nonneg a.x, sq_nonneg a.y]

theorem norm_ge_x (a : V3) : |a.x| ≤ a.norm := by
  rw [V3.norm]
  apply Real.le_sqrt_of_sq_le
  rw [sq_abs]
  simp only [V3.normSq, V3.dot]
  nlinarith [sq_nonneg a.y, sq_nonneg a.z]

end NoOverlap

/-- The hypotheses of `C89_no_overlap_partial` and `C89_spheres` can be met with a pair that is close, with the spheres on different ranks. -/
example (D : Draws) (M : ℕ) : ∃ (c : Place.Cfg) (F : Force.Config) (X : ℕ → Force.RankExec EP) (fuel : ℕ) (ranks : List RankIn) (out : Out) (last : BCQP.Hist),
    M ≤ fuel ∧ Sound c (fun _ => true) (fun _ => 0) (fun _ => 1) ∧ Tiles c.root c.g.n halves ∧ (∀ r < c.g.n, ∀ x ∈ balls r, Box.MemHalf x.pos (halves r)) ∧
    (∀ r < c.g.n, ∀ x ∈ balls r, Body x ∧ Sphere (EP.copyFromFP x)) ∧ Limits F c balls ∧ (∀ r < c.g.n, (X r).Valid F ((balls r).map toEp)) ∧
    C89_Step c halves balls F X fuel C88_cfg ⟨1 / 10 ^ 5, 100, 0⟩ id ranks out last (fun _ => 0) (fun _ => 0) ∧
    ∃ y, imageAt c balls (1, 0, ⟨0, 0, 0⟩) = some y ∧ IsImage c (1, 0, ⟨0, 0, 0⟩) ∧ Close (EP.copyFromFP (ball 7 0 0.4)) y := by
  obtain ⟨c, h, hg, -, hr⟩ := cube false ⟨2, 1, 1⟩ (by simp)
  have hn : c.g.n = 2 := by rw [hg]; rfl
  have hlow : ∀ k, c.d.low k = 0 := fun k => (h.extent.2.2.1 k rfl).1
  have hhigh : ∀ k, c.d.high k = 1 := fun k => (h.extent.2.2.1 k rfl).2
  have hT : Tiles c.root c.g.n halves := by rw [hr, hn]; exact halves_grid.tiles
  have hS : ∀ r < c.g.n, ∀ x ∈ balls r, Box.MemHalf x.pos (halves r) := by
    intro r _ x hx
    rcases mem_balls hx with ⟨rfl, rfl⟩ | ⟨rfl, rfl⟩ <;> norm_num [Box.MemHalf, halves, ball, Sylinder.make]
  have hB : ∀ r < c.g.n, ∀ x ∈ balls r, Body x ∧ Sphere (EP.copyFromFP x) := by
    intro r _ x hx
    rcases mem_balls hx with ⟨rfl, rfl⟩ | ⟨rfl, rfl⟩ <;> exact ⟨ball_body _ _ _, ball_sphere _ _ _⟩
  have hL : Limits ⟨100, 1, 2, 3⟩ c balls := by
    refine ⟨le_rfl, by norm_num, by norm_num, fun k _ => by rw [hlow, hhigh]; norm_num, fun _ r _ x hx => ?_⟩
    rw [hlow, hhigh]
    rcases mem_balls hx with ⟨rfl, rfl⟩ | ⟨rfl, rfl⟩ <;> norm_num [EP.getRSearch, EP.copyFromFP, ball, Sylinder.make]
  have hX : ∀ r < c.g.n, (Force.plainExec 3 ((balls r).map toEp)).Valid ⟨100, 1, 2, 3⟩ ((balls r).map toEp) :=
    fun r _ => Force.plainExec_valid (c := ⟨100, 1, 2, 3⟩) (by norm_num) _
  obtain ⟨N, hN⟩ := C84_pairs_partial c _ _ _ h halves hT balls hS (fun r hr x hx => (hB r hr x hx).1) ⟨100, 1, 2, 3⟩ hL
    (fun r => Force.plainExec 3 ((balls r).map toEp)) hX
  obtain ⟨pool0, e0, L0, B0, p0, n0, f0, i0⟩ := hN (max N M) (le_max_left _ _) 0 (by rw [hn]; norm_num) (fun i => i % 2) [[], []] (fun i => Nat.mod_lt i (by norm_num))
  obtain ⟨pool1, e1, L1, B1, p1, n1, f1, i1⟩ := hN (max N M) (le_max_left _ _) 1 (by rw [hn]; norm_num) (fun i => i % 2) [[], []] (fun i => Nat.mod_lt i (by norm_num))
  have himg : ∀ (o : ℕ × ℕ × Idx) (y : EP), imageAt c balls o = some y → 7 < y.gid → o.1 = 1 ∧ o.2.1 = 0 ∧ y = imageBall o.2.2.x o.2.2.y o.2.2.z := by
    intro o y hy hgy
    obtain ⟨z, hz, rfl⟩ := Option.map_eq_some_iff.1 hy
    rcases mem_balls (List.mem_of_getElem? hz) with ⟨-, rfl⟩ | ⟨h1, rfl⟩
    · exact absurd hgy (by norm_num [EP.copyFromFP, ball, Sylinder.make])
    · refine ⟨h1, ?_, ?_⟩
      · have hz' : [ball 9 1 0.6][o.2.1]? = some (ball 9 1 0.6) := by rw [h1] at hz; exact hz
        have := (List.getElem?_eq_some_iff.1 hz').1
        simpa using this
      · rw [hlow, hlow, hlow, hhigh, hhigh, hhigh]
        have : ∀ a b : V3, a = b → ({ EP.copyFromFP (ball 9 1 0.6) with pos := a } : EP) = { EP.copyFromFP (ball 9 1 0.6) with pos := b } := fun a b h => by rw [h]
        exact this _ _ (by ext <;> simp [ball, Sylinder.make])
  have hsep : ∀ (k l m : ℤ) (d : ℝ), Separation (EP.copyFromFP (ball 7 0 0.4)) (imageBall k l m) d →
      d = V3.norm ((⟨0.4, 0.5, 0.5⟩ : V3) - (⟨0.6, 0.5, 0.5⟩ + ⟨k, l, m⟩)) - 0.18 ∧ 0 ≤ d ∧ (d < 0.09 → k = 0 ∧ l = 0 ∧ m = 0) := by
    intro k l m d hd
    obtain ⟨⟨p, q, hp, hq, rfl⟩, -⟩ := hd
    rw [Core_sphere _ (ball_sphere _ _ _)] at hp
    rw [Core_sphere _ (imageBall_sphere _ _ _)] at hq
    rw [imageBall_rad, ball_rad, hp, hq]
    have e1 : (EP.copyFromFP (ball 7 0 0.4)).pos = ⟨0.4, 0.5, 0.5⟩ := rfl
    have e2 : (imageBall k l m).pos = (⟨0.6, 0.5, 0.5⟩ : V3) + ⟨k, l, m⟩ := rfl
    rw [e1, e2]
    have hx := norm_ge_x ((⟨0.4, 0.5, 0.5⟩ : V3) - (⟨0.6, 0.5, 0.5⟩ + ⟨k, l, m⟩))
    have hy := norm_ge_y ((⟨0.4, 0.5, 0.5⟩ : V3) - (⟨0.6, 0.5, 0.5⟩ + ⟨k, l, m⟩))
    have hz := norm_ge_z ((⟨0.4, 0.5, 0.5⟩ : V3) - (⟨0.6, 0.5, 0.5⟩ + ⟨k, l, m⟩))
    generalize V3.norm ((⟨0.4, 0.5, 0.5⟩ : V3) - (⟨0.6, 0.5, 0.5⟩ + ⟨k, l, m⟩)) = w at *
    simp only [V3.sub_x, V3.add_x, V3.sub_y, V3.add_y, V3.sub_z, V3.add_z] at hx hy hz
    refine ⟨by norm_num, ?_, ?_⟩
    · rw [abs_le] at hx
      rcases le_or_gt 0 k with hk | hk
      · have : (0 : ℝ) ≤ k := by exact_mod_cast hk
        linarith [hx.1]
      · have : (k : ℝ) ≤ -1 := by exact_mod_cast (by omega : k ≤ -1)
        linarith [hx.2]
    · intro hw
      have hw : w < 0.27 := by linarith
      rw [abs_le] at hx hy hz
      have small : ∀ j : ℤ, (j : ℝ) < 1 → (-1 : ℝ) < j → j = 0 := by
        intro j h1 h2
        have h1 : j < 1 := by exact_mod_cast h1
        have h2 : -1 < j := by exact_mod_cast h2
        omega
      exact ⟨small _ (by linarith [hx.1]) (by linarith [hx.2]), small _ (by linarith [hy.1]) (by linarith [hy.2]),
        small _ (by linarith [hz.1]) (by linarith [hz.2])⟩
  have hbuf : ∀ k l m, bufferOf (EP.copyFromFP (ball 7 0 0.4)) (imageBall k l m) = 0.09 := by
    intro k l m
    unfold bufferOf
    rw [imageBall_rad, ball_rad]
    norm_num [EP.copyFromFP, ball, Sylinder.make, imageBall]
  have hL0 : ∀ p ∈ L0.zip B0, p.1 = (0, 1, 0, ⟨0, 0, 0⟩) ∧ 0 ≤ p.2.delta0 ∧ p.2.gamma = 0 ∧ p.2.bilateral = false ∧ p.2.oneSide = false ∧
      p.2.globalIndexI = 0 ∧ p.2.globalIndexJ = 1 := by
    intro p hp
    obtain ⟨x, y, hx, hy, ho, hgxy, hcon, hse⟩ := (List.forall₂_iff_zip.1 f0).2 hp
    have hx1 : p.1.1 = 0 ∧ x = ball 7 0 0.4 := by
      have hx' : [ball 7 0 0.4][p.1.1]? = some x := hx
      obtain ⟨h1, h2⟩ := List.getElem?_eq_some_iff.1 hx'
      simp only [List.length_singleton, Nat.lt_one_iff] at h1
      refine ⟨h1, ?_⟩
      simp only [h1, List.getElem_cons_zero] at h2
      exact h2.symm
    obtain ⟨hi, rfl⟩ := hx1
    obtain ⟨g1, g2, rfl⟩ := himg p.1.2 y hy hgxy
    have hse := hse (fun hh => absurd (ball_sphere _ _ _) hh.1)
    obtain ⟨-, h2, h3⟩ := hsep _ _ _ _ hse
    have hpL : (p.1.1, p.1.2) ∈ L0 := (List.of_mem_zip (a := p.1) (b := p.2) hp).1
    obtain ⟨d, hd, hdb⟩ := (i0 p.1.1 p.1.2 _ _ hx hy ho hgxy (fun hh => absurd (ball_sphere _ _ _) hh.1)).1 hpL
    rw [hbuf] at hdb
    obtain ⟨k1, k2, k3⟩ := (hsep _ _ _ _ hd).2.2 hdb
    refine ⟨?_, h2, ?_, hcon.kind.2, hcon.kind.1, hcon.gid.2.2.1, hcon.gid.2.2.2⟩
    · obtain ⟨⟨pi, pr, pj, pk⟩, pb⟩ := p
      obtain ⟨qx, qy, qz⟩ := pk
      simp only at hi g1 g2 k1 k2 k3 ⊢
      rw [hi, g1, g2, k1, k2, k3]
    · rw [hcon.guess, if_neg (not_lt.2 h2)]
  have hB0 : ∀ b ∈ B0, 0 ≤ b.delta0 ∧ b.gamma = 0 ∧ b.bilateral = false ∧ b.oneSide = false ∧ b.globalIndexI = 0 ∧ b.globalIndexJ = 1 := by
    intro b hb
    obtain ⟨k, hk, rfl⟩ := List.getElem_of_mem hb
    have hl : L0.length = B0.length := f0.length_eq
    exact (hL0 (L0[k], B0[k]) (by
      rw [List.mem_iff_getElem]
      exact ⟨k, by rw [List.length_zip]; omega, by rw [List.getElem_zip]⟩)).2
  have hlen0 : B0.length ≤ 1 := by
    rw [← f0.length_eq]
    by_contra hlt
    push_neg at hlt
    have hl : L0.length = B0.length := f0.length_eq
    have hk : ∀ k (hk : k < L0.length), L0[k] = (0, 1, 0, ⟨0, 0, 0⟩) := fun k hk => (hL0 (L0[k], B0[k]) (by
      rw [List.mem_iff_getElem]
      exact ⟨k, by rw [List.length_zip]; omega, by rw [List.getElem_zip]⟩)).1
    have := (List.nodup_iff_injective_get.1 n0) (a₁ := ⟨0, by omega⟩) (a₂ := ⟨1, by omega⟩) (by
      simp only [List.get_eq_getElem]
      rw [hk 0 (by omega), hk 1 (by omega)])
    simp at this
  have hB1 : B1 = [] := by
    by_contra hne
    obtain ⟨b, hb⟩ := List.exists_mem_of_ne_nil _ hne
    obtain ⟨k, hk, rfl⟩ := List.getElem_of_mem hb
    obtain ⟨x, y, hx, hy, -, hgxy, -⟩ := (List.forall₂_iff_get.1 f1).2 k (by rw [f1.length_eq]; exact hk) hk
    have hx1 : x ∈ balls 1 := List.mem_of_getElem? hx
    rcases mem_balls hx1 with ⟨h1, -⟩ | ⟨-, rfl⟩
    · exact absurd h1 (by norm_num)
    obtain ⟨z, hz, rfl⟩ := Option.map_eq_some_iff.1 hy
    rcases mem_balls (List.mem_of_getElem? hz) with ⟨-, rfl⟩ | ⟨-, rfl⟩ <;> norm_num [EP.copyFromFP, ball, Sylinder.make] at hgxy
  have hp0 : pool0.flatten.Perm B0 := by simpa using p0
  have hp1 : pool1.flatten = [] := by
    have : pool1.flatten.Perm [] := by simpa [hB1] using p1
    exact List.perm_nil.1 this
  have hblk : ∀ b ∈ pool0.flatten, 0 ≤ b.delta0 ∧ b.gamma = 0 ∧ b.bilateral = false ∧ b.oneSide = false ∧ b.globalIndexI = 0 ∧ b.globalIndexJ = 1 :=
    fun b hb => hB0 b (hp0.mem_iff.1 hb)
  obtain ⟨ranks, hranks⟩ : ∃ ranks, ranks = [ballRank D 7 0 0.4 pool0, ballRank D 9 1 0.6 pool1] := ⟨_, rfl⟩
  have hcases : ∀ r ∈ ranks, r = ballRank D 7 0 0.4 pool0 ∨ r = ballRank D 9 1 0.6 pool1 := by
    intro r hr
    rw [hranks] at hr
    simpa using hr
  have hnum : (ranks.flatMap RankIn.bodies).length = 2 := by rw [hranks]; rfl
  have hpool : ∀ r ∈ ranks, ∀ b ∈ r.pool.flatten, b ∈ pool0.flatten := by
    intro r hr b hb
    rcases hcases r hr with rfl | rfl
    · exact hb
    · have hb : b ∈ pool1.flatten := hb
      rw [hp1] at hb
      cases hb
  have hidx : ∀ (g : ℕ) (D' : Draws) (s : Sylinder), (ranks.flatMap RankIn.bodies)[g]? = some (D', s) → s.globalIndex = g := by
    intro g D' s hs
    rw [hranks] at hs
    match g, hs with
    | 0, hs => cases hs; rfl
    | 1, hs => cases hs; rfl
    | g + 2, hs => simp [ballRank] at hs
  obtain ⟨out, hconv⟩ := balls_at_rest balls ranks (by
      intro r hr
      rcases hcases r hr with rfl | rfl <;> exact ⟨_, _, _, _, _, rfl⟩) (by
      intro r rk hrk
      rw [hranks] at hrk
      match r, hrk with
      | 0, hrk => cases hrk; rfl
      | 1, hrk => cases hrk; rfl
      | r + 2, hrk => simp at hrk) (by rw [hnum]; norm_num) (by
      intro r hr
      rcases hcases r hr with rfl | rfl
      · show pool0.flatten.length ≤ 2
        rw [hp0.length_eq]; omega
      · show pool1.flatten.length ≤ 2
        rw [hp1]; norm_num) hidx (by
      intro r hr b hb
      obtain ⟨h1, h2, h3, -, h5, h6⟩ := hblk b (hpool r hr b hb)
      rw [hnum, h5, h6]
      exact ⟨h1, h2, h3, by norm_num, by norm_num⟩)
  have hnr : ranks.length = c.g.n := by rw [hn, hranks]; rfl
  rw [hnr] at hconv
  refine ⟨c, ⟨100, 1, 2, 3⟩, fun r => Force.plainExec 3 ((balls r).map toEp), max N M, ranks, out, ⟨0, 0, 0, 1⟩, le_max_right _ _, h, hT, hS, hB, hL, hX, ?_, ?_⟩
  · refine ⟨hconv, ?_⟩
    intro r rk hrk
    rw [hranks] at hrk
    match r, hrk with
    | 0, hrk => cases hrk; exact ⟨fun i => i % 2, [[], []], pool0, fun i => Nat.mod_lt i (by norm_num), e0, fun b hb => hb⟩
    | 1, hrk => cases hrk; exact ⟨fun i => i % 2, [[], []], pool1, fun i => Nat.mod_lt i (by norm_num), e1, fun b hb => hb⟩
    | r + 2, hrk => simp at hrk
  · refine ⟨imageBall 0 0 0, ?_, ⟨by rw [hn]; norm_num, fun _ => rfl, fun _ => rfl, fun _ => rfl⟩, ?_⟩
    · have hz : imageAt c balls (1, 0, ⟨0, 0, 0⟩) = some _ := rfl
      rw [hz]
      obtain ⟨-, -, h3⟩ := himg (1, 0, ⟨0, 0, 0⟩) _ hz (by norm_num [EP.copyFromFP, ball, Sylinder.make])
      rw [h3]
    · refine ⟨V3.norm ((⟨0.4, 0.5, 0.5⟩ : V3) - (⟨0.6, 0.5, 0.5⟩ + ⟨(0 : ℤ), (0 : ℤ), (0 : ℤ)⟩)) - 0.18, ⟨⟨_, _, (Core_sphere _ (ball_sphere _ _ _) _).2 rfl,
        (Core_sphere _ (imageBall_sphere _ _ _) _).2 rfl, ?_⟩, ?_⟩, ?_⟩
      · rw [ball_rad, imageBall_rad]
        have e1 : (EP.copyFromFP (ball 7 0 0.4)).pos = ⟨0.4, 0.5, 0.5⟩ := rfl
        have e2 : (imageBall 0 0 0).pos = (⟨0.6, 0.5, 0.5⟩ : V3) + ⟨(0 : ℤ), (0 : ℤ), (0 : ℤ)⟩ := rfl
        rw [e1, e2]
        norm_num
      · intro p q hp hq
        rw [Core_sphere _ (ball_sphere _ _ _)] at hp
        rw [Core_sphere _ (imageBall_sphere _ _ _)] at hq
        rw [ball_rad, imageBall_rad, hp, hq]
        have e1 : (EP.copyFromFP (ball 7 0 0.4)).pos = ⟨0.4, 0.5, 0.5⟩ := rfl
        have e2 : (imageBall 0 0 0).pos = (⟨0.6, 0.5, 0.5⟩ : V3) + ⟨(0 : ℤ), (0 : ℤ), (0 : ℤ)⟩ := rfl
        rw [e1, e2]
        norm_num
      · rw [hbuf]
        have : V3.norm ((⟨0.4, 0.5, 0.5⟩ : V3) - (⟨0.6, 0.5, 0.5⟩ + ⟨(0 : ℤ), (0 : ℤ), (0 : ℤ)⟩)) = 0.2 := by
          rw [V3.norm, show V3.normSq ((⟨0.4, 0.5, 0.5⟩ : V3) - (⟨0.6, 0.5, 0.5⟩ + ⟨(0 : ℤ), (0 : ℤ), (0 : ℤ)⟩)) = 0.2 ^ 2 by norm_num [V3.normSq, V3.dot], Real.sqrt_sq (by norm_num)]
        rw [this]
        norm_num

end Verif
