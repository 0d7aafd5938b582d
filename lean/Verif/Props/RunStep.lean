import Verif.Lemmas.RunStep
/-!
C88: a whole time step over all ranks.
-/
namespace Verif
open RunStep Mobility Collector ConOp BCQP Spec.Mobility Spec.Collector Spec.RunStep

/-- The bodies of a rank when the step starts: radius and length positive, unit orientation, what the last step left is
cleared (`prepareStep`), and the given force and velocity have six numbers per body. -/
def C88_Ready (r : RankIn) : Prop :=
  (∀ x ∈ r.bodies, Valid x.2) ∧
  (∀ x ∈ r.bodies, x.2.velBrown = 0 ∧ x.2.omegaBrown = 0 ∧ x.2.forceNonB = 0 ∧ x.2.torqueNonB = 0) ∧
  (∀ f, r.force = some f → f.length = 6 * r.bodies.length) ∧ ∀ f, r.velPart = some f → f.length = 6 * r.bodies.length

theorem C88_ok (cfg : Cfg) (r : RankIn) (h : C88_Ready r) : RankOk cfg r := ⟨h.1, h.2.1, h.2.2.1, h.2.2.2⟩

/-- The constraints of all ranks, with the multipliers that a step left in the pools. -/
noncomputable def C88_solved (ranks : List RankIn) (pools : List Pool) : List (Block × ℝ) :=
  (ranks.flatMap fun r => r.pool.flatten).zip ((pools.flatMap fun p => p.flatten).map Block.gamma)

/-- One step, all ranks.  The step ends with a residual `last.res` below the tolerance; `U g` and `W g` are the velocity and
angular velocity of the body with global index `g` after the step, on whatever rank it lives.  Then

* the pools keep their shape, and every constraint got a multiplier written back with which it `Solves`: for a contact the
  multiplier is not negative, the separation `delta0 + dt · gapRate U W` that the final velocities lead to is at least
  `- dt · res`, and is at most `dt · res` where the multiplier acts; for a spring the law `delta0 + dt · rate + γ/κ = 0` holds up
  to `dt · res`;
* the force and torque of every body are what was given plus the sum over all constraints of all ranks of their multiplier
  times their unit force and torque, and the recorded parts of contacts and springs are the sums over the contacts and over
  the springs;
* every body moves with that velocity, and keeps its identity and size.

Missing: monolayers with Brownian motion, for which it is false (`C88_false_monolayer`). -/
theorem C88_step_partial (cfg : Cfg) (hmu : 0 < cfg.viscosity) (hdt : 0 < cfg.dt) (c : Control) (fl : ℝ → ℝ) (fuel : ℕ)
    (ranks : List RankIn) (hready : ∀ r ∈ ranks, C88_Ready r)
    (hm : ∀ r ∈ ranks, r.matOrder.Perm (matrixWrites r.pool)) (hv : ∀ r ∈ ranks, r.vecOrder.Perm (vectorWrites r.pool))
    (hidx : ∀ (g : ℕ) (W : Draws) (s : Sylinder), (ranks.flatMap RankIn.bodies)[g]? = some (W, s) → s.globalIndex = g)
    (hguess : ∀ r ∈ ranks, ∀ b ∈ r.pool.flatten, (b.bilateral = false → 0 ≤ b.gamma) ∧ -(10 : ℝ) ^ 8 ≤ b.gamma ∧ b.gamma ≤ BCQP.dblMax / 10)
    (hno : ¬ (cfg.monolayer = true ∧ cfg.KBT > 0)) (out : Out) (hout : runStepAll cfg c fl fuel ranks = some out) (last : Hist)
    (hlast : out.history.getLast? = some last) (hc : last.res < c.res)
    (hap : c.choice = 1 → last.res < BCQP.dblMax ∧ 2 ≤ out.history.length)
    (U W : ℤ → V3) (hUW : ∀ so ∈ out.steps, ∀ t ∈ so.summed, U t.globalIndex = t.vel ∧ W t.globalIndex = t.omega) :
    (out.pools.map fun p => p.map List.length) = (ranks.map fun r => r.pool.map List.length) ∧
    (∀ (r i j : ℕ) (rk : RankIn) (q : List Block) (b : Block), ranks[r]? = some rk → rk.pool[i]? = some q → q[j]? = some b →
      ∃ p q' b', out.pools[r]? = some p ∧ p[i]? = some q' ∧ q'[j]? = some b' ∧ b' = b.writeGamma b'.gamma ∧
        Solves fl cfg.dt last.res b (gapRate U W b) b'.gamma) ∧
    ∀ (r i : ℕ) (rk : RankIn) (D : Draws) (s : Sylinder), ranks[r]? = some rk → rk.bodies[i]? = some (D, s) →
      ∃ so t u, out.steps[r]? = some so ∧ so.summed[i]? = some t ∧ so.moved[i]? = some u ∧ t.globalIndex = s.globalIndex ∧
        (u.globalIndex = s.globalIndex ∧ SameBody u s) ∧
        (t.force, t.torque) = at6 (rk.force.getD []) i +
          (force (C88_solved ranks out.pools) s.globalIndex, torque (C88_solved ranks out.pools) s.globalIndex) ∧
        (t.forceCol = force ((C88_solved ranks out.pools).filter fun x => !x.1.bilateral) s.globalIndex ∧
          t.torqueCol = torque ((C88_solved ranks out.pools).filter fun x => !x.1.bilateral) s.globalIndex) ∧
        (t.forceBi = force ((C88_solved ranks out.pools).filter fun x => x.1.bilateral) s.globalIndex ∧
          t.torqueBi = torque ((C88_solved ranks out.pools).filter fun x => x.1.bilateral) s.globalIndex) ∧
        (cfg.sylinderFixed = false → u.pos = s.pos + cfg.dt • U s.globalIndex ∧
          u.orientation = Equatn.rotateEquatn s.orientation (W s.globalIndex) cfg.dt) ∧
        (cfg.sylinderFixed = true → u.pos = s.pos ∧ u.orientation = s.orientation) := by
  have hok : ∀ r ∈ ranks, RankOk cfg r := fun r hr => C88_ok cfg r (hready r hr)
  obtain ⟨pre, hpre, hP⟩ := pre_spec cfg hmu hdt ranks hok
  have hsz := pre_sizes cfg ranks pre hP
  have hfit := pre_fits cfg hmu ranks pre hP hok
  unfold runStepAll at hout
  rw [hpre] at hout
  simp only [Option.bind_eq_bind, Option.bind_some, Option.bind_eq_some_iff] at hout
  obtain ⟨sys, hsys, hout⟩ := hout
  set ns := ranks.map fun r => r.bodies.length with hns
  set sizes := pre.map fun p => p.2.1.length with hsizes
  set vnc := (pre.map fun p => p.2.1).flatten with hvnc
  set blocks := ranks.flatMap fun r => r.pool.flatten with hblocks
  obtain ⟨hcol, rfl⟩ := setupAll_eq' cfg.dt ranks _ sys hm hv hsys (pre.map Prod.fst) (by rw [List.map_map]; rfl) vnc
    (by rw [List.map_map]; rfl) sizes (by rw [List.map_map]; rfl)
  have hk : vnc.length = sizes.sum := by rw [hvnc, List.length_flatten, List.map_map]; rfl
  cases hs : (problemOf blocks (pre.map Prod.fst) sizes vnc cfg.dt).solveConstraints fl fuel c with
  | error e => rw [hs] at hout; cases hout
  | ok s =>
  rw [hs] at hout
  simp only [Option.bind_eq_some_iff, Option.some.injEq] at hout
  obtain ⟨pools, hpools, steps, hsteps, rfl⟩ := hout
  have fpools := mapM_forall₂ _ _ _ hpools
  have fsteps := mapM_forall₂ _ _ _ hsteps
  -- a body in the data of all ranks
  have hbody : ∀ (r i : ℕ) (rk : RankIn) (D : Draws) (b : Sylinder), ranks[r]? = some rk → rk.bodies[i]? = some (D, b) →
      ∃ so t u, steps[r]? = some so ∧ so.summed[i]? = some t ∧ so.moved[i]? = some u ∧ t.globalIndex = b.globalIndex ∧
        b.globalIndex = ((ns.take r).sum + i : ℕ) ∧ SameBody t b ∧ t.pos = b.pos ∧ t.orientation = b.orientation ∧
        (t.vel, t.omega) = at6 vnc ((ns.take r).sum + i) + at6 (List.ofFn s.velU) ((ns.take r).sum + i) +
          at6 (List.ofFn s.velB) ((ns.take r).sum + i) ∧
        (t.force, t.torque) = at6 (rk.force.getD []) i + at6 (List.ofFn s.forceU) ((ns.take r).sum + i) +
          at6 (List.ofFn s.forceB) ((ns.take r).sum + i) ∧
        ((t.forceCol, t.torqueCol) = at6 (List.ofFn s.forceU) ((ns.take r).sum + i) ∧
          (t.forceBi, t.torqueBi) = at6 (List.ofFn s.forceB) ((ns.take r).sum + i)) ∧
        u = if cfg.sylinderFixed then t else t.stepEuler cfg.dt := by
    intro r i rk D b hr hi
    obtain ⟨p, hp, hP1, -, hP3⟩ := forall₂_at hP r rk hr
    have hilt : i < rk.bodies.length := (List.getElem?_eq_some_iff.1 hi).1
    have hnr : ns[r]? = some rk.bodies.length := by rw [hns, List.getElem?_map, hr]; rfl
    have hsr : sizes[r]? = some (6 * rk.bodies.length) := by rw [hsz, List.getElem?_map, hnr]; rfl
    obtain ⟨o, ho, ⟨a1, b1⟩, ⟨a2, b2⟩, ⟨a3, b3⟩, ⟨a4, b4⟩⟩ := solverOuts_at sizes s hk.symm r _ hsr
    obtain ⟨so, hso, hafter⟩ := forall₂_at fsteps r (p, o) (List.getElem?_zip_eq_some.2 ⟨hp, ho⟩)
    obtain ⟨so', hso', -, hall⟩ := afterSolve_spec cfg hmu hdt hno rk (hok rk (List.mem_of_getElem? hr)) p.1 p.2.1 p.2.2 hP1 o b1 b2 b3 b4
    have hafter : afterSolve cfg p.2.1 o p.2.2 = some so := hafter
    rw [hafter] at hso'
    cases hso'
    obtain ⟨t, u, h1, h2, h3, h3', h4, h5, h6, h7, h9, h8⟩ := hall i D b hi
    have hflat : ∀ f : Vec vnc.length, ∀ l, (parts sizes (List.ofFn f))[r]? = some l → at6 (List.ofFn f) ((ns.take r).sum + i) = at6 l i := by
      intro f l hl
      have hfl : sizes.sum = (List.ofFn f).length := by rw [List.length_ofFn, hk]
      have := at6_flatten (parts sizes (List.ofFn f)) ns (by rw [parts_sizes _ _ hfl, hsz]) r i l _ hl hnr hilt
      rwa [(parts_forall₂ sizes _ hfl).2] at this
    have hv0 : at6 vnc ((ns.take r).sum + i) = at6 p.2.1 i :=
      at6_flatten (pre.map fun p => p.2.1) ns (by rw [List.map_map, ← hsz]; rfl) r i p.2.1 _ (by rw [List.getElem?_map, hp]; rfl) hnr hilt
    have hg : (ranks.flatMap RankIn.bodies)[(ns.take r).sum + i]? = some (D, b) := by
      have := flatten_getElem? (ranks.map RankIn.bodies) r i rk.bodies (D, b) (by rw [List.getElem?_map, hr]; rfl) hi
      rw [List.flatMap_def]
      rw [List.map_take, List.map_map] at this
      exact this
    refine ⟨so, t, u, hso, h1, h2, h3, hidx _ D b hg, h3', h4, h5, ?_, ?_, ?_, h8⟩
    · rw [hv0, hflat _ _ a2, hflat _ _ a4]; exact h6
    · rw [hflat _ _ a1, hflat _ _ a3]; exact h7
    · rw [hflat _ _ a1, hflat _ _ a3]; exact h9
  have htot : ∀ j, vnc.get j + s.velU j + s.velB j = velVec U W (j : ℕ) := by
    intro j
    have hj : (j : ℕ) < 6 * ns.sum := by
      have h1 := j.2
      have h2 : sizes.sum = 6 * ns.sum := by rw [hsz, List.sum_map_mul_left, List.map_id']
      omega
    obtain ⟨r, i, q, hq, hi, hpos⟩ := flatten_pos (ranks.map RankIn.bodies) ((j : ℕ) / 6) (by
      have : (ranks.map RankIn.bodies).flatten.length = ns.sum := by rw [List.length_flatten, List.map_map]; rfl
      omega)
    rw [List.getElem?_map, Option.map_eq_some_iff] at hq
    obtain ⟨rk, hr, rfl⟩ := hq
    have hpos : (ns.take r).sum + i = (j : ℕ) / 6 := by
      rw [← hpos, List.map_take, List.map_map]; rfl
    obtain ⟨so, t, u, g1, g2, g3, g4, g5, -, -, -, g6, -⟩ := hbody r i rk _ _ hr (List.getElem?_eq_getElem hi)
    obtain ⟨gU, gW⟩ := hUW so (List.mem_of_getElem? g1) t (List.mem_of_getElem? g2)
    rw [g4, g5] at gU gW
    obtain ⟨g, hg⟩ : ∃ g, (ns.take r).sum + i = g := ⟨_, rfl⟩
    obtain ⟨t6, ht6⟩ : ∃ t6 : Fin 6, (j : ℕ) = 6 * g + t6 := ⟨⟨(j : ℕ) % 6, by omega⟩, by simp only; omega⟩
    rw [hg] at g6 gU gW
    rw [get_at6 vnc g t6 j ht6, ofFn_at6 s.velU g t6 j ht6, ofFn_at6 s.velB g t6 j ht6, ht6,
      show (((6 * g + (t6 : ℕ) : ℕ) : ℕ) : ℤ) = 6 * (g : ℤ) + (t6 : ℕ) by push_cast; rfl, velVec_at, gU, gW, ← comp_add, ← comp_add]
    rw [Prod.ext_iff] at g6
    exact congrArg₂ (comp t6) g6.1.symm g6.2.symm
  obtain ⟨hgl, hsolves, hforce, hforceU, hforceB⟩ := problem_spec blocks (pre.map Prod.fst) sizes hfit vnc hk cfg.dt hdt hcol (by
    intro b hb
    obtain ⟨r, hr, hb⟩ := List.mem_flatMap.1 hb
    exact hguess r hr b hb) fl fuel c s hs last hlast hc hap (velVec U W) U W (velVec_is U W) htot
  -- the pools
  set rows := ranks.map fun r => r.pool.flatten.length with hrows
  have hrs : rows.sum = (List.ofFn s.gamma).length := by
    rw [hgl, hblocks, hrows, List.length_flatMap]
  have hpool : ∀ (r : ℕ) (rk : RankIn), ranks[r]? = some rk → ∃ g p, (parts rows (List.ofFn s.gamma))[r]? = some g ∧
      g.length = rk.pool.flatten.length ∧ pools[r]? = some p ∧ writeBackGamma rk.pool g = some p := by
    intro r rk hr
    obtain ⟨g, h1, h2⟩ := parts_at rows _ hrs r rk.pool.flatten.length (by rw [hrows, List.getElem?_map, hr]; rfl)
    obtain ⟨p, h3, h4⟩ := forall₂_at fpools r (rk, g) (List.getElem?_zip_eq_some.2 ⟨hr, h1⟩)
    exact ⟨g, p, h1, h2, h3, h4⟩
  have hpl : pools.length = ranks.length := by
    rw [← fpools.length_eq, List.length_zip, ← List.length_map (f := List.length) (as := parts rows (List.ofFn s.gamma)), parts_sizes _ _ hrs, hrows, List.length_map,
      min_self]
  have hshape : (pools.map fun p => p.map List.length) = (ranks.map fun r => r.pool.map List.length) := by
    apply List.ext_getElem?
    intro r
    rw [List.getElem?_map, List.getElem?_map]
    by_cases h : r < ranks.length
    · obtain ⟨g, p, h1, h2, h3, h4⟩ := hpool r ranks[r] (List.getElem?_eq_getElem h)
      rw [h3, List.getElem?_eq_getElem h]
      exact congrArg some (writeBack_flat _ _ _ h2 h4).1
    · rw [List.getElem?_eq_none (by omega), List.getElem?_eq_none (by omega)]; rfl
  have hgam : (pools.flatMap fun p => p.flatten).map Block.gamma = List.ofFn s.gamma := by
    have : (pools.map fun p => p.flatten.map Block.gamma) = parts rows (List.ofFn s.gamma) := by
      apply List.ext_getElem?
      intro r
      have hl2 : (parts rows (List.ofFn s.gamma)).length = ranks.length := by
        rw [← List.length_map (f := List.length) (as := parts rows (List.ofFn s.gamma)), parts_sizes _ _ hrs, hrows, List.length_map]
      rw [List.getElem?_map]
      by_cases h : r < ranks.length
      · obtain ⟨g, p, h1, h2, h3, h4⟩ := hpool r ranks[r] (List.getElem?_eq_getElem h)
        rw [h3, h1]
        exact congrArg some (writeBack_flat _ _ _ h2 h4).2.1
      · rw [List.getElem?_eq_none (by omega), List.getElem?_eq_none (by omega)]; rfl
    rw [List.map_flatMap, List.flatMap_def, this, (parts_forall₂ rows _ hrs).2]
  refine ⟨hshape, ?_, ?_⟩
  · intro r i j rk q b hr hi hj
    obtain ⟨g, p, h1, h2, h3, h4⟩ := hpool r rk hr
    obtain ⟨-, -, h5⟩ := writeBack_flat _ _ _ h2 h4
    obtain ⟨q', b', a1, a2, a3, a4, a5⟩ := h5 i j q b hi hj
    refine ⟨p, q', b', h3, a1, a2, a3, ?_⟩
    have k1 := flatten_getElem? (ranks.map fun r => r.pool.flatten) r _ _ b (by rw [List.getElem?_map, hr]; rfl) a4
    have k2 := flatten_getElem? (parts rows (List.ofFn s.gamma)) r _ g b'.gamma h1 a5
    rw [(parts_forall₂ rows _ hrs).2, List.map_take, parts_sizes _ _ hrs] at k2
    rw [List.map_take, List.map_map, ← List.flatMap_def] at k1
    exact hsolves _ b b'.gamma k1 k2
  · intro r i rk D b hr hi
    obtain ⟨so, t, u, g1, g2, g3, g4, g5, g5', g6, g7, g8, g9, g11, g10⟩ := hbody r i rk D b hr hi
    obtain ⟨gU, gW⟩ := hUW so (List.mem_of_getElem? g1) t (List.mem_of_getElem? g2)
    obtain ⟨g, hg⟩ : ∃ g, (ns.take r).sum + i = g := ⟨_, rfl⟩
    rw [hg] at g5 g9 g11
    have hlt : ∀ t6 : Fin 6, 6 * g + (t6 : ℕ) < vnc.length := by
      intro t6
      have hilt : i < rk.bodies.length := (List.getElem?_eq_some_iff.1 hi).1
      have hgl : g < ns.sum := by
        have hsplit : ns.sum = (ns.take r).sum + (ns.drop r).sum := by rw [← List.sum_append, List.take_append_drop]
        have hnr : ns[r]? = some rk.bodies.length := by rw [hns, List.getElem?_map, hr]; rfl
        obtain ⟨hlt, hnr⟩ := List.getElem?_eq_some_iff.1 hnr
        rw [List.drop_eq_getElem_cons hlt, List.sum_cons, hnr] at hsplit
        omega
      have h2 : sizes.sum = 6 * ns.sum := by rw [hsz, List.sum_map_mul_left, List.map_id']
      have := t6.2
      omega
    have hcast : ∀ t6 : Fin 6, (((⟨6 * g + (t6 : ℕ), hlt t6⟩ : Fin vnc.length) : ℕ) : ℤ) = 6 * (g : ℤ) + (t6 : ℕ) := by
      intro t6; push_cast; rfl
    have hsame : u.globalIndex = b.globalIndex ∧ SameBody u b := by
      have : u.globalIndex = t.globalIndex ∧ SameBody u t := by
        rw [g10]
        cases cfg.sylinderFixed
        · exact ⟨rfl, rfl, rfl, rfl, rfl, rfl, rfl, rfl, rfl⟩
        · exact ⟨rfl, rfl, rfl, rfl, rfl, rfl, rfl, rfl, rfl⟩
      exact ⟨this.1.trans g4, this.2.gid.trans g5'.gid, this.2.group.trans g5'.group, this.2.isImmovable.trans g5'.isImmovable,
        this.2.radius.trans g5'.radius, this.2.length.trans g5'.length, this.2.radiusCollision.trans g5'.radiusCollision,
        this.2.lengthCollision.trans g5'.lengthCollision, this.2.colBuf.trans g5'.colBuf⟩
    refine ⟨so, t, u, g1, g2, g3, g4, hsame, ?_, ?_, ?_, ?_, ?_⟩
    · rw [g9, pair_assoc]
      congr 1
      apply pair_comp
      intro t6
      have hf := hforce ⟨6 * g + t6, hlt t6⟩
      rw [ofFn_at6 s.forceU g t6 _ rfl, ofFn_at6 s.forceB g t6 _ rfl, ← comp_add] at hf
      rw [hcast, blocks_trans] at hf
      rw [g5]
      unfold C88_solved
      rw [hgam]
      exact hf
    · have : at6 (List.ofFn s.forceU) g = (force ((C88_solved ranks pools).filter fun x => !x.1.bilateral) b.globalIndex,
          torque ((C88_solved ranks pools).filter fun x => !x.1.bilateral) b.globalIndex) := by
        apply pair_comp
        intro t6
        have hf := hforceU ⟨6 * g + t6, hlt t6⟩
        rw [ofFn_at6 s.forceU g t6 _ rfl, hcast, blocks_trans] at hf
        rw [g5, hf]
        unfold C88_solved force torque
        rw [hgam]
        have e : (fun (b : Block) (c : ℝ) => if b.bilateral then 0 else c) = fun b c => if !b.bilateral then c else 0 := by
          funext b c; cases b.bilateral <;> rfl
        rw [e, vsum_zip (fun b => !b.bilateral) (fun b => unitForce b g), vsum_zip (fun b => !b.bilateral) (fun b => unitTorque b g)]
      rw [this] at g11
      exact ⟨congrArg Prod.fst g11.1, congrArg Prod.snd g11.1⟩
    · have : at6 (List.ofFn s.forceB) g = (force ((C88_solved ranks pools).filter fun x => x.1.bilateral) b.globalIndex,
          torque ((C88_solved ranks pools).filter fun x => x.1.bilateral) b.globalIndex) := by
        apply pair_comp
        intro t6
        have hf := hforceB ⟨6 * g + t6, hlt t6⟩
        rw [ofFn_at6 s.forceB g t6 _ rfl, hcast, blocks_trans] at hf
        rw [g5, hf]
        unfold C88_solved force torque
        rw [hgam, vsum_zip (fun b => b.bilateral) (fun b => unitForce b g), vsum_zip (fun b => b.bilateral) (fun b => unitTorque b g)]
      rw [this] at g11
      exact ⟨congrArg Prod.fst g11.2, congrArg Prod.snd g11.2⟩
    · intro hfix
      rw [hfix] at g10
      rw [g10]
      rw [g4] at gU gW
      rw [gU, gW, ← g6, ← g7]
      exact ⟨rfl, rfl⟩
    · intro hfix
      rw [hfix] at g10
      rw [g10]
      exact ⟨g6, g7⟩

/-- The sizes of a step fit: the constraints of the rank join bodies of the system (`N` bodies on all ranks), and the indices
are below the largest `int`. -/
def C88_Fits (N : ℕ) (r : RankIn) : Prop :=
  (∀ q ∈ r.pool, ∀ b ∈ q, (0 ≤ b.globalIndexI ∧ b.globalIndexI < N) ∧ (b.oneSide = false → 0 ≤ b.globalIndexJ ∧ b.globalIndexJ < N)) ∧
  (((r.pool.flatten.map (fun b => if b.oneSide then 6 else 12)).sum : ℕ) : ℤ) ≤ 2 ^ 31 - 1 ∧ r.mobMin ≤ r.mobMax + 1

theorem C88_built (N : ℕ) (hN : 6 * (N : ℤ) ≤ 2 ^ 31 - 1) (r : RankIn) (ho : r.matOrder.Perm (matrixWrites r.pool)) (h : C88_Fits N r) :
    ∃ A, buildMatrix r.pool r.mobMin r.mobMax r.matOrder = some A := by
  rw [C27_build_defined _ _ _ _ ho]
  refine ⟨?_, h.2.1, h.2.2⟩
  intro q hq b hb
  obtain ⟨h1, h2⟩ := h.1 q hq b hb
  refine ⟨⟨by omega, by omega⟩, fun hs => ?_⟩
  obtain ⟨h3, h4⟩ := h2 hs
  exact ⟨by omega, by omega⟩

theorem C88_cols (ranks : List RankIn) (hf : ∀ r ∈ ranks, C88_Fits (ranks.flatMap RankIn.bodies).length r) :
    ∀ b ∈ ranks.flatMap (fun r => r.pool.flatten), ∀ e ∈ blockEntries b, 0 ≤ e.1 ∧ e.1 < 6 * ((ranks.flatMap RankIn.bodies).length : ℤ) := by
  intro b hb
  obtain ⟨r, hr, hb⟩ := List.mem_flatMap.1 hb
  obtain ⟨q, hq, hb⟩ := List.mem_flatten.1 hb
  obtain ⟨h1, h2⟩ := (hf r hr).1 q hq b hb
  exact blockEntries_cols b _ h1 h2

theorem C88_length (cfg : Cfg) (ranks : List RankIn) (pre : List (Csr × List ℝ × List Sylinder)) (hP : List.Forall₂ (Pre cfg) ranks pre) :
    (pre.map fun p => p.2.1).flatten.length = 6 * (ranks.flatMap RankIn.bodies).length := by
  have hsz := pre_sizes cfg ranks pre hP
  rw [List.length_flatten, List.map_map, List.length_flatMap]
  show (pre.map fun p => p.2.1.length).sum = _
  rw [hsz, List.sum_map_mul_left, List.map_id']

/-- With the gradient solver and exact comparisons the step is defined on all ranks, whatever the constraints: nothing is read
or written outside of an array and no check stops the program. -/
theorem C88_defined (cfg : Cfg) (hmu : 0 < cfg.viscosity) (hdt : 0 < cfg.dt) (c : Control) (hch : c.choice ≠ 1) (hres : 0 < c.res)
    (fuel : ℕ) (ranks : List RankIn) (hready : ∀ r ∈ ranks, C88_Ready r)
    (hm : ∀ r ∈ ranks, r.matOrder.Perm (matrixWrites r.pool)) (hv : ∀ r ∈ ranks, r.vecOrder.Perm (vectorWrites r.pool))
    (hN : 6 * ((ranks.flatMap RankIn.bodies).length : ℤ) ≤ 2 ^ 31 - 1)
    (hf : ∀ r ∈ ranks, C88_Fits (ranks.flatMap RankIn.bodies).length r) :
    ∃ out, runStepAll cfg c id fuel ranks = some out := by
  have hok : ∀ r ∈ ranks, RankOk cfg r := fun r hr => C88_ok cfg r (hready r hr)
  obtain ⟨pre, hpre, hP⟩ := pre_spec cfg hmu hdt ranks hok
  obtain ⟨out, hout⟩ := C20_returns (fun x => ((problemOf (ranks.flatMap fun r => r.pool.flatten) (pre.map Prod.fst) (pre.map fun p => p.2.1.length)
    (pre.map fun p => p.2.1).flatten cfg.dt).op.applyCol x 0 1 0).1)
    (problemOf (ranks.flatMap fun r => r.pool.flatten) (pre.map Prod.fst) (pre.map fun p => p.2.1.length) (pre.map fun p => p.2.1).flatten cfg.dt).q
    (lowerBound (problemOf (ranks.flatMap fun r => r.pool.flatten) (pre.map Prod.fst) (pre.map fun p => p.2.1.length) (pre.map fun p => p.2.1).flatten cfg.dt).biFlag)
    defaultUpper
    (problemOf (ranks.flatMap fun r => r.pool.flatten) (pre.map Prod.fst) (pre.map fun p => p.2.1.length) (pre.map fun p => p.2.1).flatten cfg.dt).gamma0
    c.res hres c.maxIte []
  have hs : ∃ s, (problemOf (ranks.flatMap fun r => r.pool.flatten) (pre.map Prod.fst) (pre.map fun p => p.2.1.length)
      (pre.map fun p => p.2.1).flatten cfg.dt).solveConstraints id fuel c = .ok s := by
    unfold Prepared.solveConstraints
    have : (problemOf (ranks.flatMap fun r => r.pool.flatten) (pre.map Prod.fst) (pre.map fun p => p.2.1.length)
        (pre.map fun p => p.2.1).flatten cfg.dt).run id fuel c = .ok out := by
      unfold Prepared.run
      rw [if_neg hch]
      exact hout
    rw [this]
    exact ⟨_, rfl⟩
  obtain ⟨s, hs⟩ := hs
  obtain ⟨o, ho, -⟩ := runStepAll_ex cfg hmu hdt c id fuel ranks hok hm hv (fun r hr => C88_built _ hN r (hm r hr) (hf r hr)) pre hpre hP _ rfl _ rfl _ rfl
    (by
      have := C88_cols ranks hf
      rw [C88_length cfg ranks pre hP]
      push_cast
      exact this) s hs
  exact ⟨o, ho⟩

/-- If the guesses are zero, and the velocity without constraints (`U`, `W`, per global index) lets no contact close within the step
and brings every spring to its rest length, the solver stops at its first check with all multipliers zero, and every rank makes
the step that it would make without constraints. -/
theorem C88_free (cfg : Cfg) (hmu : 0 < cfg.viscosity) (hdt : 0 < cfg.dt) (c : Control) (hch : c.choice ≠ 1) (hres : 0 < c.res)
    (fuel : ℕ) (ranks : List RankIn) (hready : ∀ r ∈ ranks, C88_Ready r)
    (hm : ∀ r ∈ ranks, r.matOrder.Perm (matrixWrites r.pool)) (hv : ∀ r ∈ ranks, r.vecOrder.Perm (vectorWrites r.pool))
    (hN : 6 * ((ranks.flatMap RankIn.bodies).length : ℤ) ≤ 2 ^ 31 - 1)
    (hf : ∀ r ∈ ranks, C88_Fits (ranks.flatMap RankIn.bodies).length r)
    (hidx : ∀ (g : ℕ) (W : Draws) (s : Sylinder), (ranks.flatMap RankIn.bodies)[g]? = some (W, s) → s.globalIndex = g)
    (huni : ∀ r ∈ ranks, ∀ b ∈ r.pool.flatten, b.gamma = 0) (U W : ℤ → V3)
    (hUW : ∀ r ∈ ranks, ∀ so, runStep cfg r.force r.velPart (noConstraints r.bodies.length) r.bodies = some so →
      ∀ (i : ℕ) (D : Draws) (s : Sylinder), r.bodies[i]? = some (D, s) → at6 so.velNonCon i = (U s.globalIndex, W s.globalIndex))
    (hsep : ∀ r ∈ ranks, ∀ b ∈ r.pool.flatten, (b.bilateral = false → 0 ≤ b.delta0 + cfg.dt * gapRate U W b) ∧
      (b.bilateral = true → b.delta0 + cfg.dt * gapRate U W b = 0)) :
    ∃ out, runStepAll cfg c id fuel ranks = some out ∧ out.history = [⟨0, 0, 0, 1⟩] ∧ out.steps.length = ranks.length ∧
      (∀ (r : ℕ) (rk : RankIn), ranks[r]? = some rk → ∃ so, out.steps[r]? = some so ∧
        runStep cfg rk.force rk.velPart (noConstraints rk.bodies.length) rk.bodies = some so) ∧
      ∀ (r i j : ℕ) (rk : RankIn) (q : List Block) (b : Block), ranks[r]? = some rk → rk.pool[i]? = some q → q[j]? = some b →
        ∃ p q' b', out.pools[r]? = some p ∧ p[i]? = some q' ∧ q'[j]? = some b' ∧ b'.gamma = 0 := by
  have hok : ∀ r ∈ ranks, RankOk cfg r := fun r hr => C88_ok cfg r (hready r hr)
  obtain ⟨pre, hpre, hP⟩ := pre_spec cfg hmu hdt ranks hok
  have hsz := pre_sizes cfg ranks pre hP
  have hfit := pre_fits cfg hmu ranks pre hP hok
  have hlen := C88_length cfg ranks pre hP
  have hcol := C88_cols ranks hf
  obtain ⟨ns, hns⟩ : ∃ ns, ns = ranks.map fun r => r.bodies.length := ⟨_, rfl⟩
  obtain ⟨sizes, hsizes⟩ : ∃ sizes, sizes = pre.map fun p => p.2.1.length := ⟨_, rfl⟩
  obtain ⟨vnc, hvnc⟩ : ∃ vnc, vnc = (pre.map fun p => p.2.1).flatten := ⟨_, rfl⟩
  obtain ⟨blocks, hblocks⟩ : ∃ blocks, blocks = ranks.flatMap fun r => r.pool.flatten := ⟨_, rfl⟩
  rw [← hsizes] at hsz hfit
  rw [← hvnc] at hlen
  rw [← hblocks] at hcol
  rw [← hns] at hsz
  have hk : vnc.length = sizes.sum := by rw [hvnc, hsizes, List.length_flatten, List.map_map]; rfl
  have hcol' : ∀ b ∈ blocks, ∀ e ∈ blockEntries b, 0 ≤ e.1 ∧ e.1 < (vnc.length : ℤ) := by
    rw [hlen]; push_cast; exact hcol
  have hnone : ∀ (r : ℕ) (rk : RankIn), ranks[r]? = some rk → ∃ p so, pre[r]? = some p ∧ Pre cfg rk p ∧
      runStep cfg rk.force rk.velPart (noConstraints rk.bodies.length) rk.bodies = some so ∧ so.velNonCon = p.2.1 := by
    intro r rk hr
    obtain ⟨p, hp, hP1⟩ := forall₂_at hP r rk hr
    obtain ⟨so, hso⟩ := afterSolve_ex cfg hmu hdt rk (hok rk (List.mem_of_getElem? hr)) p.1 p.2.1 p.2.2 hP1.1
      ⟨flat6 (List.replicate rk.bodies.length (0, 0)), flat6 (List.replicate rk.bodies.length (0, 0)), flat6 (List.replicate rk.bodies.length (0, 0)),
        flat6 (List.replicate rk.bodies.length (0, 0))⟩ (by simp [flat6_length]) (by simp [flat6_length]) (by simp [flat6_length]) (by simp [flat6_length])
    refine ⟨p, so, hp, hP1, ?_, ?_⟩
    · have := runStep_before cfg rk.force rk.velPart ⟨flat6 (List.replicate rk.bodies.length (0, 0)), flat6 (List.replicate rk.bodies.length (0, 0)),
        flat6 (List.replicate rk.bodies.length (0, 0)), flat6 (List.replicate rk.bodies.length (0, 0))⟩ rk.bodies p.1 p.2.1 p.2.2 hP1.1
      rw [hso] at this
      exact this
    · unfold afterSolve at hso
      simp only [Option.map_eq_some_iff] at hso
      obtain ⟨-, -, rfl⟩ := hso
      rfl
  have hX : ∀ j : Fin vnc.length, vnc.get j = velVec U W (j : ℕ) := by
    intro j
    have hj : (j : ℕ) < 6 * ns.sum := by
      have h1 := j.2
      have h2 : sizes.sum = 6 * ns.sum := by rw [hsz, List.sum_map_mul_left, List.map_id']
      omega
    obtain ⟨r, i, q, hq, hi, hpos⟩ := flatten_pos (ranks.map RankIn.bodies) ((j : ℕ) / 6) (by
      have : (ranks.map RankIn.bodies).flatten.length = ns.sum := by rw [List.length_flatten, List.map_map, hns]; rfl
      omega)
    rw [List.getElem?_map, Option.map_eq_some_iff] at hq
    obtain ⟨rk, hr, rfl⟩ := hq
    have hpos : (ns.take r).sum + i = (j : ℕ) / 6 := by
      rw [← hpos, List.map_take, List.map_map, hns]; rfl
    obtain ⟨p, so, hp, -, hrun, hvn⟩ := hnone r rk hr
    have hat := hUW rk (List.mem_of_getElem? hr) so hrun i _ _ (List.getElem?_eq_getElem hi)
    rw [hvn] at hat
    have hg : (ranks.flatMap RankIn.bodies)[(ns.take r).sum + i]? = some rk.bodies[i] := by
      have := flatten_getElem? (ranks.map RankIn.bodies) r i rk.bodies rk.bodies[i] (by rw [List.getElem?_map, hr]; rfl) (List.getElem?_eq_getElem hi)
      rw [List.flatMap_def]
      rw [List.map_take, List.map_map] at this
      rw [hns]
      exact this
    have hgi := hidx _ _ _ hg
    have hv0 : at6 vnc ((ns.take r).sum + i) = at6 p.2.1 i := by
      rw [hvnc]
      exact at6_flatten (pre.map fun p => p.2.1) ns (by rw [List.map_map, ← hsz, hsizes]; rfl) r i p.2.1 rk.bodies.length (by rw [List.getElem?_map, hp]; rfl)
        (by rw [hns, List.getElem?_map, hr]; rfl) hi
    obtain ⟨g, hgd⟩ : ∃ g, (ns.take r).sum + i = g := ⟨_, rfl⟩
    obtain ⟨t6, ht6⟩ : ∃ t6 : Fin 6, (j : ℕ) = 6 * g + t6 := ⟨⟨(j : ℕ) % 6, by omega⟩, by simp only; omega⟩
    rw [hgd] at hv0 hgi
    rw [hgi] at hat
    rw [get_at6 vnc g t6 j ht6, ht6, show (((6 * g + (t6 : ℕ) : ℕ) : ℕ) : ℤ) = 6 * (g : ℤ) + (t6 : ℕ) by push_cast; rfl, velVec_at, hv0, hat]
  have hent : ∀ i : Fin (blocks.map blockEntries).length, (blocks.map vecEntry).get (Fin.cast (by simp) i) =
      vecEntry (blocks[(i : ℕ)]'(by simpa using i.2)) := by intro i; simp
  have hmemb : ∀ b ∈ blocks, b.gamma = 0 ∧ (b.bilateral = false → 0 ≤ b.delta0 + cfg.dt * gapRate U W b) ∧
      (b.bilateral = true → b.delta0 + cfg.dt * gapRate U W b = 0) := by
    intro b hb
    rw [hblocks] at hb
    obtain ⟨r, hr, hb⟩ := List.mem_flatMap.1 hb
    exact ⟨huni r hr b hb, hsep r hr b hb⟩
  have hve : ∀ b ∈ blocks, (vecEntry b).delta0 = b.delta0 ∧ (vecEntry b).gammaGuess = b.gamma ∧ (vecEntry b).biFlag = if b.bilateral then 1 else 0 :=
    fun b _ => by
      unfold vecEntry
      cases b.bilateral <;> exact ⟨rfl, rfl, rfl⟩
  obtain ⟨s, hs, hg, hhist, h1, h2, h3, h4⟩ := first_check (problemOf blocks (pre.map Prod.fst) sizes vnc cfg.dt) c fuel hch hres
    (mobVec_linear _ sizes hfit _ hk)
    (by
      funext i
      have : (problemOf blocks (pre.map Prod.fst) sizes vnc cfg.dt).gamma0 i = _ := congrArg VecEntry.gammaGuess (hent i)
      rw [this, (hve _ (List.getElem_mem _)).2.1, (hmemb _ (List.getElem_mem _)).1]
      rfl)
    (by
      show ∀ i : Fin (blocks.map blockEntries).length, _
      intro i
      obtain ⟨b, hb, hbm⟩ : ∃ b, vecEntry b = (blocks.map vecEntry).get (Fin.cast (by simp) i) ∧ b ∈ blocks ∧
          (blocks.map blockEntries).get i = blockEntries b := ⟨_, (hent i).symm, List.getElem_mem _, by simp⟩
      have hbi : (problemOf blocks (pre.map Prod.fst) sizes vnc cfg.dt).biFlag i = if b.bilateral then 1 else 0 := by
        have : (problemOf blocks (pre.map Prod.fst) sizes vnc cfg.dt).biFlag i = ((blocks.map vecEntry).get (Fin.cast (by simp) i)).biFlag := rfl
        rw [this, ← hb, (hve b hbm.1).2.2]
      have hqi : (problemOf blocks (pre.map Prod.fst) sizes vnc cfg.dt).q i =
          (1 / cfg.dt) * ((blocks.map vecEntry).get (Fin.cast (by simp) i)).delta0 +
            ((1 : ℝ) * ∑ j : Fin vnc.length, denseRow ((blocks.map blockEntries).get i) ((j : ℕ) : ℤ) * vnc.get j + 0 * 0) := rfl
      rw [← hb, hbm.2, (hve b hbm.1).1, denseRow_apply vnc.get (velVec U W) hX (blockEntries b) (hcol' b hbm.1),
        block_apply _ U W (velVec_is U W)] at hqi
      have hd : (1 / cfg.dt) * b.delta0 + (1 * gapRate U W b + 0 * 0) = (1 / cfg.dt) * (b.delta0 + cfg.dt * gapRate U W b) := by
        field_simp
        ring
      rw [hbi, hqi, hd]
      obtain ⟨-, g1, g2⟩ := hmemb b hbm.1
      cases hbb : b.bilateral with
      | false =>
        left
        have := g1 hbb
        exact ⟨rfl, by positivity⟩
      | true =>
        right
        rw [g2 hbb, mul_zero]
        exact ⟨rfl, rfl⟩)
  obtain ⟨out, hout, hh, hsl, hst, hpo⟩ := runStepAll_ex cfg hmu hdt c id fuel ranks hok hm hv (fun r hr => C88_built _ hN r (hm r hr) (hf r hr)) pre hpre hP
    blocks hblocks vnc hvnc sizes hsizes hcol' s hs
  refine ⟨out, hout, hh.trans hhist, hsl, ?_, ?_⟩
  · intro r rk hr
    obtain ⟨p, o, so, a1, a2, a3, a4, a5⟩ := hst r rk hr
    refine ⟨so, a4, ?_⟩
    have hsr : sizes[r]? = some (6 * rk.bodies.length) := by rw [hsz, hns, List.getElem?_map, List.getElem?_map, hr]; rfl
    obtain ⟨o', ho', ⟨c1, b1⟩, ⟨c2, b2⟩, ⟨c3, b3⟩, ⟨c4, b4⟩⟩ := solverOuts_at sizes s hk.symm r _ hsr
    rw [a3] at ho'
    cases ho'
    have hz : ∀ (f : Vec vnc.length) (l : List ℝ), f = 0 → (parts sizes (List.ofFn f))[r]? = some l → l.length = 6 * rk.bodies.length →
        l = flat6 (List.replicate rk.bodies.length (0, 0)) := by
      intro f l hf0 hl hll
      have e1 : ∀ x ∈ l, x = 0 := by
        intro x hx
        have hfl : sizes.sum = (List.ofFn f).length := by rw [List.length_ofFn, hk]
        have hin : x ∈ (parts sizes (List.ofFn f)).flatten := List.mem_flatten.2 ⟨l, List.mem_of_getElem? hl, hx⟩
        rw [(parts_forall₂ sizes _ hfl).2, hf0] at hin
        obtain ⟨i, hi⟩ := List.mem_ofFn.1 hin
        exact hi.symm
      rw [List.eq_replicate_of_mem e1, hll]
      symm
      rw [List.eq_replicate_iff]
      refine ⟨by simp [flat6_length], ?_⟩
      intro x hx
      unfold flat6 at hx
      simp only [List.mem_flatMap, List.mem_replicate] at hx
      obtain ⟨a, ⟨-, rfl⟩, hx⟩ := hx
      simpa using hx
    have ho : o = ⟨flat6 (List.replicate rk.bodies.length (0, 0)), flat6 (List.replicate rk.bodies.length (0, 0)),
        flat6 (List.replicate rk.bodies.length (0, 0)), flat6 (List.replicate rk.bodies.length (0, 0))⟩ := by
      have z1 := hz _ _ h1 c1 b1
      have z2 := hz _ _ h2 c2 b2
      have z3 := hz _ _ h3 c3 b3
      have z4 := hz _ _ h4 c4 b4
      clear a3 a5 c1 c2 c3 c4 b1 b2 b3 b4
      cases o
      simp only at z1 z2 z3 z4
      rw [z1, z2, z3, z4]
    have := runStep_before cfg rk.force rk.velPart o rk.bodies p.1 p.2.1 p.2.2 a2.1
    rw [a5, ho] at this
    exact this
  · intro r i j rk q b hr hi hj
    obtain ⟨g, p, b1, b2, b3, b4⟩ := hpo r rk hr
    obtain ⟨-, -, b5⟩ := writeBack_flat _ _ _ b2 b4
    obtain ⟨q', b', d1, d2, -, -, d5⟩ := b5 i j q b hi hj
    refine ⟨p, q', b', b3, d1, d2, ?_⟩
    have hgl : (ranks.map fun r => r.pool.flatten.length).sum = (List.ofFn s.gamma).length := by
      rw [List.length_ofFn]
      show _ = (blocks.map blockEntries).length
      rw [List.length_map, hblocks, List.length_flatMap]
    have hin : b'.gamma ∈ (parts (ranks.map fun r => r.pool.flatten.length) (List.ofFn s.gamma)).flatten :=
      List.mem_flatten.2 ⟨g, List.mem_of_getElem? b1, List.mem_of_getElem? d5⟩
    rw [(parts_forall₂ _ _ hgl).2, hg] at hin
    obtain ⟨i, hi⟩ := List.mem_ofFn.1 hin
    exact hi.symm

/-! ### Examples -/

/-- A rank with one rod and a prescribed velocity; the threads write in reverse order. -/
noncomputable def C88_rank (W : Draws) (idx : ℕ) (pool : Pool) (x : Option (V3 × V3)) : RankIn :=
  ⟨[(W, indexedRod idx)], none, x.map fun x => flat6 [x], pool, 6 * idx, 6 * idx + 5, (matrixWrites pool).reverse, (vectorWrites pool).reverse⟩

theorem C88_rank_ready (W : Draws) (idx : ℕ) (pool : Pool) (x : Option (V3 × V3)) : C88_Ready (C88_rank W idx pool x) := by
  refine ⟨?_, ?_, ?_, ?_⟩
  · intro y hy
    simp only [C88_rank, List.mem_singleton] at hy
    subst hy
    exact indexedRod_valid _
  · intro y hy
    simp only [C88_rank, List.mem_singleton] at hy
    subst hy
    exact ⟨rfl, rfl, rfl, rfl⟩
  · intro f hf
    simp [C88_rank] at hf
  · intro f hf
    simp only [C88_rank, Option.map_eq_some_iff] at hf
    obtain ⟨y, -, rfl⟩ := hf
    simp [C88_rank, flat6_length]

noncomputable def C88_cfg : Cfg := { C43_cfg false with KBT := 0 }

theorem C88_drift (W : Draws) (idx : ℕ) (pool : Pool) (x : V3 × V3) (so : StepOut)
    (h : runStep C88_cfg none (C88_rank W idx pool (some x)).velPart (noConstraints 1) [(W, indexedRod idx)] = some so) :
    at6 so.velNonCon 0 = x := by
  have hval : ∀ y ∈ [(W, indexedRod (idx : ℤ))], Valid y.2 := by simp [indexedRod_valid]
  obtain ⟨m, v, fu, vu, fb, vb, out, hm, hrun, hvn, hvl, hso, l1, l2, l3, l4, ls, lm, hall⟩ :=
    runStep_spec C88_cfg (by norm_num [C88_cfg, C43_cfg]) (by norm_num [C88_cfg, C43_cfg]) none (some [x]) (noConstraints 1) [(W, indexedRod idx)] hval
      (by simp) (by simp) (fun m v _ _ => ⟨_, _, _, _, rfl, by simp, by simp, by simp, by simp⟩)
  obtain ⟨vi, fui, vui, fbi, vbi, t, u, gv, gfu, gvu, gfb, gvb, ht, hu, hst⟩ := hall 0 W (indexedRod idx) rfl
  obtain ⟨s1, mf, nb, hk1, hk2, hmo, hnb, hvi, htv, hto⟩ := hst.ex
  have hrun : runStep C88_cfg none (C88_rank W idx pool (some x)).velPart (noConstraints 1) [(W, indexedRod idx)] = some out := hrun
  rw [hrun] at h
  cases h
  rw [hvn, at6_flat6 v 0 vi gv, hvi, if_neg (by norm_num [C88_cfg, C43_cfg]), hnb]
  unfold nbOf
  simp only [C88_cfg, C43_cfg, maskIf, Option.bind_none, Option.bind_some, List.getElem?_cons_zero]
  refine Prod.ext (V3.ext ?_ ?_ ?_) (V3.ext ?_ ?_ ?_) <;> simp

/-- Two ranks with a rod each and a contact between the rods, which approach each other. -/
noncomputable def C88_ranks (W : Draws) : List RankIn :=
  [C88_rank W 0 [[exBlock 0 1 false false], []] (some (⟨-1 / 2, 0, 0⟩, 0)), C88_rank W 1 [[], []] (some (0, 0))]

theorem C88_ranks_spec (W : Draws) : (∀ r ∈ C88_ranks W, C88_Ready r) ∧ (∀ r ∈ C88_ranks W, r.matOrder.Perm (matrixWrites r.pool)) ∧
    (∀ r ∈ C88_ranks W, r.vecOrder.Perm (vectorWrites r.pool)) ∧
    (6 * (((C88_ranks W).flatMap RankIn.bodies).length : ℤ) ≤ 2 ^ 31 - 1) ∧
    (∀ r ∈ C88_ranks W, C88_Fits ((C88_ranks W).flatMap RankIn.bodies).length r) ∧
    (∀ (g : ℕ) (D : Draws) (s : Sylinder), ((C88_ranks W).flatMap RankIn.bodies)[g]? = some (D, s) → s.globalIndex = g) ∧
    (∀ r ∈ C88_ranks W, ∀ b ∈ r.pool.flatten, (b.bilateral = false ∧ b.gamma = 0) ∧ b.delta0 = 1 ∧
      gapRate (fun g => if g = 0 then ⟨-1 / 2, 0, 0⟩ else 0) (fun _ => 0) b = -1 / 2) := by
  have hm : ∀ r ∈ C88_ranks W, (∃ idx pool x, r = C88_rank W idx pool x) := by
    intro r hr
    simp only [C88_ranks, List.mem_cons, List.not_mem_nil, or_false] at hr
    rcases hr with rfl | rfl <;> exact ⟨_, _, _, rfl⟩
  have hlen : ((C88_ranks W).flatMap RankIn.bodies).length = 2 := rfl
  refine ⟨?_, ?_, ?_, ?_, ?_, ?_, ?_⟩
  · intro r hr; obtain ⟨i, p, x, rfl⟩ := hm r hr; exact C88_rank_ready _ _ _ _
  · intro r hr; obtain ⟨i, p, x, rfl⟩ := hm r hr; exact List.reverse_perm _
  · intro r hr; obtain ⟨i, p, x, rfl⟩ := hm r hr; exact List.reverse_perm _
  · rw [hlen]; norm_num
  · rw [hlen]
    intro r hr
    simp only [C88_ranks, List.mem_cons, List.not_mem_nil, or_false] at hr
    rcases hr with rfl | rfl <;> refine ⟨?_, ?_, ?_⟩ <;> simp [C88_rank, exBlock]
  · intro g D s hs
    match g, hs with
    | 0, hs => cases hs; rfl
    | 1, hs => cases hs; rfl
    | g + 2, hs => simp [C88_ranks, C88_rank] at hs
  · intro r hr b hb
    simp only [C88_ranks, List.mem_cons, List.not_mem_nil, or_false] at hr
    rcases hr with rfl | rfl
    · simp only [C88_rank, List.flatten_cons, List.flatten_nil, List.append_nil, List.mem_singleton] at hb
      subst hb
      refine ⟨⟨rfl, rfl⟩, rfl, ?_⟩
      simp [gapRate, exBlock, V3.dot]
    · simp [C88_rank] at hb

theorem C88_ranks_step (W : Draws) : ∃ out, runStepAll C88_cfg ⟨1 / 10 ^ 5, 100, 0⟩ id 0 (C88_ranks W) = some out ∧
    out.history = [⟨0, 0, 0, 1⟩] := by
  obtain ⟨h1, h2, h3, h4, h5, h6, h7⟩ := C88_ranks_spec W
  obtain ⟨out, ho, hh, -⟩ := C88_free C88_cfg (by norm_num [C88_cfg, C43_cfg]) (by norm_num [C88_cfg, C43_cfg]) ⟨1 / 10 ^ 5, 100, 0⟩ (by norm_num) (by norm_num) 0
    (C88_ranks W) h1 h2 h3 h4 h5 h6 (fun r hr b hb => (h7 r hr b hb).1.2) (fun g => if g = 0 then ⟨-1 / 2, 0, 0⟩ else 0) (fun _ => 0)
    (by
      intro r hr so hso i D s hi
      simp only [C88_ranks, List.mem_cons, List.not_mem_nil, or_false] at hr
      rcases hr with rfl | rfl
      · cases i with
        | succ i => simp [C88_rank] at hi
        | zero =>
          have := C88_drift W 0 _ _ so hso
          cases hi
          rw [this]
          simp [indexedRod]
      · cases i with
        | succ i => simp [C88_rank] at hi
        | zero =>
          have := C88_drift W 1 _ _ so hso
          cases hi
          rw [this]
          simp [indexedRod])
    (by
      intro r hr b hb
      obtain ⟨⟨e0, -⟩, e1, e2⟩ := h7 r hr b hb
      rw [e0, e1, e2]
      norm_num [C88_cfg, C43_cfg])
  exact ⟨out, ho, hh⟩

/-- The hypotheses of `C88_step_partial`, `C88_defined` and `C88_free` can be met together. -/
example (W : Draws) : 0 < C88_cfg.viscosity ∧ 0 < C88_cfg.dt ∧ ¬ (C88_cfg.monolayer = true ∧ C88_cfg.KBT > 0) ∧
    (∀ r ∈ C88_ranks W, C88_Ready r) ∧ (∀ r ∈ C88_ranks W, C88_Fits ((C88_ranks W).flatMap RankIn.bodies).length r) ∧
    (∀ r ∈ C88_ranks W, ∀ b ∈ r.pool.flatten, (b.bilateral = false → 0 ≤ b.gamma) ∧ -(10 : ℝ) ^ 8 ≤ b.gamma ∧ b.gamma ≤ BCQP.dblMax / 10) ∧
    ∃ out last, runStepAll C88_cfg ⟨1 / 10 ^ 5, 100, 0⟩ id 0 (C88_ranks W) = some out ∧ out.history.getLast? = some last ∧
      last.res < (1 : ℝ) / 10 ^ 5 := by
  obtain ⟨h1, h2, h3, h4, h5, h6, h7⟩ := C88_ranks_spec W
  obtain ⟨out, ho, hh⟩ := C88_ranks_step W
  refine ⟨by norm_num [C88_cfg, C43_cfg], by norm_num [C88_cfg, C43_cfg], by norm_num [C88_cfg, C43_cfg], h1, h5, ?_, out, ⟨0, 0, 0, 1⟩, ho, by rw [hh]; rfl, by norm_num⟩
  intro r hr b hb
  rw [(h7 r hr b hb).1.2]
  have := dblMax_pos
  exact ⟨fun _ => le_refl _, by norm_num, by positivity⟩

/-- In a monolayer with Brownian motion the property fails: the velocity given to the solver is projected, the one that moves
the body is not.  The contact below gets no multiplier although the body moves through it. -/
theorem C88_false_monolayer : ∃ (cfg : Cfg) (ranks : List RankIn) (out : RunStep.Out) (last : Hist) (U W : ℤ → V3) (b : Block),
    cfg.monolayer = true ∧ 0 < cfg.viscosity ∧ 0 < cfg.dt ∧ (∀ r ∈ ranks, C88_Ready r) ∧
    (∀ r ∈ ranks, C88_Fits (ranks.flatMap RankIn.bodies).length r) ∧
    (∀ (g : ℕ) (D : Draws) (s : Sylinder), (ranks.flatMap RankIn.bodies)[g]? = some (D, s) → s.globalIndex = g) ∧
    runStepAll cfg ⟨1 / 10 ^ 5, 100, 0⟩ id 0 ranks = some out ∧ out.history.getLast? = some last ∧ last.res = 0 ∧
    (∀ so ∈ out.steps, ∀ t ∈ so.summed, U t.globalIndex = t.vel ∧ W t.globalIndex = t.omega) ∧
    ranks.map RankIn.pool = [[[b]]] ∧ b.bilateral = false ∧
    (∃ p q b', out.pools[0]? = some p ∧ p[0]? = some q ∧ q[0]? = some b' ∧ b'.gamma = 0) ∧ b.delta0 + cfg.dt * gapRate U W b < 0 := by
  obtain ⟨so, t, u, hrun, hsum, ht, hu, hz, htz, -⟩ := monolayer_witness 0
  set b : Block := { exBlock 0 0 true false with delta0 := 0, normI := ⟨0, 0, -1⟩, posI := 0 } with hb
  set D : Draws := ⟨0, ⟨0, 0, 1⟩, 0, 0⟩ with hD
  set ranks : List RankIn := [C88_rank D 0 [[b]] none] with hranks
  have hlen : (ranks.flatMap RankIn.bodies).length = 1 := rfl
  have hready : ∀ r ∈ ranks, C88_Ready r := by
    intro r hr
    simp only [hranks, List.mem_singleton] at hr
    subst hr
    exact C88_rank_ready _ _ _ _
  have hfits : ∀ r ∈ ranks, C88_Fits (ranks.flatMap RankIn.bodies).length r := by
    rw [hlen]
    intro r hr
    simp only [hranks, List.mem_singleton] at hr
    subst hr
    refine ⟨?_, ?_, ?_⟩ <;> simp [C88_rank, hb, exBlock]
  have hidx : ∀ (g : ℕ) (D : Draws) (s : Sylinder), (ranks.flatMap RankIn.bodies)[g]? = some (D, s) → s.globalIndex = g := by
    intro g D s hs
    match g, hs with
    | 0, hs => cases hs; rfl
    | g + 1, hs => simp [hranks, C88_rank] at hs
  obtain ⟨out, ho, hh, hsl, hsteps, hpools⟩ := C88_free (C43_cfg true) (by norm_num [C43_cfg]) (by norm_num [C43_cfg]) ⟨1 / 10 ^ 5, 100, 0⟩ (by norm_num) (by norm_num) 0
    ranks hready
    (by intro r hr; simp only [hranks, List.mem_singleton] at hr; subst hr; exact List.reverse_perm _)
    (by intro r hr; simp only [hranks, List.mem_singleton] at hr; subst hr; exact List.reverse_perm _)
    (by rw [hlen]; norm_num) hfits hidx
    (by
      intro r hr x hx
      simp only [hranks, List.mem_singleton] at hr
      subst hr
      simp only [C88_rank, List.flatten_cons, List.flatten_nil, List.append_nil, List.mem_singleton] at hx
      subst hx
      rfl)
    (fun _ => (at6 so.velNonCon 0).1) (fun _ => (at6 so.velNonCon 0).2)
    (by
      intro r hr so' hso' i D' s hi
      simp only [hranks, List.mem_singleton] at hr
      subst hr
      have hso' : runStep (C43_cfg true) none none (noConstraints 1) [(D, indexedRod 0)] = some so' := hso'
      rw [hrun] at hso'
      cases hso'
      cases i with
      | succ i => simp [C88_rank] at hi
      | zero => rfl)
    (by
      intro r hr x hx
      simp only [hranks, List.mem_singleton] at hr
      subst hr
      simp only [C88_rank, List.flatten_cons, List.flatten_nil, List.append_nil, List.mem_singleton] at hx
      subst hx
      simp [gapRate, hb, exBlock, V3.dot, V3.cross, hz, C43_cfg])
  obtain ⟨so', hs1, hs2⟩ := hsteps 0 _ rfl
  have hs2 : runStep (C43_cfg true) none none (noConstraints 1) [(D, indexedRod 0)] = some so' := hs2
  rw [hrun] at hs2
  cases hs2
  have hst : out.steps = [so] := by
    have h1 : out.steps.length = 1 := hsl
    obtain ⟨x, hx⟩ := List.length_eq_one_iff.1 h1
    rw [hx] at hs1 ⊢
    exact congrArg (fun x => [x]) (Option.some.inj hs1)
  have hsm : so.summed = [t] := by
    obtain ⟨x, hx⟩ := List.length_eq_one_iff.1 hsum
    rw [hx] at ht ⊢
    exact congrArg (fun x => [x]) (Option.some.inj ht)
  refine ⟨C43_cfg true, ranks, out, ⟨0, 0, 0, 1⟩, fun _ => t.vel, fun _ => t.omega, b, rfl, by norm_num [C43_cfg], by norm_num [C43_cfg], hready, hfits, hidx, ho,
    by rw [hh]; rfl, rfl, ?_, rfl, rfl, hpools 0 0 0 _ _ b rfl rfl rfl, ?_⟩
  · rw [hst]
    intro so' hso' t' ht'
    rw [List.mem_singleton] at hso'
    subst hso'
    rw [hsm, List.mem_singleton] at ht'
    subst ht'
    exact ⟨rfl, rfl⟩
  · simp [gapRate, hb, exBlock, V3.dot, V3.cross, C43_cfg, htz]

end Verif
