import Verif.Lemmas.Momentum
import Verif.Spec.Motion
/-! Lemmas on the equation of motion of a step. -/
namespace Verif.Motion
open RunStep Mobility Spec.Mobility ConOp BCQP Collector Spec.Motion Verif.V3

theorem mobFun_add (ip ie ir : ℝ) (d : V3) (x y : V3 × V3) : mobFun ip ie ir d (x + y) = mobFun ip ie ir d x + mobFun ip ie ir d y := by
  unfold mobFun
  refine Prod.ext (V3.ext ?_ ?_ ?_) (V3.ext ?_ ?_ ?_) <;> simp [V3.dot] <;> ring

theorem MobOf.add {mu : ℝ} {b : Sylinder} {x y x' y' : V3 × V3} (h : MobOf mu b x y) (h' : MobOf mu b x' y') : MobOf mu b (x + x') (y + y') := by
  rcases h with ⟨h1, rfl⟩ | ⟨h1, p, e, r, h2, h3, h4, h5, rfl⟩
  · rcases h' with ⟨-, rfl⟩ | ⟨h, -⟩
    · exact .inl ⟨h1, by refine Prod.ext (V3.ext ?_ ?_ ?_) (V3.ext ?_ ?_ ?_) <;> simp⟩
    · rw [h1] at h; cases h
  · rcases h' with ⟨h, -⟩ | ⟨-, p', e', r', k2, -, -, -, rfl⟩
    · rw [h1] at h; cases h
    · rw [h2] at k2
      simp only [Option.some.injEq, Prod.mk.injEq] at k2
      obtain ⟨rfl, rfl, rfl⟩ := k2
      exact .inr ⟨h1, p, e, r, h2, h3, h4, h5, (mobFun_add _ _ _ _ _ _).symm⟩

theorem MobOf.zero {mu : ℝ} (hm : 0 < mu) {b : Sylinder} (hv : Valid b) : MobOf mu b (0, 0) (0, 0) := by
  cases h : b.isImmovable with
  | true => exact .inl ⟨h, rfl⟩
  | false =>
    obtain ⟨p, e, r, hc, hp, he, hr, -⟩ := dragInv_pos b hv.radius hv.length mu hm h
    exact .inr ⟨h, p, e, r, hc, hp, he, hr, by refine Prod.ext (V3.ext ?_ ?_ ?_) (V3.ext ?_ ?_ ?_) <;> simp [mobFun, V3.dot]⟩

theorem MobOf.moves {mu : ℝ} {b : Sylinder} (hv : Valid b) {x y : V3 × V3} (h : MobOf mu b x y) : Moves mu b x y := by
  rcases h with ⟨h1, h2⟩ | ⟨h1, p, e, r, h2, h3, h4, h5, rfl⟩
  · exact .inl ⟨h1, h2⟩
  · exact .inr ⟨h1, p, e, r, h2, h3, h4, h5, mobFun_drag p e r h3.ne' h4.ne' h5.ne' _ (direction_unit b hv.unit) x⟩

theorem at6_map (F : Option (List (V3 × V3))) (n i : ℕ) (hi : i < n) (hF : ∀ f, F = some f → f.length = n) :
    at6 ((F.map flat6).getD []) i = ((F.bind (·[i]?)).getD (0, 0)) := by
  cases F with
  | none => rfl
  | some f =>
    have : f[i]? = some (f[i]'(by rw [hF f rfl]; exact hi)) := List.getElem?_eq_getElem _
    simp only [Option.map_some, Option.getD_some, Option.bind_some, this]
    exact at6_flat6 f i _ this

/-- The velocity before the constraints. -/
theorem beforeSolve_vel (cfg : Cfg) (hmu : 0 < cfg.viscosity) (hdt : 0 < cfg.dt) (hmono : cfg.monolayer = false) (r : RankIn) (hr : RankOk cfg r)
    (m : Csr) (v : List ℝ) (bs : List Sylinder) (hb : beforeSolve cfg r.force r.velPart r.bodies = some (m, v, bs)) (i : ℕ) (D : Draws) (b : Sylinder)
    (hi : r.bodies[i]? = some (D, b)) :
    ∃ U w, MobOf cfg.viscosity b (at6 (r.force.getD []) i) U ∧ Thermal cfg.viscosity cfg.dt cfg.KBT D b w ∧
      at6 v i = U + at6 (r.velPart.getD []) i + w := by
  obtain ⟨F, hFe, hF'⟩ := option_flat6 _ _ hr.force
  obtain ⟨P, hPe, hP'⟩ := option_flat6 _ _ hr.velPart
  obtain ⟨m', v', fu, vu, fb, vb, out, hm, hrun, hvn, hvl, -, -, -, -, -, -, -, hall⟩ := runStep_spec cfg hmu hdt.ne' F P (noConstraints r.bodies.length)
    r.bodies hr.valid hF' hP' (fun m v _ _ => ⟨_, _, _, _, rfl, by simp, by simp, by simp, by simp⟩)
  have hlt : i < r.bodies.length := (List.getElem?_eq_some_iff.1 hi).1
  rw [← hFe, ← hPe] at hrun
  unfold runStep at hrun
  rw [hb] at hrun
  simp only [Option.bind_some, Option.bind_eq_some_iff] at hrun
  obtain ⟨o, -, h2⟩ := hrun
  have hv' : v = out.velNonCon := by
    unfold afterSolve at h2
    simp only [Option.map_eq_some_iff] at h2
    obtain ⟨-, -, rfl⟩ := h2
    rfl
  obtain ⟨vi, _, _, _, _, t, u, hvi, -, -, -, -, -, -, hst⟩ := hall i D b hi
  obtain ⟨s1, mf, nb, e1, e2, e3, rfl, e5, -⟩ := hst.ex
  have hval := hr.valid _ (List.mem_of_getElem? hi)
  have hat : at6 v i = vi := by rw [hv', hvn]; exact at6_flat6 v' i vi hvi
  rw [hat, e5, hFe, hPe, at6_map F _ i hlt hF', at6_map P _ i hlt hP', hmono]
  have hmask : ∀ x : V3 × V3, maskIf false x = x := fun x => rfl
  refine ⟨match F.bind (·[i]?) with | none => (0, 0) | some _ => mf, if cfg.KBT > 0 then (s1.velBrown, s1.omegaBrown) else (0, 0), ?_, ⟨?_, ?_⟩, ?_⟩
  · cases hx : F.bind (·[i]?) with
    | none => exact MobOf.zero hmu hval
    | some x => exact e3 x hx
  · intro hk
    exact ⟨s1, e1 hk, by rw [if_pos hk]⟩
  · intro hk
    rw [if_neg hk]
  · simp only [nbOf, hmask]
    cases F.bind (·[i]?) <;> cases P.bind (·[i]?) <;> rfl

/-- The mobility of all ranks, rank by rank. -/
theorem mobAll_at : ∀ (ms : List Csr) (ns : List ℕ), Fits ms ns → ∀ x y : List ℝ, x.length = ns.sum → mobAll ms ns x = some y →
    ∀ (r : ℕ) (m : Csr) (l : List ℝ), ms[r]? = some m → (parts ns x)[r]? = some l → ∃ l', m.apply l = some l' ∧ (parts ns y)[r]? = some l' := by
  intro ms ns h
  induction h with
  | nil => intro x y _ _ r m l hm; simp at hm
  | @cons m n ms ns h _ ih =>
    intro x y hx hy r m' l hm hl
    rw [List.sum_cons] at hx
    rw [mobAll_cons] at hy
    obtain ⟨Y, hY, l1⟩ := h (x.take n) (by rw [List.length_take]; omega)
    rw [hY] at hy
    simp only [Option.bind_some, Option.map_eq_some_iff] at hy
    obtain ⟨Y2, hY2, rfl⟩ := hy
    cases r with
    | zero =>
      simp only [parts, List.getElem?_cons_zero, Option.some.injEq] at hm hl ⊢
      subst hm hl
      exact ⟨Y, hY, by rw [List.take_left' l1]⟩
    | succ r =>
      simp only [parts, List.getElem?_cons_succ] at hm hl ⊢
      rw [List.drop_left' l1]
      exact ih _ _ (by rw [List.length_drop]; omega) hY2 r m' l hm hl

/-- The mobility of one rank, body by body. -/
theorem mob_at (mu : ℝ) (hm : 0 < mu) (bodies : List Sylinder) (hv : ∀ s ∈ bodies, Valid s) (m : Csr) (h : calcMobMatrix mu bodies = some m)
    (x y : List ℝ) (hx : x.length = 6 * bodies.length) (hy : m.apply x = some y) (i : ℕ) (b : Sylinder) (hb : bodies[i]? = some b) :
    MobOf mu b (at6 x i) (at6 y i) := by
  obtain ⟨m', h', hap⟩ := mob_apply mu hm bodies hv
  rw [h] at h'
  cases h'
  obtain ⟨xs, hl, rfl⟩ := exists_flat6 _ _ hx
  obtain ⟨ys, hl', hys, hall⟩ := hap xs hl
  rw [hy] at hys
  cases hys
  have hlt : i < bodies.length := (List.getElem?_eq_some_iff.1 hb).1
  have h1 : xs[i]? = some (xs[i]'(by omega)) := List.getElem?_eq_getElem _
  have h2 : ys[i]? = some (ys[i]'(by omega)) := List.getElem?_eq_getElem _
  rw [at6_flat6 xs i _ h1, at6_flat6 ys i _ h2]
  exact hall i b _ _ hb h1 h2

theorem solved_vel {k : ℕ} (P : Prepared k) (fl : ℝ → ℝ) (fuel : ℕ) (c : Control) (s : Solved k P.op.gmap.size) (hs : P.solveConstraints fl fuel c = .ok s) :
    s.velU + s.velB = P.op.mob (s.forceU + s.forceB) := by
  unfold Prepared.solveConstraints at hs
  simp only [bind_ok] at hs
  obtain ⟨out, hrun, hs⟩ := hs
  injection hs with hs
  subst hs
  simp only [ConOp.applyCol, sub_add_cancel]

/-- A step, body by body: the velocity is the one before the constraints plus the one due to the forces of the constraints. -/
theorem step_split (cfg : Mobility.Cfg) (hmu : 0 < cfg.viscosity) (hdt : 0 < cfg.dt) (hno : ¬ (cfg.monolayer = true ∧ cfg.KBT > 0)) (c : ConOp.Control) (fl : ℝ → ℝ) (fuel : ℕ)
    (ranks : List RankIn) (hready : ∀ r ∈ ranks, C88_Ready r) (hm : ∀ r ∈ ranks, r.matOrder.Perm (matrixWrites r.pool))
    (hv : ∀ r ∈ ranks, r.vecOrder.Perm (vectorWrites r.pool)) (out : Out) (hout : runStepAll cfg c fl fuel ranks = some out)
    (r i : ℕ) (rk : RankIn) (D : Draws) (b : Sylinder) (hr : ranks[r]? = some rk) (hi : rk.bodies[i]? = some (D, b)) :
    ∃ so t m v bs F V, out.steps[r]? = some so ∧ so.summed[i]? = some t ∧ beforeSolve cfg rk.force rk.velPart rk.bodies = some (m, v, bs) ∧
      MobOf cfg.viscosity b F V ∧ (t.force, t.torque) = at6 (rk.force.getD []) i + F ∧ (t.vel, t.omega) = at6 v i + V := by
  have hok : ∀ r ∈ ranks, RankOk cfg r := fun r hr => C88_ok cfg r (hready r hr)
  obtain ⟨pre, hpre, hP⟩ := pre_spec cfg hmu hdt ranks hok
  have hsz := pre_sizes cfg ranks pre hP
  have hfit := pre_fits cfg hmu ranks pre hP hok
  unfold runStepAll at hout
  rw [hpre] at hout
  simp only [Option.bind_eq_bind, Option.bind_some, Option.bind_eq_some_iff] at hout
  obtain ⟨sys, hsys, hout⟩ := hout
  set ns := ranks.map fun r => r.bodies.length with hns
  set sizes := pre.map fun p => p.2.1.length with hsizes
  set vnc := (pre.map fun p => p.2.1).flatten with hvnc
  set blocks := ranks.flatMap fun r => r.pool.flatten with hblocks
  obtain ⟨hcol, rfl⟩ := setupAll_eq' cfg.dt ranks _ sys hm hv hsys (pre.map Prod.fst) (by rw [List.map_map]; rfl) vnc
    (by rw [List.map_map]; rfl) sizes (by rw [List.map_map]; rfl)
  have hk : vnc.length = sizes.sum := by rw [hvnc, List.length_flatten, List.map_map]; rfl
  cases hs : (problemOf blocks (pre.map Prod.fst) sizes vnc cfg.dt).solveConstraints fl fuel c with
  | error e => rw [hs] at hout; cases hout
  | ok s =>
  rw [hs] at hout
  simp only [Option.bind_eq_some_iff, Option.some.injEq] at hout
  obtain ⟨pools, hpools, steps, hsteps, rfl⟩ := hout
  have fsteps := mapM_forall₂ _ _ _ hsteps
  have hvel : s.velU + s.velB = mobVec (pre.map Prod.fst) sizes vnc.length (s.forceU + s.forceB) := solved_vel _ fl fuel c s hs
  obtain ⟨p, hp, hP1, hP2, hP3⟩ := forall₂_at hP r rk hr
  have hilt : i < rk.bodies.length := (List.getElem?_eq_some_iff.1 hi).1
  have hnr : ns[r]? = some rk.bodies.length := by rw [hns, List.getElem?_map, hr]; rfl
  have hsr : sizes[r]? = some (6 * rk.bodies.length) := by rw [hsz, List.getElem?_map, hnr]; rfl
  obtain ⟨o, ho, ⟨a1, b1⟩, ⟨a2, b2⟩, ⟨a3, b3⟩, ⟨a4, b4⟩⟩ := solverOuts_at sizes s hk.symm r _ hsr
  obtain ⟨so, hso, hafter⟩ := forall₂_at fsteps r (p, o) (List.getElem?_zip_eq_some.2 ⟨hp, ho⟩)
  have hok' := hok rk (List.mem_of_getElem? hr)
  obtain ⟨so', hso', -, hall⟩ := afterSolve_spec cfg hmu hdt hno rk hok' p.1 p.2.1 p.2.2 hP1 o b1 b2 b3 b4
  have hafter : afterSolve cfg p.2.1 o p.2.2 = some so := hafter
  rw [hafter] at hso'
  cases hso'
  obtain ⟨t, u, h1, h2, h3, h3', h4, h5, h6, h7, h9, h8⟩ := hall i D b hi
  have hflat : ∀ f : Vec vnc.length, ∀ l, (parts sizes (List.ofFn f))[r]? = some l → at6 (List.ofFn f) ((ns.take r).sum + i) = at6 l i := by
    intro f l hl
    have hfl : sizes.sum = (List.ofFn f).length := by rw [List.length_ofFn, hk]
    have := at6_flatten (parts sizes (List.ofFn f)) ns (by rw [parts_sizes _ _ hfl, hsz]) r i l _ hl hnr hilt
    rwa [(parts_forall₂ sizes _ hfl).2] at this
  have hsum : ∀ f g : Vec vnc.length, ∀ lf lg, (parts sizes (List.ofFn f))[r]? = some lf → (parts sizes (List.ofFn g))[r]? = some lg →
      at6 (List.ofFn (f + g)) ((ns.take r).sum + i) = at6 lf i + at6 lg i := by
    intro f g lf lg hf hg
    rw [← hflat f lf hf, ← hflat g lg hg]
    obtain ⟨j, hj⟩ : ∃ j, (ns.take r).sum + i = j := ⟨_, rfl⟩
    rw [hj]
    have hlt : ∀ t6 : Fin 6, 6 * j + (t6 : ℕ) < vnc.length := by
      intro t6
      have hgl : j < ns.sum := by
        have hsplit : ns.sum = (ns.take r).sum + (ns.drop r).sum := by rw [← List.sum_append, List.take_append_drop]
        obtain ⟨hlt, hnr⟩ := List.getElem?_eq_some_iff.1 hnr
        rw [List.drop_eq_getElem_cons hlt, List.sum_cons, hnr] at hsplit
        omega
      have h2 : sizes.sum = 6 * ns.sum := by rw [hsz, List.sum_map_mul_left, List.map_id']
      have := t6.2
      omega
    apply pair_comp
    intro t6
    show _ = Collector.comp t6 ((at6 (List.ofFn f) j).1 + (at6 (List.ofFn g) j).1) ((at6 (List.ofFn f) j).2 + (at6 (List.ofFn g) j).2)
    rw [Collector.comp_add, ← ofFn_at6 (f + g) j t6 ⟨6 * j + t6, hlt t6⟩ rfl, ← ofFn_at6 f j t6 ⟨6 * j + t6, hlt t6⟩ rfl, ← ofFn_at6 g j t6 ⟨6 * j + t6, hlt t6⟩ rfl]
    rfl
  obtain ⟨lF, hlF, hlFl⟩ := parts_at sizes (List.ofFn (s.forceU + s.forceB)) (by rw [List.length_ofFn, hk]) r _ hsr
  obtain ⟨lV, hap, hlV⟩ := mobAll_at _ sizes hfit _ _ (by rw [List.length_ofFn, hk]) (mobVec_list _ sizes hfit _ hk (s.forceU + s.forceB)) r p.1 lF
    (by rw [List.getElem?_map, hp]; rfl) hlF
  rw [← hvel] at hlV
  have hmob := mob_at cfg.viscosity hmu (rk.bodies.map Prod.snd) (by
    intro x hx
    obtain ⟨y, hy, rfl⟩ := List.mem_map.1 hx
    exact hok'.valid y hy) p.1 hP2 lF lV (by rw [hlFl, List.length_map]) hap i b (by rw [List.getElem?_map, hi]; rfl)
  rw [← hflat _ _ hlF, ← hflat _ _ hlV, hsum _ _ _ _ a1 a3, hsum _ _ _ _ a2 a4] at hmob
  refine ⟨so, t, p.1, p.2.1, p.2.2, _, _, hso, h1, hP1, hmob, by rw [h7, pair_assoc], by rw [h6, pair_assoc]⟩

/-- The equation of motion of a step. -/
theorem step_motion (cfg : Mobility.Cfg) (hmu : 0 < cfg.viscosity) (hdt : 0 < cfg.dt) (hmono : cfg.monolayer = false) (c : ConOp.Control) (fl : ℝ → ℝ) (fuel : ℕ)
    (ranks : List RankIn) (hready : ∀ r ∈ ranks, C88_Ready r) (hm : ∀ r ∈ ranks, r.matOrder.Perm (matrixWrites r.pool))
    (hv : ∀ r ∈ ranks, r.vecOrder.Perm (vectorWrites r.pool)) (out : Out) (hout : runStepAll cfg c fl fuel ranks = some out)
    (r i : ℕ) (rk : RankIn) (D : Draws) (b : Sylinder) (hr : ranks[r]? = some rk) (hi : rk.bodies[i]? = some (D, b)) :
    ∃ so t U w, out.steps[r]? = some so ∧ so.summed[i]? = some t ∧ MobOf cfg.viscosity b (t.force, t.torque) U ∧
      Thermal cfg.viscosity cfg.dt cfg.KBT D b w ∧ (t.vel, t.omega) = U + at6 (rk.velPart.getD []) i + w := by
  obtain ⟨so, t, m, v, bs, F, V, h1, h2, h3, h4, h5, h6⟩ := step_split cfg hmu hdt (by rw [hmono]; simp) c fl fuel ranks hready hm hv out hout r i rk D b hr hi
  obtain ⟨U, w, k1, k2, k3⟩ := beforeSolve_vel cfg hmu hdt hmono rk (C88_ok cfg rk (hready rk (List.mem_of_getElem? hr))) m v bs h3 i D b hi
  refine ⟨so, t, U + V, w, h1, h2, ?_, k2, ?_⟩
  · rw [h5]
    exact MobOf.add k1 h4
  · rw [h6, k3]
    refine Prod.ext (V3.ext ?_ ?_ ?_) (V3.ext ?_ ?_ ?_) <;> simp <;> ring

/-- In a monolayer without Brownian motion, the velocity before the constraints is in the plane. -/
theorem beforeSolve_plane (cfg : Cfg) (hmu : 0 < cfg.viscosity) (hdt : 0 < cfg.dt) (hmono : cfg.monolayer = true) (r : RankIn) (hr : RankOk cfg r)
    (m : Csr) (v : List ℝ) (bs : List Sylinder) (hb : beforeSolve cfg r.force r.velPart r.bodies = some (m, v, bs)) (i : ℕ) (D : Draws) (b : Sylinder)
    (hi : r.bodies[i]? = some (D, b)) : (at6 v i).1.z = 0 ∧ (at6 v i).2.x = 0 ∧ (at6 v i).2.y = 0 := by
  obtain ⟨F, hFe, hF'⟩ := option_flat6 _ _ hr.force
  obtain ⟨P, hPe, hP'⟩ := option_flat6 _ _ hr.velPart
  obtain ⟨m', v', fu, vu, fb, vb, out, hm, hrun, hvn, hvl, -, -, -, -, -, -, -, hall⟩ := runStep_spec cfg hmu hdt.ne' F P (noConstraints r.bodies.length)
    r.bodies hr.valid hF' hP' (fun m v _ _ => ⟨_, _, _, _, rfl, by simp, by simp, by simp, by simp⟩)
  rw [← hFe, ← hPe] at hrun
  unfold runStep at hrun
  rw [hb] at hrun
  simp only [Option.bind_some, Option.bind_eq_some_iff] at hrun
  obtain ⟨o, -, h2⟩ := hrun
  have hv' : v = out.velNonCon := by
    unfold afterSolve at h2
    simp only [Option.map_eq_some_iff] at h2
    obtain ⟨-, -, rfl⟩ := h2
    rfl
  obtain ⟨vi, _, _, _, _, t, u, hvi, -, -, -, -, -, -, hst⟩ := hall i D b hi
  obtain ⟨s1, mf, nb, -, -, -, rfl, e5, -⟩ := hst.ex
  have hat : at6 v i = vi := by rw [hv', hvn]; exact at6_flat6 v' i vi hvi
  have hmask : ∀ x : V3 × V3, maskIf true x = (⟨x.1.x, x.1.y, 0⟩, ⟨0, 0, x.2.z⟩) := fun x => rfl
  rw [hat, e5, hmono]
  simp only [nbOf, hmask]
  cases F.bind (·[i]?) <;> cases P.bind (·[i]?) <;> split_ifs <;> simp

end Verif.Motion
