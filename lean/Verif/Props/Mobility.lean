import Verif.Lemmas.Brown
namespace Verif
open Verif.V3 Verif.Mobility Verif.Spec.Mobility

theorem at6_flat6 (xs : List (V3 × V3)) (i : ℕ) (x : V3 × V3) (h : xs[i]? = some x) : at6 (flat6 xs) i = x := by
  unfold at6
  have h0 := flat6_getElem? xs i 0 (by norm_num)
  have h1 := flat6_getElem? xs i 1 (by norm_num)
  have h2 := flat6_getElem? xs i 2 (by norm_num)
  have h3 := flat6_getElem? xs i 3 (by norm_num)
  have h4 := flat6_getElem? xs i 4 (by norm_num)
  have h5 := flat6_getElem? xs i 5 (by norm_num)
  rw [Nat.add_zero] at h0
  rw [h] at h0 h1 h2 h3 h4 h5
  simp only [List.getD_eq_getElem?_getD, h0, h1, h2, h3, h4, h5]
  rfl

theorem option_flat6 (n : ℕ) (f : Option (List ℝ)) (h : ∀ x, f = some x → x.length = 6 * n) :
    ∃ F : Option (List (V3 × V3)), f = F.map flat6 ∧ ∀ x, F = some x → x.length = n := by
  cases f with
  | none => exact ⟨none, rfl, by simp⟩
  | some x =>
    obtain ⟨xs, h1, h2⟩ := exists_flat6 n x (h x rfl)
    exact ⟨some xs, by simp [h2], by rintro y ⟨⟩; exact h1⟩

/-! ### C42 Mobility is symmetric positive definite -/

/-- The drag coefficients of every body are positive. -/
theorem C42_drag (s : Sylinder) (hr : 0 < s.radius) (hl : 0 ≤ s.length) (mu : ℝ) (hm : 0 < mu) :
    ∃ para perp rot, s.calcDragCoeff Pi mu = some (para, perp, rot) ∧ 0 < para ∧ 0 < perp ∧ 0 < rot :=
  drag_pos s hr hl mu hm

example : ∃ s : Sylinder, 0 < s.radius ∧ 0 ≤ s.length ∧ s.isSphere = false := by
  refine ⟨Sylinder.make 0 1 1 4 4, by norm_num [Sylinder.make], by norm_num [Sylinder.make], ?_⟩
  norm_num [Sylinder.isSphere, Sylinder.make]

/-- The mobility matrix is defined for every list of bodies; it gives an immovable body no velocity, and a movable one the
velocity whose drag is the force. -/
theorem C42_inverse (mu : ℝ) (hm : 0 < mu) (bodies : List Sylinder) (hv : ∀ s ∈ bodies, Valid s) :
    ∃ m, calcMobMatrix mu bodies = some m ∧ ∀ x : List ℝ, x.length = 6 * bodies.length →
      ∃ y, m.apply x = some y ∧ y.length = 6 * bodies.length ∧ ∀ (i : ℕ) (s : Sylinder), bodies[i]? = some s →
        (s.isImmovable = true → at6 y i = (0, 0)) ∧
        (s.isImmovable = false → ∃ para perp rot, s.calcDragCoeff Pi mu = some (para, perp, rot) ∧
          drag para perp rot s.direction (at6 y i) = at6 x i) := by
  obtain ⟨m, h1, h2⟩ := mob_apply mu hm bodies hv
  refine ⟨m, h1, ?_⟩
  intro x hx
  obtain ⟨xs, hxl, rfl⟩ := exists_flat6 _ x hx
  obtain ⟨ys, hyl, hap, hmo⟩ := h2 xs hxl
  refine ⟨flat6 ys, hap, by rw [flat6_length, hyl], ?_⟩
  intro i s hs
  have hi : i < bodies.length := (List.getElem?_eq_some_iff.1 hs).1
  have hxi : xs[i]? = some (xs[i]'(by omega)) := List.getElem?_eq_getElem _
  have hyi : ys[i]? = some (ys[i]'(by omega)) := List.getElem?_eq_getElem _
  rw [at6_flat6 ys i _ hyi, at6_flat6 xs i _ hxi]
  rcases hmo i s _ _ hs hxi hyi with ⟨him, h⟩ | ⟨him, p, e, r, hc, hp, he, hr, h⟩
  · exact ⟨fun _ => h, fun h' => by rw [him] at h'; cases h'⟩
  · refine ⟨fun h' => (by rw [him] at h'; cases h'), fun _ => ⟨p, e, r, hc, ?_⟩⟩
    rw [h]
    exact mobFun_drag p e r hp.ne' he.ne' hr.ne' _
      (direction_unit s (hv s (List.mem_of_getElem? hs)).unit) _

/-- The mobility matrix is symmetric and positive semidefinite, and positive definite when every body is movable. -/
theorem C42_spd (mu : ℝ) (hm : 0 < mu) (bodies : List Sylinder) (hv : ∀ s ∈ bodies, Valid s) (m : Csr)
    (h : calcMobMatrix mu bodies = some m) (x y X Y : List ℝ) (hx : x.length = 6 * bodies.length)
    (hy : y.length = 6 * bodies.length) (hX : m.apply x = some X) (hY : m.apply y = some Y) :
    dotL x Y = dotL X y ∧ 0 ≤ dotL x X ∧
      ((∀ s ∈ bodies, s.isImmovable = false) → (∃ c ∈ x, c ≠ 0) → 0 < dotL x X) := by
  obtain ⟨m', h1, h2⟩ := mob_apply mu hm bodies hv
  rw [h] at h1
  cases h1
  obtain ⟨xs, hxl, rfl⟩ := exists_flat6 _ x hx
  obtain ⟨ys, hyl, rfl⟩ := exists_flat6 _ y hy
  obtain ⟨Xs, hXl, hXa, hXm⟩ := h2 xs hxl
  obtain ⟨Ys, hYl, hYa, hYm⟩ := h2 ys hyl
  rw [hXa] at hX; cases hX
  rw [hYa] at hY; cases hY
  have hb : ∀ (i : ℕ) (a : V3 × V3) (l : List (V3 × V3)), l.length = bodies.length → l[i]? = some a → ∃ s ∈ bodies, bodies[i]? = some s := by
    intro i a l hl ha
    have : i < bodies.length := by rw [← hl]; exact (List.getElem?_eq_some_iff.1 ha).1
    exact ⟨_, List.getElem_mem this, List.getElem?_eq_getElem this⟩
  rw [dotL_flat6, dotL_flat6, dotL_flat6]
  have hnn : ∀ a ∈ List.zipWith (fun a b : V3 × V3 => dot a.1 b.1 + dot a.2 b.2) xs Xs, 0 ≤ a := by
    intro a ha
    obtain ⟨i, hi, rfl⟩ := List.getElem_of_mem ha
    simp only [List.length_zipWith] at hi
    rw [List.getElem_zipWith]
    have hxi : xs[i]? = some (xs[i]'(by omega)) := List.getElem?_eq_getElem _
    obtain ⟨s, hs, hsi⟩ := hb i _ xs hxl hxi
    exact (mobOf_nonneg mu s (direction_unit s (hv s hs).unit) _ _ (hXm i s _ _ hsi hxi (List.getElem?_eq_getElem _))).1
  refine ⟨?_, List.sum_nonneg hnn, ?_⟩
  · apply sum_zipWith_congr _ _ _ _ _ _ bodies.length hxl hYl hXl hyl
    intro i a b a' b' ha hb' ha' hb''
    obtain ⟨s, hs, hsi⟩ := hb i _ xs hxl ha
    exact mobOf_symm mu s a b' a' b (hXm i s _ _ hsi ha ha') (hYm i s _ _ hsi hb'' hb')
  · rintro hmov ⟨c, hc, hc0⟩
    apply sum_pos_of hnn
    obtain ⟨k, hk, rfl⟩ := List.getElem_of_mem hc
    rw [flat6_length] at hk
    have hi : k / 6 < xs.length := by omega
    have hxi : xs[k / 6]? = some xs[k / 6] := List.getElem?_eq_getElem hi
    have hXi : Xs[k / 6]? = some (Xs[k / 6]'(by omega)) := List.getElem?_eq_getElem _
    obtain ⟨s, hs, hsi⟩ := hb _ _ xs hxl hxi
    have hne : xs[k / 6] ≠ (0, 0) := by
      intro h0
      apply hc0
      have := flat6_getElem? xs (k / 6) (k % 6) (Nat.mod_lt _ (by norm_num))
      rw [show 6 * (k / 6) + k % 6 = k by omega, hxi, h0, List.getElem?_eq_getElem (by rw [flat6_length]; exact hk)] at this
      have hk6 : k % 6 < 6 := Nat.mod_lt _ (by norm_num)
      generalize k % 6 = t at this hk6
      interval_cases t <;> simpa using this
    refine ⟨_, ?_, (mobOf_nonneg mu s (direction_unit s (hv s hs).unit) _ _ (hXm _ s _ _ hsi hxi hXi)).2 (hmov s hs) hne⟩
    rw [List.mem_iff_getElem]
    exact ⟨k / 6, by simp; omega, by rw [List.getElem_zipWith]⟩

/-- A movable rod. -/
noncomputable def C42_rod : Sylinder := Sylinder.make 0 1 1 4 4

theorem C42_rod_valid : Valid C42_rod := by
  refine ⟨by norm_num [C42_rod, Sylinder.make], by norm_num [C42_rod, Sylinder.make], ?_⟩
  norm_num [C42_rod, Sylinder.make, Spec.UnitQuat]

example : ∃ m X, calcMobMatrix 1 [C42_rod] = some m ∧ m.apply [1, 0, 0, 0, 0, 0] = some X ∧ 0 < dotL [1, 0, 0, 0, 0, 0] X := by
  have hv : ∀ s ∈ [C42_rod], Valid s := by simp [C42_rod_valid]
  obtain ⟨m, h1, h2⟩ := C42_inverse 1 (by norm_num) [C42_rod] hv
  obtain ⟨X, h3, -, -⟩ := h2 [1, 0, 0, 0, 0, 0] rfl
  refine ⟨m, X, h1, h3, (C42_spd 1 (by norm_num) [C42_rod] hv m h1 _ _ _ _ rfl rfl h3 h3).2.2 ?_ ⟨1, by simp, by norm_num⟩⟩
  simp [C42_rod, Sylinder.make]

/-- An immovable body without a prescribed velocity stays where it is, whatever the forces, the random numbers and the
constraint forces: the solver is arbitrary except that its velocities are the mobility times its forces (`C26`). -/
theorem C42_immovable (cfg : Cfg) (hmu : 0 < cfg.viscosity) (hdt : 0 < cfg.dt) (force : Option (List ℝ))
    (solver : Csr → List ℝ → Option SolverOut) (bodies : List (Draws × Sylinder)) (hv : ∀ x ∈ bodies, Valid x.2)
    (hclear : ∀ x ∈ bodies, x.2.velBrown = 0 ∧ x.2.omegaBrown = 0)
    (hF : ∀ f, force = some f → f.length = 6 * bodies.length)
    (hs : ∀ m v, calcMobMatrix cfg.viscosity (bodies.map Prod.snd) = some m → v.length = 6 * bodies.length →
      ∃ o, solver m v = some o ∧ o.forceUni.length = 6 * bodies.length ∧
        o.forceBi.length = 6 * bodies.length ∧ m.apply o.forceUni = some o.velUni ∧ m.apply o.forceBi = some o.velBi) :
    ∃ out, runStep cfg force none solver bodies = some out ∧ ∀ (i : ℕ) (W : Draws) (s : Sylinder), bodies[i]? = some (W, s) →
      s.isImmovable = true → ∃ u, out.moved[i]? = some u ∧ u.pos = s.pos ∧ u.orientation = s.orientation ∧ u.vel = 0 ∧ u.omega = 0 := by
  obtain ⟨F, rfl, hF'⟩ := option_flat6 _ _ hF
  obtain ⟨m0, hm0, hap⟩ := mob_apply cfg.viscosity hmu (bodies.map Prod.snd) (by
    intro s hs'
    obtain ⟨x, hx, rfl⟩ := List.mem_map.1 hs'
    exact hv x hx)
  simp only [List.length_map] at hap
  obtain ⟨m, v, fu, vu, fb, vb, out, hm, hrun, hvn, hvl, hso, l1, l2, l3, l4, ls, lm, hall⟩ :=
    runStep_spec cfg hmu hdt.ne' F none solver bodies hv hF' (by simp) (by
      intro m v hm hvl
      rw [hm0] at hm; cases hm
      obtain ⟨o, ho, a1, a2, a3, a4⟩ := hs m0 (flat6 v) hm0 (by rw [flat6_length, hvl])
      obtain ⟨fu, b1, e1⟩ := exists_flat6 _ _ a1
      obtain ⟨fb, b2, e2⟩ := exists_flat6 _ _ a2
      obtain ⟨vu, b3, e3, -⟩ := hap fu b1
      obtain ⟨vb, b4, e4, -⟩ := hap fb b2
      rw [← e1, e3] at a3
      rw [← e2, e4] at a4
      refine ⟨fu, vu, fb, vb, ?_, b1, b3, b2, b4⟩
      rw [ho]
      cases o
      simp only at e1 e2 a3 a4
      simp only [Option.some.injEq] at a3 a4
      rw [e1, e2, a3, a4])
  rw [hm0] at hm; cases hm
  refine ⟨out, hrun, ?_⟩
  intro i W s hi him
  obtain ⟨vi, fui, vui, fbi, vbi, t, u, -, gfu, gvu, gfb, gvb, -, hu, hst⟩ := hall i W s hi
  obtain ⟨s1, mf, nb, hk1, hk2, hmo, hnb, -, htv, hto⟩ := hst.ex
  -- constraint velocities
  obtain ⟨o, ho, a1, a2, a3, a4⟩ := hs m0 (flat6 v) hm0 (by rw [flat6_length, hvl])
  rw [hso] at ho
  cases ho
  simp only at a3 a4
  obtain ⟨vu', -, e3, mo3⟩ := hap fu l1
  obtain ⟨vb', -, e4, mo4⟩ := hap fb l3
  rw [e3] at a3
  rw [e4] at a4
  have hvu : vu' = vu := flat6_injective _ _ (Option.some.inj a3)
  have hvb : vb' = vb := flat6_injective _ _ (Option.some.inj a4)
  subst hvu hvb
  have hsi : (bodies.map Prod.snd)[i]? = some s := by simp [hi]
  have z : ∀ x y, MobOf cfg.viscosity s x y → y = (0, 0) := by
    rintro x y (⟨-, h⟩ | ⟨h, -⟩)
    · exact h
    · rw [him] at h; cases h
  have zu := z _ _ (mo3 i s _ _ hsi gfu gvu)
  have zb := z _ _ (mo4 i s _ _ hsi gfb gvb)
  have zn : nb = (0, 0) := by
    rw [hnb]
    unfold nbOf
    cases hF0 : F.bind (fun x => x[i]?) with
    | none => simp; ext <;> simp
    | some x =>
      have := z _ _ (hmo x hF0)
      subst this
      cases cfg.monolayer <;> simp [maskIf, mask1] <;> (ext <;> simp)
  have zs : s1.velBrown = 0 ∧ s1.omegaBrown = 0 := by
    by_cases hk : cfg.KBT > 0
    · have h := hk1 hk
      rw [brown_immovable _ _ _ hdt.ne' W s him] at h
      simp only [Option.some.injEq] at h
      rw [← h]
      exact ⟨rfl, rfl⟩
    · rw [hk2 hk]
      exact hclear _ (List.mem_of_getElem? hi)
  have hv0 : t.vel = 0 := by
    rw [htv, zn, zs.1, zu, zb]; ext <;> simp
  have ho0 : t.omega = 0 := by
    rw [hto, zn, zs.2, zu, zb]; ext <;> simp
  refine ⟨u, hu, ?_⟩
  rw [hst.moved]
  split
  · exact ⟨hst.pos, hst.orientation, hv0, ho0⟩
  · refine ⟨?_, ?_, hv0, ho0⟩
    · simp only [Sylinder.stepEuler, Equatn.stepEuler, hv0, hst.pos]
      ext <;> simp
    · simp only [Sylinder.stepEuler, Equatn.stepEuler, ho0, hst.orientation]
      unfold Equatn.rotateEquatn
      simp only
      rw [if_pos]
      rw [V3.norm_zero]
      norm_num [Equatn.fltEps]

/-- A solver that finds no constraints. -/
noncomputable def noConstraints (n : ℕ) : Csr → List ℝ → Option SolverOut := fun _ _ =>
  some ⟨flat6 (List.replicate n (0, 0)), flat6 (List.replicate n (0, 0)), flat6 (List.replicate n (0, 0)), flat6 (List.replicate n (0, 0))⟩

example : ∃ (cfg : Cfg) (bodies : List (Draws × Sylinder)), 0 < cfg.viscosity ∧ 0 < cfg.dt ∧ (∀ x ∈ bodies, Valid x.2) ∧
    (∃ x ∈ bodies, x.2.isImmovable = true) ∧ (∀ x ∈ bodies, x.2.velBrown = 0 ∧ x.2.omegaBrown = 0) ∧
    (∀ m v, calcMobMatrix cfg.viscosity (bodies.map Prod.snd) = some m → v.length = 6 * bodies.length →
      ∃ o, noConstraints 1 m v = some o ∧ o.forceUni.length = 6 * bodies.length ∧
        o.forceBi.length = 6 * bodies.length ∧ m.apply o.forceUni = some o.velUni ∧ m.apply o.forceBi = some o.velBi) := by
  have hval : Valid { C42_rod with isImmovable := true } := ⟨C42_rod_valid.radius, C42_rod_valid.length, C42_rod_valid.unit⟩
  refine ⟨⟨false, false, 1, 1, 1, 0, 1, 1, 1, 0⟩, [(⟨0, ⟨0, 0, 1⟩, 0, 0⟩, { C42_rod with isImmovable := true })], by norm_num, by norm_num,
    by simp [hval], by simp, by simp [C42_rod, Sylinder.make], ?_⟩
  intro m v hm _
  have hz : m.apply (flat6 (List.replicate 1 (0, 0))) = some (flat6 (List.replicate 1 (0, 0))) := by
    obtain ⟨m', h1, h2⟩ := mob_apply 1 (by norm_num) [{ C42_rod with isImmovable := true }] (by simp [hval])
    have hm : calcMobMatrix 1 [{ C42_rod with isImmovable := true }] = some m := hm
    rw [hm] at h1; cases h1
    obtain ⟨ys, hl, ha, hy⟩ := h2 (List.replicate 1 (0, 0)) rfl
    rw [ha]
    congr 2
    match ys, hl with
    | [y], _ =>
      rcases hy 0 _ _ y rfl rfl rfl with ⟨-, h⟩ | ⟨h, -⟩
      · rw [h]; rfl
      · cases h
  exact ⟨_, rfl, by simp [flat6_length], by simp [flat6_length], hz, hz⟩

/-- The bodies `prepareStep` leaves have no Brownian velocity. -/
theorem prepareBody_clear (svd : V3 → V3 → V3) (cfg : Cfg) (rank : ℤ) (s : Sylinder) :
    (prepareBody svd cfg rank s).velBrown = 0 ∧ (prepareBody svd cfg rank s).omegaBrown = 0 ∧
      (prepareBody svd cfg rank s).forceNonB = 0 ∧ (prepareBody svd cfg rank s).torqueNonB = 0 := by
  unfold prepareBody
  cases cfg.monolayer <;> exact ⟨rfl, rfl, rfl, rfl⟩

/-! ### C43 Total velocity is what the constraint solver assumed -/

/-- Settings for the examples. -/
noncomputable def C43_cfg (mono : Bool) : Cfg := ⟨mono, false, 1, 1, 1, 0, 1, 1, 1, 0⟩

/-- Outside a monolayer, or without Brownian motion: the velocity with which every body is moved is the velocity given to
the constraint solver plus the velocities the solver returns, and the recorded force is the sum of the given force and the
constraint forces.  Missing: monolayers with Brownian motion, for which it is false (`C43_monolayer_false`). -/
theorem C43_velocity_partial (cfg : Cfg) (hmu : 0 < cfg.viscosity) (hdt : 0 < cfg.dt) (force velPart : Option (List ℝ))
    (solver : Csr → List ℝ → Option SolverOut) (bodies : List (Draws × Sylinder)) (hv : ∀ x ∈ bodies, Valid x.2)
    (hclear : ∀ x ∈ bodies, x.2.velBrown = 0 ∧ x.2.omegaBrown = 0 ∧ x.2.forceNonB = 0 ∧ x.2.torqueNonB = 0)
    (hF : ∀ f, force = some f → f.length = 6 * bodies.length) (hP : ∀ f, velPart = some f → f.length = 6 * bodies.length)
    (hs : ∀ m v, calcMobMatrix cfg.viscosity (bodies.map Prod.snd) = some m → v.length = 6 * bodies.length →
      ∃ o, solver m v = some o ∧ o.forceUni.length = 6 * bodies.length ∧
        o.forceBi.length = 6 * bodies.length ∧ o.velUni.length = 6 * bodies.length ∧ o.velBi.length = 6 * bodies.length)
    (hno : ¬ (cfg.monolayer = true ∧ cfg.KBT > 0)) :
    ∃ m out o, calcMobMatrix cfg.viscosity (bodies.map Prod.snd) = some m ∧ runStep cfg force velPart solver bodies = some out ∧
      solver m out.velNonCon = some o ∧ out.summed.length = bodies.length ∧ out.moved.length = bodies.length ∧
      ∀ (i : ℕ) (t u : Sylinder), out.summed[i]? = some t → out.moved[i]? = some u →
        (t.vel, t.omega) = at6 out.velNonCon i + at6 o.velUni i + at6 o.velBi i ∧
        (t.force, t.torque) = at6 (force.getD []) i + at6 o.forceUni i + at6 o.forceBi i ∧
        (cfg.sylinderFixed = false → u.pos = t.pos + cfg.dt • t.vel ∧ u.orientation = Equatn.rotateEquatn t.orientation t.omega cfg.dt) ∧
        (cfg.sylinderFixed = true → u.pos = t.pos ∧ u.orientation = t.orientation) ∧
        (cfg.monolayer = true → InPlane (at6 out.velNonCon i)) := by
  obtain ⟨F, rfl, hF'⟩ := option_flat6 _ _ hF
  obtain ⟨P, rfl, hP'⟩ := option_flat6 _ _ hP
  obtain ⟨m, v, fu, vu, fb, vb, out, hm, hrun, hvn, hvl, hso, l1, l2, l3, l4, ls, lm, hall⟩ :=
    runStep_spec cfg hmu hdt.ne' F P solver bodies hv hF' hP' (by
      intro m v hm hvl
      obtain ⟨o, ho, a1, a2, a3, a4⟩ := hs m (flat6 v) hm (by rw [flat6_length, hvl])
      obtain ⟨fu, b1, e1⟩ := exists_flat6 _ _ a1
      obtain ⟨fb, b2, e2⟩ := exists_flat6 _ _ a2
      obtain ⟨vu, b3, e3⟩ := exists_flat6 _ _ a3
      obtain ⟨vb, b4, e4⟩ := exists_flat6 _ _ a4
      exact ⟨fu, vu, fb, vb, by rw [ho, e1, e2, e3, e4], b1, b3, b2, b4⟩)
  refine ⟨m, out, _, hm, hrun, by rw [hvn]; exact hso, ls, lm, ?_⟩
  intro i t u ht hu
  have hi : i < bodies.length := by rw [← ls]; exact (List.getElem?_eq_some_iff.1 ht).1
  obtain ⟨vi, fui, vui, fbi, vbi, t', u', gv, gfu, gvu, gfb, gvb, ht', hu', hst⟩ :=
    hall i bodies[i].1 bodies[i].2 (by rw [List.getElem?_eq_getElem hi])
  rw [ht] at ht'; cases ht'
  rw [hu] at hu'; cases hu'
  obtain ⟨s1, mf, nb, hk1, hk2, hmo, hnb, hvi, htv, hto⟩ := hst.ex
  have hc := hclear bodies[i] (List.getElem_mem hi)
  rw [hvn, at6_flat6 v i _ gv, at6_flat6 fu i _ gfu, at6_flat6 vu i _ gvu, at6_flat6 fb i _ gfb, at6_flat6 vb i _ gvb]
  refine ⟨?_, ?_, ?_, ?_, ?_⟩
  · have hb : (if cfg.KBT > 0 then maskIf cfg.monolayer (s1.velBrown, s1.omegaBrown) else (0, 0)) = (s1.velBrown, s1.omegaBrown) := by
      split
      · rename_i hk
        have : cfg.monolayer = false := by
          cases hmm : cfg.monolayer with
          | false => rfl
          | true => exact absurd ⟨hmm, hk⟩ hno
        rw [this]; rfl
      · rename_i hk
        rw [hk2 hk, hc.1, hc.2.1]
    rw [hvi, hb, htv, hto]
    rfl
  · cases hFc : F with
    | none =>
      rw [hFc] at hst
      obtain ⟨e1, e2⟩ := hst.force0 rfl
      rw [e1, e2, hc.2.2.1, hc.2.2.2]
      have : at6 ((Option.map flat6 (none : Option (List (V3 × V3)))).getD []) i = (0, 0) := by simp [at6]; rfl
      rw [this]
      rfl
    | some f =>
      have hfi : f[i]? = some (f[i]'(by rw [hF' f hFc]; exact hi)) := List.getElem?_eq_getElem _
      obtain ⟨e1, e2⟩ := hst.force _ (by rw [hFc]; exact hfi)
      rw [e1, e2]
      have : at6 ((Option.map flat6 (some f)).getD []) i = f[i]'(by rw [hF' f hFc]; exact hi) := at6_flat6 f i _ hfi
      rw [this]
      rfl
  · intro hfx
    rw [hst.moved, hfx]
    exact ⟨rfl, rfl⟩
  · intro hfx
    rw [hst.moved, hfx]
    exact ⟨rfl, rfl⟩
  · intro hmono
    rw [hvi, hnb]
    unfold nbOf InPlane
    rw [hmono]
    have hm1 : ∀ x, InPlane (mask1 x) := fun x => ⟨rfl, rfl, rfl⟩
    have e0 : InPlane ((0, 0) : V3 × V3) := ⟨rfl, rfl, rfl⟩
    have ea : ∀ a b : V3 × V3, InPlane a → InPlane b → InPlane (a + b) := by
      rintro a b ⟨h1, h2, h3⟩ ⟨h4, h5, h6⟩
      exact ⟨by simp [h1, h4], by simp [h2, h5], by simp [h3, h6]⟩
    refine ea _ _ (ea _ _ ?_ ?_) ?_
    · split
      · exact e0
      · exact hm1 _
    · split
      · exact e0
      · exact hm1 _
    · split
      · exact hm1 _
      · exact e0

example : ∃ (cfg : Cfg) (bodies : List (Draws × Sylinder)), 0 < cfg.viscosity ∧ 0 < cfg.dt ∧ cfg.KBT > 0 ∧ bodies.length = 2 ∧
    (∀ x ∈ bodies, Valid x.2) ∧ (∀ x ∈ bodies, x.2.velBrown = 0 ∧ x.2.omegaBrown = 0 ∧ x.2.forceNonB = 0 ∧ x.2.torqueNonB = 0) ∧
    (∀ m v, calcMobMatrix cfg.viscosity (bodies.map Prod.snd) = some m → v.length = 6 * bodies.length →
      ∃ o, noConstraints 2 m v = some o ∧ o.forceUni.length = 6 * bodies.length ∧ o.forceBi.length = 6 * bodies.length ∧
        o.velUni.length = 6 * bodies.length ∧ o.velBi.length = 6 * bodies.length) ∧ ¬ (cfg.monolayer = true ∧ cfg.KBT > 0) := by
  refine ⟨C43_cfg false, [(⟨0, 0, 0, 0⟩, C42_rod), (⟨0, 0, 0, 0⟩, C42_rod)], by norm_num [C43_cfg], by norm_num [C43_cfg], by norm_num [C43_cfg], rfl,
    by simp [C42_rod_valid], by simp [C42_rod, Sylinder.make], ?_, by simp [C43_cfg]⟩
  intro m v _ _
  exact ⟨_, rfl, by simp [flat6_length], by simp [flat6_length], by simp [flat6_length], by simp [flat6_length]⟩

/-- The rod of the examples, with a global index. -/
noncomputable def indexedRod (idx : ℤ) : Sylinder := { C42_rod with globalIndex := idx }

theorem indexedRod_valid (idx : ℤ) : Valid (indexedRod idx) := ⟨C42_rod_valid.radius, C42_rod_valid.length, C42_rod_valid.unit⟩

theorem monolayer_witness (idx : ℤ) : ∃ (out : StepOut) (t u : Sylinder),
    runStep (C43_cfg true) none none (noConstraints 1) [((⟨0, ⟨0, 0, 1⟩, 0, 0⟩ : Draws), indexedRod idx)] = some out ∧
    out.summed.length = 1 ∧ out.summed[0]? = some t ∧ out.moved[0]? = some u ∧ (at6 out.velNonCon 0).1.z = 0 ∧ 0 < t.vel.z ∧ u.pos.z ≠ (indexedRod idx).pos.z := by
  set W : Draws := ⟨0, ⟨0, 0, 1⟩, 0, 0⟩
  have hval : ∀ x ∈ [(W, indexedRod idx)], Valid x.2 := by simp [(indexedRod_valid idx)]
  obtain ⟨m, v, fu, vu, fb, vb, out, hm, hrun, hvn, hvl, hso, l1, l2, l3, l4, ls, lm, hall⟩ :=
    runStep_spec (C43_cfg true) (by norm_num [C43_cfg]) (by norm_num [C43_cfg]) none none (noConstraints 1) [(W, indexedRod idx)] hval
      (by simp) (by simp) (fun m v _ _ => ⟨_, _, _, _, rfl, by simp, by simp, by simp, by simp⟩)
  obtain ⟨vi, fui, vui, fbi, vbi, t, u, gv, gfu, gvu, gfb, gvb, ht, hu, hst⟩ := hall 0 W (indexedRod idx) rfl
  obtain ⟨s1, mf, nb, hk1, hk2, hmo, hnb, hvi, htv, hto⟩ := hst.ex
  have hk : (C43_cfg true).KBT > 0 := by norm_num [C43_cfg]
  simp only [noConstraints, Option.some.injEq, SolverOut.mk.injEq] at hso
  obtain ⟨-, e2, -, e4⟩ := hso
  have e2 := flat6_injective _ _ e2
  have e4 := flat6_injective _ _ e4
  subst e2 e4
  simp at gvu gvb
  have hnb0 : nb.1.z = 0 := by rw [hnb]; simp [nbOf]
  obtain ⟨p, e, r, -, hp, he, hr, hdi⟩ := dragInv_pos (indexedRod idx) (indexedRod_valid idx).radius (indexedRod_valid idx).length 1 (by norm_num) rfl
  have hbz : 0 < s1.velBrown.z := by
    have h := hk1 hk
    have hvis : (C43_cfg true).viscosity = 1 := rfl
    rw [hvis] at h
    unfold brownBody at h
    rw [if_neg (by norm_num [C43_cfg]), hdi] at h
    simp only [Option.map_some, Option.some.injEq] at h
    rw [← h]
    have hd : (indexedRod idx).orientation.rot ⟨0, 0, 1⟩ = ⟨0, 0, 1⟩ := by
      ext <;> norm_num [indexedRod, C42_rod, Sylinder.make, Quat.rot, Quat.vec, V3.cross]
    have he' : ¬ 1 / e ≤ 0 := not_le.2 (by positivity)
    have hp' : ¬ 1 / p ≤ 0 := not_le.2 (by positivity)
    have hN : (1 / p - 1 / e) • outer (⟨0, 0, 1⟩ : V3) + (1 / e) • (1 : Mat3) = !![1 / e, 0, 0; 0, 1 / e, 0; 0, 0, 1 / p] := by
      ext i j
      fin_cases i <;> fin_cases j <;> simp [outer, Matrix.one_apply]
    have hL : lltL !![1 / e, 0, 0; 0, 1 / e, 0; 0, 0, 1 / p] = !![Real.sqrt (1 / e), 0, 0; 0, Real.sqrt (1 / e), 0; 0, 0, Real.sqrt (1 / p)] := by
      unfold lltL
      simp only [Matrix.of_apply, Matrix.cons_val', Matrix.cons_val_zero, Matrix.cons_val_one, Matrix.cons_val, zero_div, mul_zero, sub_zero, add_zero]
      rw [if_neg he', if_neg he', if_neg hp']
    simp only [hd, hN, hL]
    simp [W, mul3, C43_cfg]
    exact hp
  have htz : 0 < t.vel.z := by
    rw [htv]
    simp [hnb0, ← gvu, ← gvb, hbz]
  refine ⟨out, t, u, hrun, ls, ht, hu, ?_, htz, ?_⟩
  · rw [hvn, at6_flat6 v 0 vi gv, hvi, if_pos hk]
    simp [hnb0, maskIf, mask1, C43_cfg]
  · rw [hst.moved]
    have hfx : (C43_cfg true).sylinderFixed = false := rfl
    have hdt : (C43_cfg true).dt = 1 := rfl
    rw [hfx, hdt]
    simp only [Bool.false_eq_true, if_false, Sylinder.stepEuler, Equatn.stepEuler, hst.pos]
    simp
    exact htz.ne'

/-- False in a monolayer with Brownian motion: the velocity given to the solver is restricted to the plane, the Brownian
velocity that moves the body is not.  A body with a random kick along z leaves the plane. -/
theorem C43_monolayer_false : ∃ (cfg : Cfg) (W : Draws) (s : Sylinder) (out : StepOut) (t u : Sylinder), cfg.monolayer = true ∧ Valid s ∧
    s.velBrown = 0 ∧ s.omegaBrown = 0 ∧ runStep cfg none none (noConstraints 1) [(W, s)] = some out ∧
    out.summed[0]? = some t ∧ out.moved[0]? = some u ∧ (at6 out.velNonCon 0).1.z = 0 ∧ 0 < t.vel.z ∧ u.pos.z ≠ s.pos.z := by
  obtain ⟨out, t, u, h1, -, h2, h3, h4, h5, h6⟩ := monolayer_witness 0
  exact ⟨C43_cfg true, ⟨0, ⟨0, 0, 1⟩, 0, 0⟩, indexedRod 0, out, t, u, rfl, indexedRod_valid 0, rfl, rfl, h1, h2, h3, h4, h5, h6⟩

/-! ### C64 Brownian velocities satisfy the fluctuation-dissipation relation -/

/-- The Brownian velocity is a matrix `S` times the translational draw plus a drift that is odd in the finite difference
draw, and the angular velocity is a number times the rotational draw.  The covariances `S Sᵀ` and `c²` are `2 kBT / dt` times
the mobility: the drag of `S Sᵀ f` is `(2 kBT / dt) f`. -/
theorem C64_covariance (mu dt kBT : ℝ) (hmu : 0 < mu) (hdt : 0 < dt) (hk : 0 ≤ kBT) (s : Sylinder) (hv : Valid s)
    (him : s.isImmovable = false) :
    ∃ (S : Mat3) (c : ℝ) (drift : V3 → V3 → V3) (para perp rot : ℝ), s.calcDragCoeff Pi mu = some (para, perp, rot) ∧
      (∀ W : Draws, ∃ t, brownBody mu dt kBT W s = some t ∧ t.velBrown = mul3 S W.pos + drift W.rfdrot W.rfdpos ∧
        t.omegaBrown = c • W.rot) ∧
      (∀ w p, drift w (-p) = -drift w p) ∧
      (∀ f τ, drag para perp rot s.direction (mul3 (S * S.transpose) f, (c * c) • τ) = ((2 * kBT / dt) • f, (2 * kBT / dt) • τ)) := by
  obtain ⟨p, e, r, hc, hp, he, hr, hdi⟩ := dragInv_pos s hv.radius hv.length mu hmu him
  have hd := direction_unit s hv.unit
  have hkd : 0 ≤ 2 * kBT / dt := by positivity
  refine ⟨Real.sqrt (2 * kBT / dt) • lltL (nmat (1 / p) (1 / e) s.direction), Real.sqrt (1 / r) * Real.sqrt (2 * kBT / dt),
    fun w x => (kBT / (dt * 0.1)) • mul3 (nmat (1 / p) (1 / e) ((Equatn.rotateEquatn s.orientation w (dt * 0.1)).rot ⟨0, 0, 1⟩) -
      nmat (1 / p) (1 / e) s.direction) x, p, e, r, hc, ?_, ?_, ?_⟩
  · intro W
    unfold brownBody
    rw [if_neg hdt.ne', hdi]
    refine ⟨_, rfl, ?_, rfl⟩
    rw [mul3_smul]
    rfl
  · intro w x
    simp only [mul3_neg]
    ext <;> simp
  · intro f τ
    rw [Matrix.transpose_smul, Matrix.smul_mul, Matrix.mul_smul, smul_smul, Real.mul_self_sqrt hkd,
      lltL_nmat _ _ (by positivity) (by positivity) _ hd, mul3_smul, nmat_eq, mul3_trans]
    have h1 : Real.sqrt (1 / r) * Real.sqrt (2 * kBT / dt) * (Real.sqrt (1 / r) * Real.sqrt (2 * kBT / dt)) = (1 / r) * (2 * kBT / dt) := by
      rw [mul_mul_mul_comm, Real.mul_self_sqrt hkd, Real.mul_self_sqrt (by positivity)]
    rw [h1, ← mobFun_drag p e r hp.ne' he.ne' hr.ne' s.direction hd ((2 * kBT / dt) • f, (2 * kBT / dt) • τ)]
    congr 1
    apply Prod.ext
    · ext <;> simp [mobFun, dot] <;> ring
    · ext <;> simp [mobFun] <;> ring

example : ∃ s : Sylinder, Valid s ∧ s.isImmovable = false := ⟨C42_rod, C42_rod_valid, rfl⟩

/-! ### C65 A monolayer keeps bodies in its plane -/

/-- `prepareStep` puts every body at the middle height, and turns its director into the plane: the new orientation is a unit
quaternion with the direction of the horizontal part of the old one.  Missing: a body standing exactly upright, for which it
is false (`C65_upright_false`). -/
theorem C65_plane_partial (svd : V3 → V3 → V3) (cfg : Cfg) (rank : ℤ) (s : Sylinder) (hm : cfg.monolayer = true)
    (hx : s.direction.x ≠ 0 ∨ s.direction.y ≠ 0) :
    let u := prepareBody svd cfg rank s
    u.pos = ⟨s.pos.x, s.pos.y, (cfg.simBoxLowZ + cfg.simBoxHighZ) / 2⟩ ∧ Spec.UnitQuat u.orientation ∧ u.direction.z = 0 ∧
      ∃ c : ℝ, 0 < c ∧ u.direction = c • (⟨s.direction.x, s.direction.y, 0⟩ : V3) := by
  have hd : s.clear.orientation = s.orientation := rfl
  set h : V3 := ⟨s.direction.x, s.direction.y, 0⟩ with hh
  have hne : h ≠ 0 := by
    intro h0
    rw [V3.ext_iff] at h0
    rcases hx with hx | hx
    · exact hx h0.1
    · exact hx h0.2.1
  have hnn : h.normalized ≠ 0 := by
    intro h0
    have := norm_normalized h hne
    rw [h0, V3.norm_zero] at this
    norm_num at this
  have hz1 : (⟨0, 0, 1⟩ : V3) ≠ 0 := by
    intro h0
    have := congrArg V3.z h0
    norm_num at this
  have hnz : (⟨0, 0, 1⟩ : V3).normalized = ⟨0, 0, 1⟩ := by
    rw [normalized_eq _ hz1]
    have : V3.norm (⟨0, 0, 1⟩ : V3) = 1 := by simp [V3.norm, normSq, dot]
    rw [this]
    ext <;> simp
  have hzz : h.normalized.normalized.z = 0 := by
    rw [normalized_eq _ hnn, normalized_eq _ hne]
    simp [hh]
  have hreg := Orient.fromTwoVectors_regular svd ⟨0, 0, 1⟩ h.normalized hz1 hnn (by
    rw [hnz]
    simp only [dot, hzz]
    norm_num [Orient.dummyPrecision])
  rw [hnz] at hreg
  have hu : prepareBody svd cfg rank s = { s.clear with
      radiusCollision := s.radius * cfg.sylinderDiameterColRatio
      lengthCollision := s.length * cfg.sylinderLengthColRatio
      rank := rank
      colBuf := cfg.sylinderColBuf
      pos := ⟨s.pos.x, s.pos.y, (cfg.simBoxHighZ + cfg.simBoxLowZ) / 2⟩
      orientation := Orient.fromTwoVectors svd ⟨0, 0, 1⟩ h.normalized } := by
    unfold prepareBody
    simp only [hm, if_true]
    rfl
  intro u
  have hdir : u.direction = h.normalized.normalized := by
    show (prepareBody svd cfg rank s).direction = _
    rw [hu]
    exact hreg.2
  refine ⟨?_, ?_, ?_, ?_⟩
  · show (prepareBody svd cfg rank s).pos = _
    rw [hu, add_comm]
  · show Spec.UnitQuat (prepareBody svd cfg rank s).orientation
    rw [hu]
    exact hreg.1
  · rw [hdir, hzz]
  · refine ⟨1 / V3.norm h.normalized * (1 / V3.norm h), ?_, ?_⟩
    · have := V3.norm_pos h hne
      rw [norm_normalized h hne]
      positivity
    · rw [hdir, normalized_eq _ hnn]
      conv_lhs => rw [normalized_eq h hne]
      rw [normalized_eq h hne]
      ext <;> simp <;> ring

example : ∃ (cfg : Cfg) (s : Sylinder), cfg.monolayer = true ∧ Valid s ∧ (s.direction.x ≠ 0 ∨ s.direction.y ≠ 0) ∧ s.direction.z ≠ 0 := by
  refine ⟨C43_cfg true, { C42_rod with orientation := ⟨4 / 5, 3 / 5, 0, 0⟩ }, rfl, ⟨C42_rod_valid.radius, C42_rod_valid.length, ?_⟩, Or.inr ?_, ?_⟩
  · norm_num [Spec.UnitQuat]
  · norm_num [Sylinder.direction, Quat.rot, Quat.vec, V3.cross]
  · norm_num [Sylinder.direction, Quat.rot, Quat.vec, V3.cross]

/-- False for a body standing upright: its horizontal part is zero, normalising it leaves it zero, and the orientation becomes
a quaternion of norm `√(1/2)`; the director still stands upright. -/
theorem C65_upright_false (svd : V3 → V3 → V3) : ∃ (cfg : Cfg) (s : Sylinder), cfg.monolayer = true ∧ Valid s ∧
    ¬ Spec.UnitQuat (prepareBody svd cfg 0 s).orientation ∧ (prepareBody svd cfg 0 s).direction.z = 1 := by
  have hq : (prepareBody svd (C43_cfg true) 0 C42_rod).orientation = ⟨Real.sqrt ((1 + 0) * 2) * 0.5, 0, 0, 0⟩ := by
    have hd : (⟨(C42_rod.orientation.rot ⟨0, 0, 1⟩).x, (C42_rod.orientation.rot ⟨0, 0, 1⟩).y, 0⟩ : V3) = 0 := by
      ext <;> norm_num [C42_rod, Sylinder.make, Quat.rot, Quat.vec, V3.cross]
    have h0 : (0 : V3).normalized = 0 := by
      simp [V3.normalized, V3.normSq, dot]
    have : (prepareBody svd (C43_cfg true) 0 C42_rod).orientation = Orient.fromTwoVectors svd ⟨0, 0, 1⟩
        (⟨(C42_rod.orientation.rot ⟨0, 0, 1⟩).x, (C42_rod.orientation.rot ⟨0, 0, 1⟩).y, 0⟩ : V3).normalized := rfl
    rw [this, hd, h0]
    unfold Orient.fromTwoVectors
    simp only [h0]
    have hz : dot (0 : V3) (⟨0, 0, 1⟩ : V3).normalized = 0 := by simp [dot]
    rw [hz, if_neg (by norm_num [Orient.dummyPrecision])]
    simp [V3.cross]
  refine ⟨C43_cfg true, C42_rod, rfl, C42_rod_valid, ?_, ?_⟩
  · rw [hq]
    simp only [Spec.UnitQuat]
    rw [mul_pow, Real.sq_sqrt (by norm_num)]
    norm_num
  · simp only [Sylinder.direction, hq]
    norm_num [Quat.rot, Quat.vec, V3.cross]

end Verif
