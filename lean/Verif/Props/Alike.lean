import Verif.Lemmas.Alike
/-!
C100, motion: two programs that simulate the same move the bodies alike, as far as the tolerances of their solvers allow.
-/
namespace Verif
open Near Collector RunStep Mobility Sim Spec.Resume Spec.Momentum Spec.Layout Spec.Mobility Spec.Motion Layout

theorem Layout.map_seen {β : Type*} {l m : List Sylinder} (h : l.map seen = m.map seen) (f : Sylinder → β) (hf : ∀ a b, seen a = seen b → f a = f b) : l.map f = m.map f := by
  have hl : l.length = m.length := by simpa using congrArg List.length h
  apply List.ext_getElem
  · simpa using hl
  · intro i h1 h2
    rw [List.getElem_map, List.getElem_map]
    exact hf _ _ (Momentum.map_at h i _ _)

theorem Layout.lag_seen (mu : ℝ) {a b : Sylinder} (h : kind a = kind b) (T : V3 × V3) : lag mu a T = lag mu b T := by
  simp only [kind, Prod.mk.injEq] at h
  obtain ⟨-, -, h1, h2, h3⟩ := h
  have e : a.calcDragCoeff Pi mu = b.calcDragCoeff Pi mu := by unfold Sylinder.calcDragCoeff Sylinder.isSphere; rw [h2, h3]; rfl
  unfold lag
  rw [h1, e]

theorem Layout.lag_nonneg {mu : ℝ} (hmu : 0 < mu) {a : Sylinder} (hv : Valid a) (T : V3 × V3) : 0 ≤ lag mu a T := by
  obtain ⟨p, e, r, h, h1, h2, h3⟩ := drag_pos a hv.radius hv.length mu hmu
  unfold lag
  split_ifs
  · exact le_rfl
  · rw [h]
    have hpos : ∀ v : V3, 0 ≤ V3.dot v v := fun v => by unfold V3.dot; nlinarith [sq_nonneg v.x, sq_nonneg v.y, sq_nonneg v.z]
    have := hpos T.1
    have := hpos T.2
    have := lt_min h1 h2
    simp only
    positivity

theorem Layout.lag_smul (mu : ℝ) (a : Sylinder) (c : ℝ) (T : V3 × V3) : lag mu a (c • T.1, c • T.2) = c ^ 2 * lag mu a T := by
  unfold lag
  split_ifs
  · simp
  · cases a.calcDragCoeff Pi mu with
    | none => simp
    | some d =>
      simp [V3.dot]
      ring

/-- What C96 says of a step without Brownian motion. -/
theorem Layout.moving {C C₀ : Sim.Cfg} {pbc : Fin 3 → Bool} {low high : Fin 3 → ℝ} {P B : ℕ → List Sylinder} (h : Sim.Sound C pbc low high P) (hmono : C.mob.monolayer = false) (hfree : C.mob.sylinderFixed = false)
    {fl : ℝ → ℝ} {k : ℕ} {s : Sim.State} (hr : Sim.Run (Sim.Ok pbc low high) fl C₀ B C P k s)
    {pre : Bool} {q : Place.Sys} {ranks : List RankIn} {out : Out} {s' : Sim.State} (hs : Sim.Step C fl pre s q ranks out s') (hT : pre = true ∨ C.mob.KBT ≤ 0) :
    ∀ r < C.place.g.n, (s'.sys.P r).length = (q.P r).length ∧ ∀ (i : ℕ) (x : Sylinder), (numbered C.place.g.n q.P r)[i]? = some x → ∃ rk D u, ranks[r]? = some rk ∧ rk.bodies[i]? = some (D, x) ∧
      (s'.sys.P r)[i]? = some u ∧ kind u = kind x ∧ u.pos = x.pos + C.mob.dt • u.vel ∧
      Moves C.mob.viscosity x (u.force, u.torque) ((u.vel, u.omega) - at6 (rk.velPart.getD []) i) := by
  intro r hrn
  obtain ⟨hl, hm⟩ := C96_motion h hmono fl k s hr pre q ranks out s' hs r hrn
  refine ⟨hl, fun i x hx => ?_⟩
  obtain ⟨rk, D, u, w, g1, g2, g3, g4, g5, g6, -, g8⟩ := hm i x hx
  have hw : w = (0, 0) := by
    refine g4.2 ?_
    rcases hT with rfl | hT
    · simp
    · split_ifs
      · simp
      · exact not_lt.2 hT
  refine ⟨rk, D, u, g1, g2, g3, ?_, (g6 hfree).1, ?_⟩
  · unfold kind
    rw [g8.gid, g8.group, g8.isImmovable, g8.radius, g8.length]
  · rw [hw] at g5
    have e : (u.vel, u.omega) - at6 (rk.velPart.getD []) i - ((0, 0) : V3 × V3) = (u.vel, u.omega) - at6 (rk.velPart.getD []) i := by
      refine Prod.ext (V3.ext ?_ ?_ ?_) (V3.ext ?_ ?_ ?_) <;> simp
    rwa [e] at g5

/-- The body before a step. -/
theorem Layout.before {C C₀ : Sim.Cfg} {pbc : Fin 3 → Bool} {low high : Fin 3 → ℝ} {P B : ℕ → List Sylinder} (h : Sim.Sound C pbc low high P) (hmono : C.mob.monolayer = false) (hfree : C.mob.sylinderFixed = false)
    {fl : ℝ → ℝ} {k : ℕ} {s : Sim.State} (hr : Sim.Run (Sim.Ok pbc low high) fl C₀ B C P k s)
    {pre : Bool} {q : Place.Sys} {ranks : List RankIn} {out : Out} {s' : Sim.State} (hs : Sim.Step C fl pre s q ranks out s') (hT : pre = true ∨ C.mob.KBT ≤ 0)
    {u : Sylinder} (hu : u ∈ all C.place.g.n s'.sys.P) : ∃ x ∈ all C.place.g.n q.P, Valid x ∧ kind u = kind x ∧ u.pos = x.pos + C.mob.dt • u.vel := by
  obtain ⟨r, hrn, hu⟩ := mem_all.1 hu
  obtain ⟨i, hi, hiu⟩ := List.getElem_of_mem hu
  obtain ⟨hl, hm⟩ := Layout.moving h hmono hfree hr hs hT r hrn
  have hi' : i < (numbered C.place.g.n q.P r).length := by rw [numbered_length _ _ _ hrn]; omega
  obtain ⟨rk, D, u', -, -, g3, g4, g5, -⟩ := hm i _ (List.getElem?_eq_getElem hi')
  rw [List.getElem?_eq_getElem hi, hiu] at g3
  cases g3
  have hv := (hs.prepared h (Sim.run_inv hr)).valid h hrn (List.getElem_mem hi')
  obtain ⟨b, hb, g, hx⟩ := numbered_get _ _ _ _ _ (List.getElem?_eq_getElem hi')
  rw [hx] at hv g4 g5
  exact ⟨b, mem_all.2 ⟨r, hrn, List.mem_of_getElem? hb⟩, ⟨hv.radius, hv.length, hv.unit⟩, g4, g5⟩

section
variable {C D C₀ D₀ : Sim.Cfg} {pbc : Fin 3 → Bool} {low high : Fin 3 → ℝ} {P Q B E : ℕ → List Sylinder}

/-- C100, motion.  Take steps of two programs that simulate the same as in `C100_constraints`, both without Brownian motion, both with the same given forces and velocities of the bodies
(or none), in which both solvers converged, each to its own tolerance, with no spring or rigid link at the cap of `-10⁸`.  Let `U g`, `W g` be the velocity and angular velocity at
which one moves the body with the id `g`, and `U' g`, `W' g` the other.  Then the immovable bodies move alike, and `dt` times the sum over all bodies of

* the smaller drag coefficient times `|U - U'|²`, plus the rotational one times `|W - W'|²`

is at most what the tolerances leave open: for each spring `κ/2 (dt tol)²`, for each contact or rigid link `|γ| dt (tol + tol')`, plus `|fl(100 ε)|` times the separation after
the step, from both programs. -/
theorem C100_motion (h : Sim.Sound C pbc low high P) (h' : Sim.Sound D pbc low high Q) (hp : SamePhysics C D) (hid : ((all C.place.g.n P).map Sylinder.gid).Nodup)
    (fl fl' : ℝ → ℝ) (k k' : ℕ) (s t : Sim.State) (hr : Sim.Run (Sim.Ok pbc low high) fl C₀ B C P k s) (hr' : Sim.Run (Sim.Ok pbc low high) fl' D₀ E D Q k' t)
    (hsame : ((all C.place.g.n s.sys.P).map seen).Perm ((all D.place.g.n t.sys.P).map seen))
    (hbig : ∀ b ∈ all C.place.g.n s.sys.P, ∀ k, pbc k = false → |Near.comp b.pos k| < Stats.largeFloat)
    (pre pre' : Bool) (q q' : Place.Sys) (ranks ranks' : List RankIn) (out out' : Out) (s' t' : Sim.State) (hs : Sim.Step C fl pre s q ranks out s')
    (hs' : Sim.Step D fl' pre' t q' ranks' out' t')
    (hT : pre = true ∨ C.mob.KBT ≤ 0) (hT' : pre' = true ∨ D.mob.KBT ≤ 0) (hfree : C.mob.sylinderFixed = false) (hfree' : D.mob.sylinderFixed = false)
    (htol : 0 ≤ C.ctl.res) (htol' : 0 ≤ D.ctl.res) (res res' : ℝ) (hc : Sim.Converged C fl out res) (hc' : Sim.Converged D fl' out' res')
    (hlow : ∀ p ∈ out.pools, ∀ b ∈ p.flatten, b.bilateral = true → fl (-(10 : ℝ) ^ 8 + BCQP.dblEps * 100) ≤ b.gamma)
    (hlow' : ∀ p ∈ out'.pools, ∀ b ∈ p.flatten, b.bilateral = true → fl' (-(10 : ℝ) ^ 8 + BCQP.dblEps * 100) ≤ b.gamma)
    (G V : ℤ → V3 × V3) (hG : Loads C.place.g.n q ranks G V) (hG' : Loads D.place.g.n q' ranks' G V)
    (U W U' W' : ℤ → V3) (hU : Velocities (all C.place.g.n s'.sys.P) U W) (hU' : Velocities (all D.place.g.n t'.sys.P) U' W') :
    (∀ x ∈ all C.place.g.n q.P, x.isImmovable = true → U x.gid = U' x.gid ∧ W x.gid = W' x.gid) ∧
    C.mob.dt * ((all C.place.g.n q.P).map fun x => lag C.mob.viscosity x (U x.gid - U' x.gid, W x.gid - W' x.gid)).sum ≤
      (((constraints ranks).zip ((out.pools.flatMap fun p => p.flatten).map Block.gamma)).map fun x =>
        loose C.mob.dt C.ctl.res D.ctl.res |fl (BCQP.dblEps * 100)| x.1 (x.1.delta0 + C.mob.dt * gapOf U W x.1) x.2).sum +
      (((constraints ranks').zip ((out'.pools.flatMap fun p => p.flatten).map Block.gamma)).map fun x =>
        loose C.mob.dt D.ctl.res C.ctl.res |fl' (BCQP.dblEps * 100)| x.1 (x.1.delta0 + C.mob.dt * gapOf U' W' x.1) x.2).sum := by
  have hq := hs.prepared h (Sim.run_inv hr)
  have hq' := hs'.prepared h' (Sim.run_inv hr')
  obtain ⟨hV, hcon⟩ := C100_constraints h h' hp hid fl fl' k k' s t hr hr' hsame hbig pre pre' q q' ranks ranks' out out' s' t' hs hs'
  obtain ⟨a1, a2, a3, a4⟩ := one h hs hq hfree hc hlow (fun r hrn i x hx => by
    obtain ⟨rk, D, u, g1, g2, g3, g4, -, g5⟩ := (Layout.moving h hp.mono.1.2 hfree hr hs hT r hrn).2 i x hx
    exact ⟨rk, D, u, g1, g2, g3, congrArg Prod.fst g4, g5⟩) hU hG
  obtain ⟨b1, b2, b3, b4⟩ := one h' hs' hq' hfree' hc' hlow' (fun r hrn i x hx => by
    obtain ⟨rk, D, u, g1, g2, g3, g4, -, g5⟩ := (Layout.moving h' hp.mono.2.2 hfree' hr' hs' hT' r hrn).2 i x hx
    exact ⟨rk, D, u, g1, g2, g3, congrArg Prod.fst g4, g5⟩) hU' hG'
  obtain ⟨last, -, -, hlt, -⟩ := hc
  obtain ⟨last', -, -, hlt', -⟩ := hc'
  rw [hp.viscosity] at b1
  rw [hp.dt] at b3
  obtain ⟨c1, c2⟩ := two h.dt (fun x hx => by
    obtain ⟨r, hrn, hx⟩ := mem_everyone.1 hx
    exact hq.valid h hrn hx) (by rw [everyone_seen, everyone_seen]; exact hV) (by rw [a4, b4]; exact hcon) htol htol' hlt.le hlt'.le a1 b1 a2 b2 a3 b3
  constructor
  · intro x hx him
    have : seen x ∈ (everyone C.place.g.n q.P).map seen := by rw [everyone_seen]; exact List.mem_map_of_mem hx
    obtain ⟨y, hy, hyx⟩ := List.mem_map.1 this
    have e1 : y.gid = x.gid := by have := congrArg (fun v : View => v.1.1) hyx; exact this
    have e2 : y.isImmovable = x.isImmovable := by have := congrArg (fun v : View => v.1.2.2.1) hyx; exact this
    rw [← e1]
    exact c1 y hy (e2.trans him)
  · rw [Layout.map_seen (everyone_seen C.place.g.n q.P) (fun x => lag C.mob.viscosity x (U x.gid - U' x.gid, W x.gid - W' x.gid)) (fun a b hab => by
      have e1 : a.gid = b.gid := by have := congrArg (fun v : View => v.1.1) hab; exact this
      rw [Layout.lag_seen _ (by have := congrArg Prod.fst hab; exact this), e1])] at c2
    exact c2

/-- C100, positions.  After such steps the place of each body is the same in both programs, as far as the tolerances allow: for a body `u` of one and the same body `u'` of
the other, the smaller drag coefficient times the square of the distance of their centres, plus the rotational one times the square of the difference of the turns that were made, is at
most `dt` times the right hand side of `C100_motion`. -/
theorem C100_positions (h : Sim.Sound C pbc low high P) (h' : Sim.Sound D pbc low high Q) (hp : SamePhysics C D) (hid : ((all C.place.g.n P).map Sylinder.gid).Nodup)
    (fl fl' : ℝ → ℝ) (k k' : ℕ) (s t : Sim.State) (hr : Sim.Run (Sim.Ok pbc low high) fl C₀ B C P k s) (hr' : Sim.Run (Sim.Ok pbc low high) fl' D₀ E D Q k' t)
    (hsame : ((all C.place.g.n s.sys.P).map seen).Perm ((all D.place.g.n t.sys.P).map seen))
    (hbig : ∀ b ∈ all C.place.g.n s.sys.P, ∀ k, pbc k = false → |Near.comp b.pos k| < Stats.largeFloat)
    (pre pre' : Bool) (q q' : Place.Sys) (ranks ranks' : List RankIn) (out out' : Out) (s' t' : Sim.State) (hs : Sim.Step C fl pre s q ranks out s')
    (hs' : Sim.Step D fl' pre' t q' ranks' out' t')
    (hT : pre = true ∨ C.mob.KBT ≤ 0) (hT' : pre' = true ∨ D.mob.KBT ≤ 0) (hfree : C.mob.sylinderFixed = false) (hfree' : D.mob.sylinderFixed = false)
    (htol : 0 ≤ C.ctl.res) (htol' : 0 ≤ D.ctl.res) (res res' : ℝ) (hc : Sim.Converged C fl out res) (hc' : Sim.Converged D fl' out' res')
    (hlow : ∀ p ∈ out.pools, ∀ b ∈ p.flatten, b.bilateral = true → fl (-(10 : ℝ) ^ 8 + BCQP.dblEps * 100) ≤ b.gamma)
    (hlow' : ∀ p ∈ out'.pools, ∀ b ∈ p.flatten, b.bilateral = true → fl' (-(10 : ℝ) ^ 8 + BCQP.dblEps * 100) ≤ b.gamma)
    (G V : ℤ → V3 × V3) (hG : Loads C.place.g.n q ranks G V) (hG' : Loads D.place.g.n q' ranks' G V)
    (U W U' W' : ℤ → V3) (hU : Velocities (all C.place.g.n s'.sys.P) U W) (hU' : Velocities (all D.place.g.n t'.sys.P) U' W')
    (u u' : Sylinder) (hu : u ∈ all C.place.g.n s'.sys.P) (hu' : u' ∈ all D.place.g.n t'.sys.P) (huu : u.gid = u'.gid) :
    lag C.mob.viscosity u (u.pos - u'.pos, C.mob.dt • (u.omega - u'.omega)) ≤ C.mob.dt * (
      (((constraints ranks).zip ((out.pools.flatMap fun p => p.flatten).map Block.gamma)).map fun x =>
        loose C.mob.dt C.ctl.res D.ctl.res |fl (BCQP.dblEps * 100)| x.1 (x.1.delta0 + C.mob.dt * gapOf U W x.1) x.2).sum +
      (((constraints ranks').zip ((out'.pools.flatMap fun p => p.flatten).map Block.gamma)).map fun x =>
        loose C.mob.dt D.ctl.res C.ctl.res |fl' (BCQP.dblEps * 100)| x.1 (x.1.delta0 + C.mob.dt * gapOf U' W' x.1) x.2).sum) ∧
    (u.isImmovable = true → u.pos = u'.pos) := by
  have hq := hs.prepared h (Sim.run_inv hr)
  obtain ⟨hV, -⟩ := C100_constraints h h' hp hid fl fl' k k' s t hr hr' hsame hbig pre pre' q q' ranks ranks' out out' s' t' hs hs'
  obtain ⟨hfix, hsum⟩ := C100_motion h h' hp hid fl fl' k k' s t hr hr' hsame hbig pre pre' q q' ranks ranks' out out' s' t' hs hs' hT hT' hfree hfree' htol htol' res res' hc hc'
    hlow hlow' G V hG hG' U W U' W' hU hU'
  obtain ⟨x, hx, hxv, x1, x2⟩ := Layout.before h hp.mono.1.2 hfree hr hs hT hu
  obtain ⟨x', hx', -, y1, y2⟩ := Layout.before h' hp.mono.2.2 hfree' hr' hs' hT' hu'
  have g1 : u.gid = x.gid := congrArg Prod.fst x1
  have g2 : u'.gid = x'.gid := congrArg Prod.fst y1
  have hxx : seen x = seen x' := by
    have hv := views_nodup hq hid
    exact view_unique hv (List.mem_map_of_mem hx) (hV.mem_iff.2 (List.mem_map_of_mem hx')) (by
      show x.gid = x'.gid
      rw [← g1, huu, g2])
  have hpos : x.pos = x'.pos := by have := congrArg (fun v : View => v.2.1) hxx; exact this
  obtain ⟨v1, v2⟩ := hU u hu
  obtain ⟨v3, v4⟩ := hU' u' hu'
  have hdiff : u.pos - u'.pos = C.mob.dt • (u.vel - u'.vel) := by
    rw [x2, y2, hpos, hp.dt]
    ext <;> simp <;> ring
  constructor
  · rw [hdiff, Layout.lag_smul (T := (u.vel - u'.vel, u.omega - u'.omega)), Layout.lag_seen _ x1, pow_two, mul_assoc]
    refine mul_le_mul_of_nonneg_left (le_trans (mul_le_mul_of_nonneg_left ?_ h.dt.le) hsum) h.dt.le
    have hone : lag C.mob.viscosity x (u.vel - u'.vel, u.omega - u'.omega) = lag C.mob.viscosity x (U x.gid - U' x.gid, W x.gid - W' x.gid) := by
      rw [← g1, v1, v2, huu, v3, v4]
    rw [hone]
    refine List.single_le_sum ?_ _ (List.mem_map_of_mem (f := fun x => lag C.mob.viscosity x (U x.gid - U' x.gid, W x.gid - W' x.gid)) hx)
    intro y hy
    obtain ⟨z, hz, rfl⟩ := List.mem_map.1 hy
    have hz2 : seen z ∈ (everyone C.place.g.n q.P).map seen := by rw [everyone_seen]; exact List.mem_map_of_mem hz
    obtain ⟨z', hz', hzz⟩ := List.mem_map.1 hz2
    obtain ⟨r, hrn, hz'⟩ := mem_everyone.1 hz'
    rw [← Layout.lag_seen _ (a := z') (by have := congrArg Prod.fst hzz; exact this)]
    exact Layout.lag_nonneg h.viscosity (hq.valid h hrn hz') _
  · intro him
    have hi : x.isImmovable = true := by
      have : u.isImmovable = x.isImmovable := congrArg (fun v : ℤ × ℤ × Bool × ℝ × ℝ => v.2.2.1) x1
      rw [← this]; exact him
    obtain ⟨f1, -⟩ := hfix x hx hi
    rw [← g1, v1, huu, v3] at f1
    rw [x2, y2, hpos, hp.dt, f1]

end

/-- The hypotheses of `C100_motion` can be met: two spheres with a link and a wall, on one rank and on two. -/
example (D : Draws) : ∃ (C C' : Sim.Cfg) (P : ℕ → List Sylinder) (s s' t t' : Sim.State) (q q' : Place.Sys) (ranks ranks' : List RankIn) (out out' : Out) (U W U' W' : ℤ → V3),
    C.place.g.n = 1 ∧ C'.place.g.n = 2 ∧ Sim.Sound C (fun _ => false) (fun _ => 0) (fun _ => 1) P ∧ Sim.Sound C' (fun _ => false) (fun _ => 0) (fun _ => 1) P ∧ SamePhysics C C' ∧
    Sim.Step C id false s q ranks out s' ∧ Sim.Step C' id false t q' ranks' out' t' ∧ Sim.Converged C id out 0 ∧ Sim.Converged C' id out' 0 ∧
    Loads C.place.g.n q ranks (fun _ => (0, 0)) (fun _ => (0, 0)) ∧ Loads C'.place.g.n q' ranks' (fun _ => (0, 0)) (fun _ => (0, 0)) ∧
    Velocities (all C.place.g.n s'.sys.P) U W ∧ Velocities (all C'.place.g.n t'.sys.P) U' W' ∧
    C.mob.dt * ((all C.place.g.n q.P).map fun x => lag C.mob.viscosity x (U x.gid - U' x.gid, W x.gid - W' x.gid)).sum ≤
      (((constraints ranks).zip ((out.pools.flatMap fun p => p.flatten).map Block.gamma)).map fun x =>
        loose C.mob.dt C.ctl.res C'.ctl.res |id (BCQP.dblEps * 100)| x.1 (x.1.delta0 + C.mob.dt * gapOf U W x.1) x.2).sum +
      (((constraints ranks').zip ((out'.pools.flatMap fun p => p.flatten).map Block.gamma)).map fun x =>
        loose C.mob.dt C'.ctl.res C.ctl.res |id (BCQP.dblEps * 100)| x.1 (x.1.delta0 + C.mob.dt * gapOf U' W' x.1) x.2).sum := by
  obtain ⟨C, C', P, s, s', t, t', q, q', ranks, ranks', out, out', h1, h2, h3, h4, h5, h6, h7, h8, h9, h10, h11, h12, -, -, ⟨c1, c2, c3, c4, c5, c6, c7, c8⟩, z1, z2, f1, f2⟩ :=
    Layout.witness D
  have h0 : ∀ i, at6 (([] : List ℝ)) i = (0, 0) := fun i => Prod.ext (V3.ext (by simp [at6]) (by simp [at6]) (by simp [at6])) (V3.ext (by simp [at6]) (by simp [at6]) (by simp [at6]))
  have hload : ∀ (n : ℕ) (q : Place.Sys) (ranks : List RankIn), (∀ rk ∈ ranks, rk.force = none ∧ rk.velPart = none) → Loads n q ranks (fun _ => (0, 0)) (fun _ => (0, 0)) := by
    intro n q ranks hf r rk i x hr _
    obtain ⟨e1, e2⟩ := hf rk (List.mem_of_getElem? hr)
    rw [e1, e2]
    exact ⟨h0 i, h0 i⟩
  have hvel : ∀ l : List Sylinder, (l.map Sylinder.gid).Nodup → ∃ U W, Velocities l U W := by
    intro l hl
    refine ⟨fun g => ((l.find? fun u => u.gid = g).map Sylinder.vel).getD 0, fun g => ((l.find? fun u => u.gid = g).map Sylinder.omega).getD 0, fun u hu => ?_⟩
    have hf : (l.find? fun v => v.gid = u.gid) = some u := by
      cases hf : l.find? (fun v => v.gid = u.gid) with
      | none => exact absurd (List.find?_eq_none.1 hf u hu) (by simp)
      | some v =>
        have hv1 := List.mem_of_find?_eq_some hf
        have hv2 := List.find?_some hf
        rw [List.inj_on_of_nodup_map hl hv1 hu (by simpa using hv2)]
    beta_reduce
    rw [hf]
    exact ⟨rfl, rfl⟩
  have hlow : ∀ out : Out, (∀ p ∈ out.pools, ∀ b ∈ p.flatten, b.gamma = 0) → ∀ p ∈ out.pools, ∀ b ∈ p.flatten, b.bilateral = true → id (-(10 : ℝ) ^ 8 + BCQP.dblEps * 100) ≤ b.gamma := by
    intro out hz p hp b hb _
    rw [hz p hp b hb]
    unfold BCQP.dblEps
    norm_num
  have hids : ∀ {C C₀ : Sim.Cfg} {P B : ℕ → List Sylinder} {s s' : Sim.State} {q : Place.Sys} {ranks : List RankIn} {out : Out},
      Sim.Sound C (fun _ => false) (fun _ => 0) (fun _ => 1) P → Sim.Run (Sim.Ok (fun _ => false) (fun _ => 0) (fun _ => 1)) id C₀ B C P 0 s → Sim.Step C id false s q ranks out s' →
      ((all C.place.g.n P).map Sylinder.gid).Nodup → ((all C.place.g.n s'.sys.P).map Sylinder.gid).Nodup := by
    intro C C₀ P B s s' q ranks out h hr hs hid
    have hi := Sim.step_inv hs h (hs.prepared h (Sim.run_inv hr))
    have := hi.kinds.map fun k => k.1
    simp only [List.map_map] at this
    exact this.nodup_iff.2 hid
  have hid' : ((all C'.place.g.n P).map Sylinder.gid).Nodup := by
    have k1 := (Sim.run_inv h7).kinds.map fun k => k.1
    have k2 := (Sim.run_inv h8).kinds.map fun k => k.1
    have k3 := h9.map fun v : View => v.1.1
    simp only [List.map_map] at k1 k2 k3
    exact (k1.symm.trans (k3.trans k2)).nodup_iff.1 h6
  obtain ⟨U, W, hU⟩ := hvel _ (hids h3 h7 h11 h6)
  obtain ⟨U', W', hU'⟩ := hvel _ (hids h4 h8 h12 hid')
  refine ⟨C, C', P, s, s', t, t', q, q', ranks, ranks', out, out', U, W, U', W', h1, h2, h3, h4, h5, h11, h12, c1, c2, hload _ _ _ f1, hload _ _ _ f2, hU, hU', ?_⟩
  exact (C100_motion h3 h4 h5 h6 id id 0 0 s t h7 h8 h9 h10 false false q q' ranks ranks' out out' s' t' h11 h12 (Or.inr c5.le) (Or.inr c6.le) c3 c4 c7.le c8.le 0 0 c1 c2
    (hlow _ z1) (hlow _ z2) _ _ (hload _ _ _ f1) (hload _ _ _ f2) U W U' W' hU hU').2

end Verif
