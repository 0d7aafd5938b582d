import Verif.Lemmas.Motion
import Verif.Props.Momentum
/-!
C96: every step of a run integrates the overdamped equation of motion.
-/
namespace Verif
open Sim RunStep Mobility Spec.Mobility Spec.Motion Motion

/-- C96.  Take any step of any run, whether the solver converges or not, and any body `x` before it, on rank `r`, with what it has become, `u`.  Then

* the drag on `x`, moving at the velocity of `u` relative to the given velocity and the Brownian velocity, balances the force and torque on `u` (by C95 the given
  ones plus those of the constraints); an immovable body has just these velocities;
* the position changes by `dt` times the velocity of `u`, and the orientation by the turn by `dt` times its angular velocity (none below the single precision epsilon);
  with `sylinderFixed`, not at all;
* nothing else of the body changes. -/
theorem C96_motion {C C₀ : Sim.Cfg} {pbc : Fin 3 → Bool} {low high : Fin 3 → ℝ} {P₀ B : ℕ → List Sylinder} (h : Sim.Sound C pbc low high P₀) (hmono : C.mob.monolayer = false)
    (fl : ℝ → ℝ) (k : ℕ) (s : Sim.State) (hr : Sim.Run (Sim.Ok pbc low high) fl C₀ B C P₀ k s)
    (pre : Bool) (q : Place.Sys) (ranks : List RankIn) (out : Out) (s' : Sim.State) (hs : Sim.Step C fl pre s q ranks out s')
    (r : ℕ) (hrn : r < C.place.g.n) : (s'.sys.P r).length = (q.P r).length ∧
    ∀ (i : ℕ) (x : Sylinder), (numbered C.place.g.n q.P r)[i]? = some x → ∃ rk D u w, ranks[r]? = some rk ∧ rk.bodies[i]? = some (D, x) ∧
      (s'.sys.P r)[i]? = some u ∧ Thermal C.mob.viscosity C.mob.dt (if pre then 0 else C.mob.KBT) D x w ∧
      Moves C.mob.viscosity x (u.force, u.torque) ((u.vel, u.omega) - at6 (rk.velPart.getD []) i - w) ∧
      (C.mob.sylinderFixed = false → u.pos = x.pos + C.mob.dt • u.vel ∧
        (Equatn.fltEps ≤ u.omega.norm → ∀ v, u.orientation.rot v = Spec.rodrigues ((1 / u.omega.norm) • u.omega) (u.omega.norm * C.mob.dt) (x.orientation.rot v)) ∧
        (u.omega.norm < Equatn.fltEps → u.orientation = x.orientation)) ∧
      (C.mob.sylinderFixed = true → u.pos = x.pos ∧ u.orientation = x.orientation) ∧ SameBody u x := by
  have hq := hs.prepared h (Sim.run_inv hr)
  obtain ⟨-, h1⟩ := step_bodies hs h hq
  obtain ⟨so, h2, -, h4, h5⟩ := h1 r hrn
  have hP : s'.sys.P r = so.moved := by rw [hs.moved]; simp only [after, h2]; rfl
  rw [hP]
  refine ⟨h4, fun i x hx => ?_⟩
  obtain ⟨t, u, k1, k2, -, k4, k5, k6, k7⟩ := h5 i x hx
  obtain ⟨rk, g1, -, g2, -⟩ := hs.rank hrn
  have hx' := hx
  rw [← g2, List.getElem?_map] at hx'
  obtain ⟨⟨D, b⟩, hb, rfl⟩ := Option.map_eq_some_iff.1 hx'
  obtain ⟨fuel, hout⟩ := hs.run
  obtain ⟨so', t', U, w, e1, e2, e3, e4, e5⟩ := step_motion (C.mobility pre) h.viscosity h.dt hmono C.ctl fl fuel ranks (hs.ready h hq) hs.matrix hs.vector out hout
    r i rk D b g1 hb
  rw [h2] at e1
  cases e1
  rw [k1] at e2
  cases e2
  have hmem := List.mem_of_getElem? hx
  have hval := hq.valid h hrn hmem
  have hun := hq.unit' hrn hmem
  refine ⟨rk, D, u, w, g1, hb, k2, e4, ?_⟩
  have key : u.vel = t.vel ∧ u.omega = t.omega ∧ u.force = t.force ∧ u.torque = t.torque ∧ SameBody u t := by
    rw [k7]
    split_ifs
    · exact ⟨rfl, rfl, rfl, rfl, rfl, rfl, rfl, rfl, rfl, rfl, rfl, rfl⟩
    · exact ⟨rfl, rfl, rfl, rfl, rfl, rfl, rfl, rfl, rfl, rfl, rfl, rfl⟩
  obtain ⟨s1, s2, s3, s4, s5⟩ := key
  refine ⟨?_, ?_, ?_, ⟨s5.gid.trans k4.gid, s5.group.trans k4.group, s5.isImmovable.trans k4.isImmovable, s5.radius.trans k4.radius,
    s5.length.trans k4.length, s5.radiusCollision.trans k4.radiusCollision, s5.lengthCollision.trans k4.lengthCollision, s5.colBuf.trans k4.colBuf⟩⟩
  · have hU : (u.vel, u.omega) - at6 (rk.velPart.getD []) i - w = U := by
      rw [s1, s2, e5]
      refine Prod.ext (V3.ext ?_ ?_ ?_) (V3.ext ?_ ?_ ?_) <;> simp <;> ring
    rw [hU, s3, s4]
    exact MobOf.moves hval e3
  · intro hf
    rw [hf, if_neg (by simp)] at k7
    have ho : u.orientation = Equatn.rotateEquatn b.orientation u.omega C.mob.dt := by rw [s2, k7, ← k6]; rfl
    refine ⟨by rw [s1, k7, ← k5]; rfl, fun hn v => ?_, fun hn => ?_⟩
    · rw [ho]
      exact C13_rotation _ _ _ hun hn v
    · rw [ho]
      exact C13_small _ _ _ hn
  · intro hf
    rw [hf, if_pos rfl] at k7
    rw [k7]
    exact ⟨k5, k6⟩

/-- C96, immovable bodies: one without a given velocity does not move, whatever pushes it. -/
theorem C96_immovable {C C₀ : Sim.Cfg} {pbc : Fin 3 → Bool} {low high : Fin 3 → ℝ} {P₀ B : ℕ → List Sylinder} (h : Sim.Sound C pbc low high P₀) (hmono : C.mob.monolayer = false)
    (fl : ℝ → ℝ) (k : ℕ) (s : Sim.State) (hr : Sim.Run (Sim.Ok pbc low high) fl C₀ B C P₀ k s)
    (pre : Bool) (q : Place.Sys) (ranks : List RankIn) (out : Out) (s' : Sim.State) (hs : Sim.Step C fl pre s q ranks out s')
    (r : ℕ) (hrn : r < C.place.g.n) (i : ℕ) (x : Sylinder) (hx : (numbered C.place.g.n q.P r)[i]? = some x) (him : x.isImmovable = true)
    (hv : ∀ rk, ranks[r]? = some rk → at6 (rk.velPart.getD []) i = (0, 0)) :
    ∃ u, (s'.sys.P r)[i]? = some u ∧ u.gid = x.gid ∧ u.pos = x.pos ∧ u.orientation = x.orientation ∧ u.vel = 0 ∧ u.omega = 0 := by
  obtain ⟨rk, D, u, w, g1, -, g3, g4, g5, g6, g7, g8⟩ := (C96_motion h hmono fl k s hr pre q ranks out s' hs r hrn).2 i x hx
  have hw : w = (0, 0) := by
    by_cases hk : (if pre then 0 else C.mob.KBT) > 0
    · obtain ⟨t, ht, rfl⟩ := g4.1 hk
      rw [brown_immovable _ _ _ h.dt.ne' D x him] at ht
      cases ht
      rfl
    · exact g4.2 hk
  have hU : (u.vel, u.omega) = (0, 0) := by
    rcases g5 with ⟨-, g5⟩ | ⟨g5, -⟩
    · rw [hv rk g1, hw] at g5
      rw [← g5]
      refine Prod.ext (V3.ext ?_ ?_ ?_) (V3.ext ?_ ?_ ?_) <;> simp
    · rw [him] at g5; cases g5
  obtain ⟨hv0, ho0⟩ := Prod.mk.inj hU
  refine ⟨u, g3, g8.gid, ?_, ?_, hv0, ho0⟩
  · cases hf : C.mob.sylinderFixed with
    | true => exact (g7 hf).1
    | false => rw [(g6 hf).1, hv0]; ext <;> simp
  · cases hf : C.mob.sylinderFixed with
    | true => exact (g7 hf).2
    | false =>
      refine (g6 hf).2.2 ?_
      rw [ho0, V3.norm_zero]
      norm_num [Equatn.fltEps]

/-- What moves against the drag loses energy to it. -/
theorem Motion.dissipates {mu : ℝ} {b : Sylinder} (hv : Valid b) {F U : V3 × V3} (h : Moves mu b F U) : 0 ≤ power F U ∧ (power F U = 0 → U = (0, 0)) := by
  rcases h with ⟨-, rfl⟩ | ⟨-, p, e, r, -, hp, he, hr, rfl⟩
  · exact ⟨by simp [power, V3.dot], fun _ => rfl⟩
  · have hd := direction_unit b hv.unit
    generalize b.direction = d at *
    obtain ⟨U, ω⟩ := U
    set c := V3.dot d U with hc
    set T := U - c • d with hT
    have hTd : V3.dot d T = 0 := by
      have : V3.dot d T = V3.dot d U - c * V3.dot d d := by rw [hT]; simp [V3.dot]; ring
      rw [this, hd, hc]; ring
    have hU : U = c • d + T := by rw [hT]; ext <;> simp
    have hpow : power (drag p e r d (U, ω)) (U, ω) = p * c ^ 2 + e * V3.dot T T + r * V3.dot ω ω := by
      have h1 : power (drag p e r d (U, ω)) (U, ω) = p * c * V3.dot d U + e * V3.dot T U + r * V3.dot ω ω := by
        unfold power drag
        simp only [← hc, ← hT]
        have hcc : c = d.x * U.x + d.y * U.y + d.z * U.z := rfl
        simp [V3.dot]
        linear_combination (-(p * c)) * hcc
      have h2 : V3.dot T U = V3.dot T T + c * V3.dot d T := by
        conv_lhs => rw [hU]
        simp [V3.dot]; ring
      rw [h1, h2, hTd, ← hc]; ring
    have hpos : ∀ v : V3, 0 ≤ V3.dot v v := fun v => by unfold V3.dot; nlinarith [sq_nonneg v.x, sq_nonneg v.y, sq_nonneg v.z]
    have hzero : ∀ v : V3, V3.dot v v = 0 → v = 0 := by
      intro v hv
      unfold V3.dot at hv
      have a1 : v.x * v.x = 0 := by nlinarith [mul_self_nonneg v.x, mul_self_nonneg v.y, mul_self_nonneg v.z]
      have a2 : v.y * v.y = 0 := by nlinarith [mul_self_nonneg v.x, mul_self_nonneg v.y, mul_self_nonneg v.z]
      have a3 : v.z * v.z = 0 := by nlinarith [mul_self_nonneg v.x, mul_self_nonneg v.y, mul_self_nonneg v.z]
      exact V3.ext (by simpa using a1) (by simpa using a2) (by simpa using a3)
    have q1 : 0 ≤ p * c ^ 2 := by positivity
    have q2 : 0 ≤ e * V3.dot T T := mul_nonneg he.le (hpos T)
    have q3 : 0 ≤ r * V3.dot ω ω := mul_nonneg hr.le (hpos ω)
    rw [hpow]
    refine ⟨by linarith, fun h0 => ?_⟩
    have z1 : p * c ^ 2 = 0 := by linarith
    have z2 : e * V3.dot T T = 0 := by linarith
    have z3 : r * V3.dot ω ω = 0 := by linarith
    have c0 : c = 0 := by
      rcases mul_eq_zero.1 z1 with h | h
      · exact absurd h hp.ne'
      · exact pow_eq_zero_iff (two_ne_zero) |>.1 h
    have T0 : T = 0 := hzero T ((mul_eq_zero.1 z2).resolve_left he.ne')
    have w0 : ω = 0 := hzero ω ((mul_eq_zero.1 z3).resolve_left hr.ne')
    refine Prod.ext ?_ w0
    show U = 0
    rw [hU, c0, T0]
    ext <;> simp

/-- C96, energy: the forces of a step do work against the drag only.  In any step of any run the power of the force and torque on a body, at its velocity relative to
the given and the Brownian velocity, is not negative, and zero only if the body does not move at all relative to these. -/
theorem C96_dissipation {C C₀ : Sim.Cfg} {pbc : Fin 3 → Bool} {low high : Fin 3 → ℝ} {P₀ B : ℕ → List Sylinder} (h : Sim.Sound C pbc low high P₀) (hmono : C.mob.monolayer = false)
    (fl : ℝ → ℝ) (k : ℕ) (s : Sim.State) (hr : Sim.Run (Sim.Ok pbc low high) fl C₀ B C P₀ k s)
    (pre : Bool) (q : Place.Sys) (ranks : List RankIn) (out : Out) (s' : Sim.State) (hs : Sim.Step C fl pre s q ranks out s')
    (r : ℕ) (hrn : r < C.place.g.n) (i : ℕ) (x : Sylinder) (hx : (numbered C.place.g.n q.P r)[i]? = some x) :
    ∃ rk D u w, ranks[r]? = some rk ∧ rk.bodies[i]? = some (D, x) ∧ (s'.sys.P r)[i]? = some u ∧
      Thermal C.mob.viscosity C.mob.dt (if pre then 0 else C.mob.KBT) D x w ∧
      0 ≤ power (u.force, u.torque) ((u.vel, u.omega) - at6 (rk.velPart.getD []) i - w) ∧
      (power (u.force, u.torque) ((u.vel, u.omega) - at6 (rk.velPart.getD []) i - w) = 0 → (u.vel, u.omega) = at6 (rk.velPart.getD []) i + w) := by
  obtain ⟨rk, D, u, w, g1, g2, g3, g4, g5, -⟩ := (C96_motion h hmono fl k s hr pre q ranks out s' hs r hrn).2 i x hx
  obtain ⟨h1, h2⟩ := Motion.dissipates ((hs.prepared h (Sim.run_inv hr)).valid h hrn (List.mem_of_getElem? hx)) g5
  refine ⟨rk, D, u, w, g1, g2, g3, g4, h1, fun h0 => ?_⟩
  have h3 := h2 h0
  obtain ⟨a, b⟩ := Prod.mk.inj (show ((u.vel, u.omega) - at6 (rk.velPart.getD []) i - w) = (0, 0) from h3)
  refine Prod.ext (V3.ext ?_ ?_ ?_) (V3.ext ?_ ?_ ?_)
  · have := congrArg V3.x a; simp at this ⊢; linarith
  · have := congrArg V3.y a; simp at this ⊢; linarith
  · have := congrArg V3.z a; simp at this ⊢; linarith
  · have := congrArg V3.x b; simp at this ⊢; linarith
  · have := congrArg V3.y b; simp at this ⊢; linarith
  · have := congrArg V3.z b; simp at this ⊢; linarith

/-- The hypotheses of C96 can be met with a force on every body (and with a contact, a wall and a link: `Sim.witness`). -/
example (D : Draws) : ∃ (C : Sim.Cfg) (P₀ : ℕ → List Sylinder) (s s' : Sim.State) (q : Place.Sys) (ranks : List RankIn) (out : Out),
    Sim.Sound C (fun _ => false) (fun _ => 0) (fun _ => 1) P₀ ∧ C.mob.monolayer = false ∧ Sim.Run (Sim.Ok (fun _ => false) (fun _ => 0) (fun _ => 1)) id C P₀ C P₀ 0 s ∧
    Sim.Step C id false s q ranks out s' ∧ (all C.place.g.n P₀).length = 2 ∧ ∀ rk ∈ ranks, rk.force = some (List.replicate (6 * rk.bodies.length) 1) := by
  obtain ⟨C, P₀, s, s', q, ranks, out, h1, ⟨-, hm⟩, h2, h3, -, h4, h5⟩ := Momentum.pushed D
  exact ⟨C, P₀, s, s', q, ranks, out, h1, hm, h2, h3, h4, h5⟩

end Verif
