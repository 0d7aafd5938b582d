import Verif.Lemmas.Rest
/-!
C113: a configuration that violates no constraint stays as it is.
-/
namespace Verif
open Domain Near Collector RunStep Mobility Collide Sim Rest

section
variable {C C₀ : Sim.Cfg} {pbc : Fin 3 → Bool} {low high : Fin 3 → ℝ} {P₀ B : ℕ → List Sylinder}

/-- A step in which nothing acts: no given forces and velocities.  The sizes of the matrix fit into `int`. -/
structure C113_Free (C : Sim.Cfg) (P₀ : ℕ → List Sylinder) (ranks : List RankIn) : Prop where
  none : ∀ rk ∈ ranks, rk.force = Option.none ∧ rk.velPart = Option.none
  bodies : 6 * ((all C.place.g.n P₀).length : ℤ) ≤ 2 ^ 31 - 1
  fit : ∀ rk ∈ ranks, (((rk.pool.flatten.map (fun b => if b.oneSide then 6 else 12)).sum : ℕ) : ℤ) ≤ 2 ^ 31 - 1

/-- C113 for one step. If the bodies violate no constraint when the forces are computed, and nothing acts, then the solver stops with residual zero, all multipliers are zero,
and every body is at rest where it was. -/
theorem C113_step (h : Sim.Sound C pbc low high P₀) (hch : C.ctl.choice ≠ 1) (hres : 0 < C.ctl.res) (hcold : C.mob.KBT ≤ 0) (k : ℕ) (s : Sim.State)
    (hr : Sim.Run (Sim.Ok pbc low high) id C₀ B C P₀ k s) (pre : Bool) (q : Place.Sys) (ranks : List RankIn) (out : Out) (s' : Sim.State) (hs : Sim.Step C id pre s q ranks out s')
    (hfree : C113_Free C P₀ ranks) (hcalm : Calm C (all C.place.g.n q.P)) :
    Sim.Converged C id out 0 ∧ (∀ p ∈ out.pools, ∀ b ∈ p.flatten, b.gamma = 0) ∧
      ∀ r < C.place.g.n, (s'.sys.P r).length = (q.P r).length ∧ ∀ (i : ℕ) (u : Sylinder), (s'.sys.P r)[i]? = some u → ∃ x, (q.P r)[i]? = some x ∧ kind u = kind x ∧ u.pos = x.pos ∧
        u.orientation = x.orientation ∧ u.radiusCollision = x.radiusCollision ∧ u.lengthCollision = x.lengthCollision ∧ u.vel = 0 ∧ u.omega = 0 := by
  have hq := hs.prepared h (Sim.run_inv hr)
  have hK : ¬ (C.mobility pre).KBT > 0 := by
    unfold Sim.Cfg.mobility
    simp only
    split <;> linarith
  obtain ⟨order, ho, hdir⟩ := hs.publish
  obtain ⟨X, hX, hcol⟩ := hs.collect
  rw [hdir] at hcol
  obtain ⟨h1, h2, h3⟩ := rest_converged h hch hres hK hs hq hfree.bodies hfree.fit hfree.none (fun rk hrk b hb => by
    obtain ⟨r, hr, rfl⟩ := List.getElem_of_mem hrk
    exact calm_blocks hq h hcalm s.dir order ho X hX (by rw [← hs.size]; exact hr) _ (hcol r _ (List.getElem?_eq_getElem hr)) b hb)
  refine ⟨h1, h2, fun r hrn => ?_⟩
  obtain ⟨-, g1⟩ := step_bodies hs h hq
  obtain ⟨so, g2, -, g4, g5⟩ := g1 r hrn
  have hP : s'.sys.P r = so.moved := by rw [hs.moved]; simp only [after, g2]; rfl
  rw [hP]
  refine ⟨g4, fun i u hu => ?_⟩
  have hu3 := h3 u (mem_all.2 ⟨r, hrn, by rw [hP]; exact List.mem_of_getElem? hu⟩)
  have hlt : i < (numbered C.place.g.n q.P r).length := by
    rw [numbered_length _ _ _ hrn]
    have := (List.getElem?_eq_some_iff.1 hu).1
    omega
  have hx := List.getElem?_eq_getElem hlt
  generalize (numbered C.place.g.n q.P r)[i] = x at hx
  obtain ⟨b, hb, g, hxb⟩ := numbered_get _ _ _ _ _ hx
  obtain ⟨t, u', k1, k2, -, k4, k5, k6, k7⟩ := g5 i x hx
  rw [hu] at k2
  cases k2
  have hxk : kind x = kind b ∧ x.pos = b.pos ∧ x.orientation = b.orientation ∧ x.radiusCollision = b.radiusCollision ∧ x.lengthCollision = b.lengthCollision := by
    rw [hxb]; exact ⟨rfl, rfl, rfl, rfl, rfl⟩
  have htk : kind t = kind x := by
    unfold kind
    rw [k4.gid, k4.group, k4.isImmovable, k4.radius, k4.length]
  refine ⟨b, hb, ?_, ?_, ?_, ?_, ?_, hu3⟩
  · rw [← hxk.1, ← htk, k7]
    split <;> rfl
  · rw [← hxk.2.1, ← k5]
    rw [k7] at hu3 ⊢
    split
    · rfl
    · rename_i hf
      rw [if_neg hf] at hu3
      have tv : t.vel = 0 := hu3.1
      show t.pos + C.mob.dt • t.vel = _
      rw [tv]
      ext <;> simp
  · rw [← hxk.2.2.1, ← k6]
    rw [k7] at hu3 ⊢
    split
    · rfl
    · rename_i hf
      rw [if_neg hf] at hu3
      have tw : t.omega = 0 := hu3.2
      show Equatn.rotateEquatn t.orientation t.omega C.mob.dt = _
      rw [tw, C13_small _ _ _ (by norm_num [V3.norm, V3.normSq, V3.dot, Equatn.fltEps])]
  · rw [← hxk.2.2.2.1, ← k4.radiusCollision, k7]
    split <;> rfl
  · rw [← hxk.2.2.2.2, ← k4.lengthCollision, k7]
    split <;> rfl

/-- C113 (an example with any number of steps is in Props/Obstacle.lean).  If the bodies violate no constraint in the first of any number of steps in which nothing acts, then in every one of these steps the solver stops with residual zero and
multipliers zero, and afterwards every body is at rest where it was in the first step (on whatever rank it is by then). -/
theorem C113_rest (h : Sim.Sound C pbc low high P₀) (hmono : C.place.monolayer = false) (hch : C.ctl.choice ≠ 1) (hres : 0 < C.ctl.res) (hcold : C.mob.KBT ≤ 0) (n : ℕ)
    (k : ℕ → ℕ) (s : ℕ → Sim.State) (pre : ℕ → Bool) (q : ℕ → Place.Sys) (ranks : ℕ → List RankIn) (out : ℕ → Out)
    (hr : ∀ i ≤ n, Sim.Run (Sim.Ok pbc low high) id C₀ B C P₀ (k i) (s i)) (hs : ∀ i ≤ n, Sim.Step C id (pre i) (s i) (q i) (ranks i) (out i) (s (i + 1)))
    (hfree : ∀ i ≤ n, C113_Free C P₀ (ranks i)) (hcalm : Calm C (all C.place.g.n (q 0).P)) :
    ∀ i ≤ n, Sim.Converged C id (out i) 0 ∧ (∀ p ∈ (out i).pools, ∀ b ∈ p.flatten, b.gamma = 0) ∧
      ((all C.place.g.n (s (i + 1)).sys.P).map kind).Perm ((all C.place.g.n (q 0).P).map kind) ∧
      ∀ u ∈ all C.place.g.n (s (i + 1)).sys.P, u.vel = 0 ∧ u.omega = 0 ∧ ∃ x ∈ all C.place.g.n (q 0).P, kind u = kind x ∧ u.pos = x.pos ∧ u.orientation = x.orientation := by
  have hq : ∀ i ≤ n, Prepared C P₀ (q i) := fun i hi => (hs i hi).prepared h (Sim.run_inv (hr i hi))
  have hfresh : ∀ i ≤ n, ∀ b ∈ all C.place.g.n (q i).P, b.radiusCollision = b.radius * C.place.diameterColRatio ∧ b.lengthCollision = b.length * C.place.lengthColRatio ∧
      ∀ k, pbc k = true → low k ≤ Near.comp b.pos k ∧ Near.comp b.pos k < high k := by
    intro i hi b hb
    obtain ⟨r, hrn, hb⟩ := mem_all.1 hb
    obtain ⟨j, hj, rfl⟩ := List.getElem_of_mem hb
    have hlt : j < (numbered C.place.g.n (q i).P r).length := by rw [numbered_length _ _ _ hrn]; exact hj
    obtain ⟨b', hb', g, hxb⟩ := numbered_get _ _ _ _ _ (List.getElem?_eq_getElem hlt)
    rw [List.getElem?_eq_getElem hj] at hb'
    cases hb'
    have hm := List.getElem_mem hlt
    generalize (numbered C.place.g.n (q i).P r)[j] = x at hxb hm
    obtain ⟨b0, -, hl⟩ := (hq i hi).like hrn hm
    have hin := fun k hk => (hq i hi).inside h hrn hm k hk
    have e1 := hl.radiusCollision
    have e2 := hl.lengthCollision
    obtain ⟨f1, f2, -⟩ := hl.radius
    rw [hxb] at e1 e2 f1 f2 hin
    rw [h.linkBox.1, h.linkBox.2.1, h.linkBox.2.2] at hin
    refine ⟨?_, ?_, hin⟩
    · exact e1.trans (by rw [show (sized C b0).radiusCollision = b0.radius * C.place.diameterColRatio from rfl, ← f1]; rfl)
    · exact e2.trans (by rw [show (sized C b0).lengthCollision = b0.length * C.place.lengthColRatio from rfl, ← f2]; rfl)
  have hloop : ∀ i ≤ n, ∀ b ∈ all C.place.g.n (q i).P, ∃ a ∈ all C.place.g.n (q 0).P, Same b a := by
    intro i
    induction i with
    | zero => exact fun _ b hb => ⟨b, hb, ⟨rfl, rfl, rfl, rfl, rfl⟩⟩
    | succ i ih =>
      intro hi b hb
      have hi' : i ≤ n := by omega
      obtain ⟨-, -, key⟩ := C113_step h hch hres hcold (k i) (s i) (hr i hi') (pre i) (q i) (ranks i) (out i) _ (hs i hi') (hfree i hi') (hcalm.congr (ih hi'))
      obtain ⟨x, hx, hpq⟩ := (hs (i + 1) hi).prepare
      obtain ⟨u, hu, e1, e2, e3⟩ := prepare_pos h hmono (Sim.run_inv (hr (i + 1) hi)) hx hpq b hb
      obtain ⟨r, hrn, hur⟩ := mem_all.1 hu
      obtain ⟨j, hj, rfl⟩ := List.getElem_of_mem hur
      obtain ⟨y, hy, y1, y2, y3, -⟩ := (key r hrn).2 j _ (List.getElem?_eq_getElem hj)
      have hym : y ∈ all C.place.g.n (q i).P := mem_all.2 ⟨r, hrn, List.mem_of_getElem? hy⟩
      obtain ⟨a, ha, sa⟩ := ih hi' y hym
      refine ⟨a, ha, ?_⟩
      obtain ⟨b1, b2, b3⟩ := hfresh (i + 1) hi b hb
      obtain ⟨z1, z2, z3⟩ := hfresh i hi' y hym
      have hk : kind b = kind y := e1.trans y1
      have hk' := hk
      simp only [kind, Prod.mk.injEq] at hk'
      have hpos : b.pos = y.pos := by
        refine comp_ext fun c => ?_
        obtain ⟨p1, p2⟩ := e3 c
        rw [y2] at p1 p2
        cases hc : pbc c with
        | false => exact p2 hc (by rw [sa.pos]; exact hcalm.finite a ha c)
        | true =>
          obtain ⟨m, hm⟩ := p1 hc
          obtain ⟨l1, l2⟩ := b3 c hc
          obtain ⟨l3, l4⟩ := z3 c hc
          have hL : 0 < high c - low c := sub_pos.2 (h.place.periodic c hc)
          have hm0 : m = 0 := by
            have u1 : (m : ℝ) < 1 := by
              by_contra hcon
              have := mul_le_mul_of_nonneg_right (not_lt.1 hcon) hL.le
              linarith
            have u2 : (-1 : ℝ) < m := by
              by_contra hcon
              have := mul_le_mul_of_nonneg_right (not_lt.1 hcon) hL.le
              linarith
            have v1 : m < 1 := by exact_mod_cast u1
            have v2 : -1 < m := by exact_mod_cast u2
            omega
          rw [hm, hm0]
          simp
      have hs1 : Same b y := ⟨hk, hpos, e2.trans y3, by rw [b1, z1, hk'.2.2.2.1], by rw [b2, z2, hk'.2.2.2.2]⟩
      exact ⟨hs1.kind.trans sa.kind, hs1.pos.trans sa.pos, hs1.orientation.trans sa.orientation, hs1.radiusCollision.trans sa.radiusCollision, hs1.lengthCollision.trans sa.lengthCollision⟩
  intro i hi
  obtain ⟨g1, g2, key⟩ := C113_step h hch hres hcold (k i) (s i) (hr i hi) (pre i) (q i) (ranks i) (out i) _ (hs i hi) (hfree i hi) (hcalm.congr (hloop i hi))
  refine ⟨g1, g2, ?_, fun u hu => ?_⟩
  · have e : (all C.place.g.n (s (i + 1)).sys.P).map kind = (all C.place.g.n (q i).P).map kind := by
      unfold all
      rw [List.map_flatMap, List.map_flatMap]
      refine List.flatMap_congr fun r hrn => ?_
      obtain ⟨l1, l2⟩ := key r (List.mem_range.1 hrn)
      refine List.ext_getElem (by simp [l1]) fun j hj hj' => ?_
      rw [List.length_map] at hj hj'
      obtain ⟨y, hy, y1, -⟩ := l2 j _ (List.getElem?_eq_getElem hj)
      rw [List.getElem?_eq_getElem hj'] at hy
      cases hy
      rw [List.getElem_map, List.getElem_map, y1]
    rw [e]
    exact (hq i hi).kinds.trans (hq 0 (Nat.zero_le n)).kinds.symm
  obtain ⟨r, hrn, hur⟩ := mem_all.1 hu
  obtain ⟨j, hj, rfl⟩ := List.getElem_of_mem hur
  obtain ⟨y, hy, y1, y2, y3, -, -, y4, y5⟩ := (key r hrn).2 j _ (List.getElem?_eq_getElem hj)
  obtain ⟨a, ha, sa⟩ := hloop i hi y (mem_all.2 ⟨r, hrn, List.mem_of_getElem? hy⟩)
  exact ⟨y4, y5, a, ha, y1.trans sa.kind, y2.trans sa.pos, y3.trans sa.orientation⟩

/-- The steps that C113 is about can be made: from any state of a run, for whatever `q` `prepareStep` leaves, if no body has an end on a boundary or at a singular point of it and the
constraints are not too many. -/
theorem C113_progress (h : Sim.Sound C pbc low high P₀) (hch : C.ctl.choice ≠ 1) (hres : 0 < C.ctl.res) (k : ℕ) (s : Sim.State)
    (hr : Sim.Run (Sim.Ok pbc low high) id C₀ B C P₀ k s) (x : Place.Exec) (hx : Place.Valid C.place x) (q : Place.Sys) (hpq : Place.PrepareStep C.place x s.stepCount s.sys q)
    (hbounds : ∀ b ∈ C.bounds, Spec.BoundaryCol.ValidBound b) (hreg : ∀ y ∈ all C.place.g.n q.P, ∀ b ∈ C.bounds, BoundaryCol.Regular b y)
    (order : List (ℤ × EP)) (ho : order.Perm ((List.range C.place.g.n).flatMap fun r => Links.published (numbered C.place.g.n q.P r)))
    (X : ℕ → Force.RankExec EP) (hX : ∀ r < C.place.g.n, (X r).Valid C.F ((numbered C.place.g.n q.P r).map toEp))
    (hbig : 6 * ((all C.place.g.n P₀).length : ℤ) ≤ 2 ^ 31 - 1)
    (hfit : ∀ r < C.place.g.n, ∀ pool, Collects C q.dec.dom (numbered C.place.g.n q.P) (s.dir.buildIndex order) X r pool →
      (((pool.flatten.map (fun b => if b.oneSide then 6 else 12)).sum : ℕ) : ℤ) ≤ 2 ^ 31 - 1) (D : Draws) :
    ∃ ranks out s', Sim.Step C id false s q ranks out s' ∧ C113_Free C P₀ ranks := by
  obtain ⟨-, prog⟩ := C91_progress h hch hres hbounds
  obtain ⟨-, prog⟩ := prog C₀ B k s hr x hx
  obtain ⟨hpool, hstep⟩ := prog q hpq order ho X hX
  have hpool := hpool fun r hr y hy b hb => hreg y (mem_all.2 ⟨r, hr, hy⟩) b hb
  have hpool' : ∀ r, ∃ pool, r < C.place.g.n → Collects C q.dec.dom (numbered C.place.g.n q.P) (s.dir.buildIndex order) X r pool := by
    intro r
    by_cases hr : r < C.place.g.n
    · obtain ⟨p, hp⟩ := hpool r hr
      exact ⟨p, fun _ => hp⟩
    · exact ⟨[], fun h => absurd h hr⟩
  choose f hf using hpool'
  obtain ⟨ranks, hranks⟩ : ∃ ranks : List RankIn, ranks = (List.range C.place.g.n).map fun r => ⟨(numbered C.place.g.n q.P r).map fun y => (D, y), none, none, f r,
    6 * (Place.total q.P r : ℤ), 6 * (Place.total q.P (r + 1) : ℤ) - 1, matrixWrites (f r), vectorWrites (f r)⟩ := ⟨_, rfl⟩
  have hget : ∀ r rk, ranks[r]? = some rk → r < C.place.g.n ∧ rk = ⟨(numbered C.place.g.n q.P r).map fun y => (D, y), none, none, f r,
    6 * (Place.total q.P r : ℤ), 6 * (Place.total q.P (r + 1) : ℤ) - 1, matrixWrites (f r), vectorWrites (f r)⟩ := by
    intro r rk hrk
    rw [hranks, List.getElem?_map] at hrk
    obtain ⟨a, ha, rfl⟩ := Option.map_eq_some_iff.1 hrk
    obtain ⟨h1, h2⟩ := List.getElem?_eq_some_iff.1 ha
    rw [List.length_range] at h1
    rw [List.getElem_range] at h2
    subst h2
    exact ⟨h1, rfl⟩
  have hmemr : ∀ rk ∈ ranks, ∃ r < C.place.g.n, rk = ⟨(numbered C.place.g.n q.P r).map fun y => (D, y), none, none, f r,
    6 * (Place.total q.P r : ℤ), 6 * (Place.total q.P (r + 1) : ℤ) - 1, matrixWrites (f r), vectorWrites (f r)⟩ := by
    intro rk hrk
    obtain ⟨i, hi, rfl⟩ := List.getElem_of_mem hrk
    obtain ⟨h1, h2⟩ := hget i _ (List.getElem?_eq_getElem hi)
    exact ⟨i, h1, h2⟩
  have hin : C91_Input C false q (s.dir.buildIndex order) X ranks := by
    refine ⟨by rw [hranks]; simp, ?_, ?_, ?_, ?_, ?_, ?_⟩
    · intro r rk hrk
      obtain ⟨-, rfl⟩ := hget r rk hrk
      rw [List.map_map]
      exact List.map_id' _
    · intro r rk hrk
      obtain ⟨hr, rfl⟩ := hget r rk hrk
      exact hf r hr
    · intro rk hrk
      obtain ⟨r, hr, rfl⟩ := hmemr rk hrk
      exact ⟨fun f hf => by simp at hf, fun f hf => by simp at hf⟩
    · intro r rk hrk
      obtain ⟨-, rfl⟩ := hget r rk hrk
      exact ⟨rfl, rfl⟩
    · intro rk hrk
      obtain ⟨r, hr, rfl⟩ := hmemr rk hrk
      exact List.Perm.refl _
    · intro rk hrk
      obtain ⟨r, hr, rfl⟩ := hmemr rk hrk
      exact List.Perm.refl _
  have hfit' : ∀ rk ∈ ranks, (((rk.pool.flatten.map (fun b => if b.oneSide then 6 else 12)).sum : ℕ) : ℤ) ≤ 2 ^ 31 - 1 := by
    intro rk hrk
    obtain ⟨r, hr, rfl⟩ := hmemr rk hrk
    exact hfit r hr _ (hf r hr)
  obtain ⟨out, s', hs'⟩ := hstep false ranks hin hbig hfit'
  refine ⟨ranks, out, s', hs', ⟨?_, hbig, hfit'⟩⟩
  intro rk hrk
  obtain ⟨r, hr, rfl⟩ := hmemr rk hrk
  exact ⟨rfl, rfl⟩

end

end Verif
