import Verif.Lemmas.Work
import Verif.Props.Springs
/-!
C97: work of the forces of a step, and energy of the springs.
-/
namespace Verif
open Sim RunStep Mobility Collector Spec.Mobility Spec.Momentum Spec.Motion Spec.Work Momentum Work
open Spec.Collector (gapRate)

/-- The velocities of the bodies of a step, by their global index. -/
def C97_Velocities (n : ℕ) (q : Place.Sys) (s' : Sim.State) (U W : ℤ → V3) : Prop :=
  ∀ r < n, ∀ (i : ℕ) (x u : Sylinder), (numbered n q.P r)[i]? = some x → (s'.sys.P r)[i]? = some u → U x.globalIndex = u.vel ∧ W x.globalIndex = u.omega

/-- C97, virtual work.  Take any step of any run, whether the solver converges or not.  There are multipliers, one for each constraint of all ranks, with which the
forces of the step come about (`C95_balance`; in a step that converges they are those written back to the pools), such that the power of all forces and torques on all bodies is the power of the
given ones, plus, for each constraint, its multiplier times the rate at which the bodies change its separation. -/
theorem C97_work {C C₀ : Sim.Cfg} {pbc : Fin 3 → Bool} {low high : Fin 3 → ℝ} {P₀ B : ℕ → List Sylinder} (h : Sim.Sound C pbc low high P₀)
    (fl : ℝ → ℝ) (k : ℕ) (s : Sim.State) (hr : Sim.Run (Sim.Ok pbc low high) fl C₀ B C P₀ k s)
    (pre : Bool) (q : Place.Sys) (ranks : List RankIn) (out : Out) (s' : Sim.State) (hs : Sim.Step C fl pre s q ranks out s')
    (U W : ℤ → V3) (hU : C97_Velocities C.place.g.n q s' U W) :
    ∃ mult : List ℝ, mult.length = (constraints ranks).length ∧
      (∀ res, C.mob.sylinderFixed = false → Sim.Converged C fl out res → mult = (out.pools.flatMap fun p => p.flatten).map Block.gamma) ∧
      totalPower (all C.place.g.n s'.sys.P) = givenPower (all C.place.g.n s'.sys.P) (given ranks) +
        (((constraints ranks).zip mult).map fun x => x.2 * gapRate U W x.1).sum := by
  have hq := hs.prepared h (Sim.run_inv hr)
  obtain ⟨mult, hm, hcv⟩ := applies hs h hq
  exact ⟨mult, hm.1, hcv, step_work hs h hq hm hU⟩

/-- C97, energy.  Take any step of any run in which the solver converged (`Sim.Converged`), with no spring or rigid link at the cap of `-10⁸`.  Take the energy of the springs
`κ/2 δ²`, with the separations `δ` (less the rest lengths) before the step and, to first order in `dt`, after it.  The energy after the step, plus `dt` times the power that
the drag takes (`C96_dissipation`), is at most the energy before it, plus `dt` times the power of the given forces, plus

* `κ/2 (dt tol)²` for each spring, where `tol` is the tolerance of the solver;
* `|γ| dt tol - γ δ` for each contact and each rigid link, where `-γ δ` is the work of undoing an overlap `δ < 0` that there was before;
* `|fl(100 ε)|` times the separation after the step for each contact. -/
theorem C97_energy {C C₀ : Sim.Cfg} {pbc : Fin 3 → Bool} {low high : Fin 3 → ℝ} {P₀ B : ℕ → List Sylinder} (h : Sim.Sound C pbc low high P₀)
    (hfree : C.mob.sylinderFixed = false) (hres : 0 ≤ C.ctl.res) (fl : ℝ → ℝ) (k : ℕ) (s : Sim.State) (hr : Sim.Run (Sim.Ok pbc low high) fl C₀ B C P₀ k s)
    (pre : Bool) (q : Place.Sys) (ranks : List RankIn) (out : Out) (s' : Sim.State) (hs : Sim.Step C fl pre s q ranks out s') (res : ℝ) (hc : Sim.Converged C fl out res)
    (hlow : ∀ p ∈ out.pools, ∀ b ∈ p.flatten, b.bilateral = true → fl (-(10 : ℝ) ^ 8 + BCQP.dblEps * 100) ≤ b.gamma)
    (U W : ℤ → V3) (hU : C97_Velocities C.place.g.n q s' U W) :
    ((constraints ranks).map fun b => elastic b (b.delta0 + C.mob.dt * gapRate U W b)).sum + C.mob.dt * totalPower (all C.place.g.n s'.sys.P) ≤
      ((constraints ranks).map fun b => elastic b b.delta0).sum + C.mob.dt * givenPower (all C.place.g.n s'.sys.P) (given ranks) +
        (((constraints ranks).zip ((out.pools.flatMap fun p => p.flatten).map Block.gamma)).map fun x =>
          slack C.mob.dt C.ctl.res |fl (BCQP.dblEps * 100)| x.1 (x.1.delta0 + C.mob.dt * gapRate U W x.1) x.2).sum := by
  have hq := hs.prepared h (Sim.run_inv hr)
  obtain ⟨mult, hm, hcv⟩ := applies hs h hq
  have hwork := step_work hs h hq hm hU
  rw [hcv res hfree hc] at hm hwork
  have hall := solved_all hs h hq hfree hc
  have hsh := shapes hs h hq
  obtain ⟨last, -, hlr, hlt, -, hcap⟩ := hc
  have hgap : ∀ b ∈ constraints ranks, gapRate U W b = gapRate (velOf out) (omegaOf out) b := by
    intro b hb
    obtain ⟨s1, -, s2⟩ := (hsh b hb).1
    unfold gapRate
    rw [(velocity_at hs h hq hU _ s1.1 s1.2).1, (velocity_at hs h hq hU _ s1.1 s1.2).2]
    cases ho : b.oneSide
    · obtain ⟨s3, -⟩ := s2 ho
      rw [(velocity_at hs h hq hU _ s3.1 s3.2).1, (velocity_at hs h hq hU _ s3.1 s3.2).2]
    · rfl
  set G := (out.pools.flatMap fun p => p.flatten).map Block.gamma with hG
  have hlen : (constraints ranks).length = G.length := by rw [hG, List.length_map]; exact hall.length_eq
  have hone : ∀ x ∈ (constraints ranks).zip G, elastic x.1 (x.1.delta0 + C.mob.dt * gapRate U W x.1) + C.mob.dt * (x.2 * gapRate U W x.1) ≤
      elastic x.1 x.1.delta0 + slack C.mob.dt C.ctl.res |fl (BCQP.dblEps * 100)| x.1 (x.1.delta0 + C.mob.dt * gapRate U W x.1) x.2 := by
    intro x hx
    rw [hG, List.zip_map_right] at hx
    obtain ⟨⟨b, b'⟩, hbb, rfl⟩ := List.mem_map.1 hx
    obtain ⟨hw, hsol⟩ := (List.forall₂_iff_zip.1 hall).2 hbb
    obtain ⟨hb1, hb2⟩ := List.of_mem_zip hbb
    obtain ⟨p, hp, hbp⟩ := List.mem_flatMap.1 hb2
    simp only [Prod.map_fst, Prod.map_snd, id]
    rw [hgap b hb1]
    exact work_le fl _ res _ h.dt hres hlt.le b _ _ hsol (hcap p hp b' hbp) fun hbi => hlow p hp b' hbp (by rw [hw]; exact hbi)
  have hsum := sum_le _ _ _ hone
  rw [List.sum_map_add, List.sum_map_add, List.sum_map_mul_left] at hsum
  have hfst : ∀ f : Block → ℝ, (((constraints ranks).zip G).map fun x => f x.1).sum = ((constraints ranks).map f).sum := by
    intro f
    rw [show (fun x : Block × ℝ => f x.1) = f ∘ Prod.fst from rfl, ← List.map_map, List.map_fst_zip hlen.le]
  rw [hfst fun b => elastic b (b.delta0 + C.mob.dt * gapRate U W b), hfst fun b => elastic b b.delta0] at hsum
  rw [hwork, mul_add]
  linarith

/-- C97, decay.  In such a step without Brownian motion, given velocities or given forces, the energy of the springs does not grow by more than the slack of the solver
(in particular, without contacts, by no more than `κ/2 (dt tol)²` for each spring). -/
theorem C97_decay {C C₀ : Sim.Cfg} {pbc : Fin 3 → Bool} {low high : Fin 3 → ℝ} {P₀ B : ℕ → List Sylinder} (h : Sim.Sound C pbc low high P₀) (hmono : C.mob.monolayer = false)
    (hfree : C.mob.sylinderFixed = false) (hres : 0 ≤ C.ctl.res) (fl : ℝ → ℝ) (k : ℕ) (s : Sim.State) (hr : Sim.Run (Sim.Ok pbc low high) fl C₀ B C P₀ k s)
    (pre : Bool) (q : Place.Sys) (ranks : List RankIn) (out : Out) (s' : Sim.State) (hs : Sim.Step C fl pre s q ranks out s') (res : ℝ) (hc : Sim.Converged C fl out res)
    (hlow : ∀ p ∈ out.pools, ∀ b ∈ p.flatten, b.bilateral = true → fl (-(10 : ℝ) ^ 8 + BCQP.dblEps * 100) ≤ b.gamma)
    (hT : pre = true ∨ C.mob.KBT ≤ 0) (hgiv : ∀ rk ∈ ranks, rk.force = none ∧ rk.velPart = none)
    (U W : ℤ → V3) (hU : C97_Velocities C.place.g.n q s' U W) :
    0 ≤ totalPower (all C.place.g.n s'.sys.P) ∧
    ((constraints ranks).map fun b => elastic b (b.delta0 + C.mob.dt * gapRate U W b)).sum ≤ ((constraints ranks).map fun b => elastic b b.delta0).sum +
      (((constraints ranks).zip ((out.pools.flatMap fun p => p.flatten).map Block.gamma)).map fun x =>
        slack C.mob.dt C.ctl.res |fl (BCQP.dblEps * 100)| x.1 (x.1.delta0 + C.mob.dt * gapRate U W x.1) x.2).sum := by
  have hE := C97_energy h hfree hres fl k s hr pre q ranks out s' hs res hc hlow U W hU
  have h0 : ∀ i, at6 (([] : List ℝ)) i = (0, 0) := fun i => Prod.ext (V3.ext (by simp [at6]) (by simp [at6]) (by simp [at6])) (V3.ext (by simp [at6]) (by simp [at6]) (by simp [at6]))
  have hg : givenPower (all C.place.g.n s'.sys.P) (given ranks) = 0 := by
    unfold givenPower
    refine List.sum_eq_zero fun x hx => ?_
    obtain ⟨j, hj, rfl⟩ := List.getElem_of_mem hx
    rw [List.length_zipWith] at hj
    obtain ⟨G, hGd⟩ : ∃ G, G = (given ranks)[j]'(by omega) := ⟨_, rfl⟩
    have hG : G ∈ given ranks := by rw [hGd]; exact List.getElem_mem _
    rw [List.getElem_zipWith, ← hGd]
    unfold given at hG
    obtain ⟨rk, hrk, hG⟩ := List.mem_flatMap.1 hG
    obtain ⟨i, -, rfl⟩ := List.mem_map.1 hG
    rw [(hgiv rk hrk).1]
    simp only [Option.getD_none, h0]
    simp [power, V3.dot]
  have hpos : 0 ≤ totalPower (all C.place.g.n s'.sys.P) := by
    unfold totalPower
    refine List.sum_nonneg fun x hx => ?_
    obtain ⟨u, hu, rfl⟩ := List.mem_map.1 hx
    obtain ⟨r, hrn, hu⟩ := mem_all.1 hu
    obtain ⟨i, hi, rfl⟩ := List.getElem_of_mem hu
    have hl := (C96_motion h hmono fl k s hr pre q ranks out s' hs r hrn).1
    have hi' : i < (numbered C.place.g.n q.P r).length := by rw [numbered_length _ _ _ hrn]; omega
    obtain ⟨rk, D, u, w, g1, -, g3, g4, g5, -⟩ := C96_dissipation h hmono fl k s hr pre q ranks out s' hs r hrn i _ (List.getElem?_eq_getElem hi')
    rw [List.getElem?_eq_getElem hi] at g3
    cases g3
    have hw : w = (0, 0) := by
      refine g4.2 ?_
      rcases hT with rfl | hT
      · simp
      · split_ifs
        · simp
        · exact not_lt.2 hT
    rw [(hgiv rk (List.mem_of_getElem? g1)).2, hw] at g5
    simp only [Option.getD_none, h0] at g5
    have e : ((s'.sys.P r)[i].vel, (s'.sys.P r)[i].omega) - ((0, 0) : V3 × V3) - (0, 0) = ((s'.sys.P r)[i].vel, (s'.sys.P r)[i].omega) := by
      refine Prod.ext (V3.ext ?_ ?_ ?_) (V3.ext ?_ ?_ ?_) <;> simp
    rwa [e] at g5
  refine ⟨hpos, ?_⟩
  rw [hg] at hE
  have := mul_nonneg h.dt.le hpos
  linarith

/-- The hypotheses of C97 can be met together (with a contact, a wall and a spring, see `Sim.witness`). -/
example (D : Draws) : ∃ (C : Sim.Cfg) (P₀ : ℕ → List Sylinder) (s s' : Sim.State) (q : Place.Sys) (ranks : List RankIn) (out : Out) (U W : ℤ → V3),
    Sim.Sound C (fun _ => false) (fun _ => 0) (fun _ => 1) P₀ ∧ C.mob.sylinderFixed = false ∧ 0 ≤ C.ctl.res ∧
    Sim.Run (Sim.Ok (fun _ => false) (fun _ => 0) (fun _ => 1)) id C P₀ C P₀ 0 s ∧ Sim.Step C id false s q ranks out s' ∧ Sim.Converged C id out 0 ∧
    (∀ p ∈ out.pools, ∀ b ∈ p.flatten, b.bilateral = true → id (-(10 : ℝ) ^ 8 + BCQP.dblEps * 100) ≤ b.gamma) ∧ C.mob.KBT ≤ 0 ∧
    (∀ rk ∈ ranks, rk.force = none ∧ rk.velPart = none) ∧ C97_Velocities C.place.g.n q s' U W ∧ C.linkMap = [(7, 9)] ∧ 0 < C.link.linkKappa ∧
    C.mob.monolayer = false := by
  obtain ⟨C, P₀, s, s', q, ranks, out, h1, -, -, h2, h3, h4, -, h5, -, -, -, e1, e2, e3, -, -, ⟨⟨e4, -, em⟩, e5, -, -, e6⟩, -⟩ := Sim.witness D
  refine ⟨C, P₀, s, s', q, ranks, out, velOf out, omegaOf out, h1, h2, e5.le, h3, h4, h5, ?_, e4.le, e6, ?_, e1, e2, em⟩
  · intro p hp b hb _
    rw [e3 p hp b hb]
    unfold BCQP.dblEps
    norm_num
  · intro r hrn i x u hx hu
    obtain ⟨v1, v2, -⟩ := step_vel h4 h1 (h4.prepared h1 (Sim.run_inv h3)) hrn hx hu
    exact ⟨v1, v2⟩

end Verif
