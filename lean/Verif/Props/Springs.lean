import Verif.Lemmas.Springs
import Verif.Props.Sim
/-!
C93: the law of the links after a converged step.
-/
namespace Verif
open Domain Near Collector RunStep Mobility Collide Sim Spec.Springs Springs
open Spec.Collector (gapRate)

/-- What the step does to the springs of a rank. -/
theorem C93_solved {n : ℕ} {S : ℕ → List Sylinder} {cfg : Mobility.Cfg} {ctl : ConOp.Control} {fl : ℝ → ℝ} {ranks : List RankIn} {out : Out}
    {last : BCQP.Hist} {U W : ℤ → V3} (hst : C89_Converged n S cfg ctl fl ranks out last U W) (r : ℕ) (rk : RankIn) (b : Block) (hr : ranks[r]? = some rk)
    (hb : b ∈ rk.pool.flatten) (hbi : b.bilateral = true) :
    ∃ p b', out.pools[r]? = some p ∧ b' ∈ p.flatten ∧ b' = b.writeGamma b'.gamma ∧
      -(cfg.dt * last.res) ≤ (b.delta0 + cfg.dt * gapRate U W b + if 0 < b.kappa then b'.gamma / b.kappa else 0) ∧ (fl (-(10 : ℝ) ^ 8 + BCQP.dblEps * 100) ≤ b'.gamma →
      |b.delta0 + cfg.dt * gapRate U W b + if 0 < b.kappa then b'.gamma / b.kappa else 0| ≤ cfg.dt * last.res) := by
  obtain ⟨hmu, hdt, hfix, hno, hlen, hbod, hready, hm, hvv, hidx, hguess, ⟨sfuel, hout⟩, hlast, hres, hap, hbd, hUW⟩ := hst
  obtain ⟨-, hsolve, -⟩ := C88_step_partial cfg hmu hdt ctl fl sfuel ranks hready hm hvv hidx hguess hno out hout last hlast hres hap U W hUW
  obtain ⟨ql, hql, hbq⟩ := List.mem_flatten.1 hb
  obtain ⟨i, hi, hiq⟩ := List.getElem_of_mem hql
  obtain ⟨j, hj, hjb⟩ := List.getElem_of_mem hbq
  obtain ⟨p, q', b', g1, g2, g3, g4, g5⟩ := hsolve r i j _ ql b hr (by rw [← hiq]; exact List.getElem?_eq_getElem hi)
    (by rw [← hjb]; exact List.getElem?_eq_getElem hj)
  have hb' : b' ∈ p.flatten := List.mem_flatten.2 ⟨q', List.mem_of_getElem? g2, List.mem_of_getElem? g3⟩
  have hcap := hbd p (List.mem_of_getElem? g1) b' hb'
  refine ⟨p, b', g1, hb', g4, ?_⟩
  by_cases hk : 0 < b.kappa
  · rw [if_pos hk]
    exact (g5.bi hbi hk).2.2 hcap
  · rw [if_neg hk, add_zero]
    exact (g5.rigid hbi hk).2.2 hcap

/-- C93.  Take any step of any run in which the solver converged, and any link from the id of a body `x`, on any rank.  There is one body `z` with the other id, on
some rank, and after the step the pool of the rank of `x` has a constraint for the link, whose multiplier `γ` is the force with which it pushes the end of `x` and the
end of the nearest image of `z` apart.  With the bodies `x'` and `z'` after the step (and the same image), this force obeys the law of the link at the end of the step:
the distance between the ends, less the radii and the rest length, is `-γ/κ` (zero for `κ ≤ 0`), up to

* `dt` times the residual of the solver,
* `(τ L + τ' L')/2`, the second order of the rotations (`τ = (dt |ω|)²/2 + dt · 2⁻²³`),
* `m²/(2d)`, the second order of the distance `d`, where `m` is how far the two ends can have moved.

A multiplier at the cap of `-10⁸` can be too weak: the link is then at least as long as its law says.

Missing: ends that coincide when the constraints are collected (no direction, see `C93_touching`); that the solver converges. -/
theorem C93_links_partial {C C₀ : Sim.Cfg} {pbc : Fin 3 → Bool} {low high : Fin 3 → ℝ} {P₀ B : ℕ → List Sylinder} (h : Sim.Sound C pbc low high P₀)
    (hfree : C.mob.sylinderFixed = false) (fl : ℝ → ℝ) (k : ℕ) (s : Sim.State) (hr : Sim.Run (Sim.Ok pbc low high) fl C₀ B C P₀ k s)
    (pre : Bool) (q : Place.Sys) (ranks : List RankIn) (out : Out) (s' : Sim.State) (hs : Sim.Step C fl pre s q ranks out s') (res : ℝ) (hc : Sim.Converged C fl out res)
    (l : ℤ × ℤ) (hl : l ∈ C.linkMap) (r i : ℕ) (x : Sylinder) (hrn : r < C.place.g.n) (hx : (numbered C.place.g.n q.P r)[i]? = some x) (hg : x.gid = l.1) :
    ∃ (r' j : ℕ) (z x' z' : Sylinder) (D : V3) (p : Pool) (b : Block), r' < C.place.g.n ∧ (numbered C.place.g.n q.P r')[j]? = some z ∧ z.gid = l.2 ∧
      (s'.sys.P r)[i]? = some x' ∧ (s'.sys.P r')[j]? = some z' ∧ kind x' = kind x ∧ kind z' = kind z ∧
      NearestImage C.link x.pos z.pos (z.pos + D) ∧ out.pools[r]? = some p ∧ b ∈ p.flatten ∧
      (b.gidI = l.1 ∧ b.gidJ = l.2 ∧ b.globalIndexI = x.globalIndex ∧ b.globalIndexJ = z.globalIndex ∧ b.bilateral = true ∧ b.oneSide = false) ∧
      (plusEnd x - minusEnd z D = (minusEnd z D - plusEnd x).norm • b.normI ∧ b.normJ = -b.normI) ∧
      (minusEnd z D ≠ plusEnd x → ∀ E, E = C.mob.dt * res + (turning C.mob.dt x'.omega * x.length + turning C.mob.dt z'.omega * z.length) / 2 +
            (reach C.mob.dt x x'.vel x'.omega + reach C.mob.dt z z'.vel z'.omega) ^ 2 / (2 * (minusEnd z D - plusEnd x).norm) →
        ∀ L, L = ((minusEnd z' D - plusEnd x').norm - x.radius - z.radius - C.link.linkGap + if 0 < C.link.linkKappa then b.gamma / C.link.linkKappa else 0) →
        -E ≤ L ∧ (fl (-(10 : ℝ) ^ 8 + BCQP.dblEps * 100) ≤ b.gamma → L ≤ E)) := by
  have hq := hs.prepared h (Sim.run_inv hr)
  obtain ⟨order, ho, hdir⟩ := hs.publish
  obtain ⟨X, hX, hcol⟩ := hs.collect
  rw [hdir] at hcol
  obtain ⟨last, rfl, hcon⟩ := step_converged hs h hq hfree hc
  have hrk : ranks[r]? = some (ranks[r]'(by rw [hs.size]; exact hrn)) := List.getElem?_eq_getElem _
  obtain ⟨rk, hrkd⟩ : ∃ rk, ranks[r]? = some rk := ⟨_, hrk⟩
  obtain ⟨L, blocks, bs, news, h1, -, -, -, -, -, h7⟩ := pool_parts hq h s.dir order ho X hX hrn rk.pool (hcol r rk hrkd)
  -- the constraint of the link
  have hpair : (x, l.2) ∈ linkPairs C.linkMap (numbered C.place.g.n q.P r) := by
    refine List.mem_flatMap.2 ⟨x, List.mem_of_getElem? hx, List.mem_map.2 ⟨l.2, ?_, rfl⟩⟩
    exact List.mem_map.2 ⟨l, List.mem_filter.2 ⟨hl, decide_eq_true hg.symm⟩, rfl⟩
  obtain ⟨m, hm, hmx⟩ := List.getElem_of_mem hpair
  have hm' : m < news.length := by rw [← h7.length_eq]; exact hm
  obtain ⟨e, he, hlink⟩ := (List.forall₂_iff_get.1 h7).2 m hm hm'
  simp only [List.get_eq_getElem, hmx] at he hlink
  obtain ⟨r', hr', z, hz, hzg, hze⟩ := dir_spec hq h s.dir order ho l hl
  rw [hze] at he
  cases he
  obtain ⟨b0, hb0⟩ : ∃ b0, b0 = news[m] := ⟨_, rfl⟩
  rw [← hb0] at hlink
  have hb0m : b0 ∈ rk.pool.flatten := by
    refine h1.mem_iff.2 (List.mem_append_right _ ?_)
    rw [hb0]
    exact List.getElem_mem hm'
  have hbi : b0.bilateral = true := by obtain ⟨c, P, Q, -, -, -, -, hbi, -⟩ := hlink; exact hbi
  obtain ⟨p, b, hp, hbp, hw, hlaw', hlaw⟩ := C93_solved hcon r rk b0 hrkd hb0m hbi
  obtain ⟨j, hj, rfl⟩ := List.getElem_of_mem hz
  have hzj := List.getElem?_eq_getElem hj
  obtain ⟨hbody, -⟩ := hcon.use
  obtain ⟨x', gx1, gx2, gx3, gx4, gx5⟩ := hbody r i x hrn hx
  obtain ⟨z', gz1, gz2, gz3, gz4, gz5⟩ := hbody r' j _ hr' hzj
  have hP : s'.sys.P = C89_after out := by rw [hs.moved]; rfl
  rw [← hP] at gx1 gz1
  obtain ⟨v1, v2, -⟩ := step_vel hs h hq hrn hx gx1
  obtain ⟨w1, w2, -⟩ := step_vel hs h hq hr' hzj gz1
  have mx : Moved C.mob.dt x x' (velOf out x.globalIndex) (omegaOf out x.globalIndex) :=
    ⟨gx2, gx3, gx4, gx5.unit, gx5.length⟩
  obtain ⟨z, hzd⟩ : ∃ z, z = (numbered C.place.g.n q.P r')[j] := ⟨_, rfl⟩
  rw [← hzd] at hzg hlink hzj gz2 gz3 gz4 gz5 w1 w2
  have mz : Moved C.mob.dt z z' (velOf out z.globalIndex) (omegaOf out z.globalIndex) :=
    ⟨gz2, gz3, gz4, gz5.unit, gz5.length⟩
  obtain ⟨D, hD, hdel, hdirn, hgap⟩ := link_gap h.dt.le hlink mx mz
  have hfields := hlink
  obtain ⟨c, P, Q, hc', hP', hQ', -, -, hone, hkap, hgI, hgJ, hiI, hiJ, -, -, -, -, hnj, hn, -, -⟩ := hfields
  have hkind : ∀ {a b : Sylinder}, Spec.Mobility.SameBody a b → kind a = kind b := by
    intro a b hab
    simp only [kind, hab.gid, hab.group, hab.isImmovable, hab.radius, hab.length]
  refine ⟨r', j, z, x', z', D, p, b, hr', hzj, hzg, gx1, gz1, hkind gx2, hkind gz2, hD, hp, hbp, ?_, ?_, ?_⟩
  · rw [hw]
    exact ⟨hgI.trans hg, hgJ.trans hzg, hiI, hiJ, hbi, hone⟩
  · rw [hw]
    exact ⟨hdirn, hnj⟩
  · intro hne E hE L hL
    have hgap := hgap hne
    rw [hkap] at hlaw hlaw'
    rw [v1, v2, w1, w2] at hgap
    have hdt : (C.mobility pre).dt = C.mob.dt := (mobility_fields C pre).2.1
    rw [hdt, hdel] at hlaw hlaw'
    rw [abs_le] at hgap
    refine ⟨by rw [hE, hL]; linarith [hgap.1, hgap.2], fun hlow => ?_⟩
    have hlaw := hlaw hlow
    rw [abs_le] at hlaw
    rw [hE, hL]
    linarith [hgap.1, hgap.2, hlaw.1, hlaw.2]

/-- The hypotheses of C93 can be met, with a link between two bodies whose ends do not coincide and a multiplier that is not at the cap. -/
example (D : Draws) : ∃ (C : Sim.Cfg) (P₀ : ℕ → List Sylinder) (s s' : Sim.State) (q : Place.Sys) (ranks : List RankIn) (out : Out),
    Sim.Sound C (fun _ => false) (fun _ => 0) (fun _ => 1) P₀ ∧ C.mob.sylinderFixed = false ∧ Sim.Run (Sim.Ok (fun _ => false) (fun _ => 0) (fun _ => 1)) id C P₀ C P₀ 0 s ∧ Sim.Step C id false s q ranks out s' ∧
    Sim.Converged C id out 0 ∧ 0 < C.link.linkKappa ∧ ∃ l ∈ C.linkMap, ∃ (r i : ℕ) (x : Sylinder), r < C.place.g.n ∧ (numbered C.place.g.n q.P r)[i]? = some x ∧
      x.gid = l.1 ∧ (∀ p ∈ out.pools, ∀ b ∈ p.flatten, id (-(10 : ℝ) ^ 8 + BCQP.dblEps * 100) ≤ b.gamma) ∧
      ∀ r' < C.place.g.n, ∀ z ∈ numbered C.place.g.n q.P r', z.gid = l.2 → ∀ D, NearestImage C.link x.pos z.pos (z.pos + D) → minusEnd z D ≠ plusEnd x := by
  obtain ⟨C, P₀, s, s', q, ranks, out, h1, -, -, h2, h3, h4, -, h5, -, -, -, e1, e2, e3, ⟨r, hr, i, x, hx, hg⟩, e5, -, e6⟩ := Sim.witness D
  refine ⟨C, P₀, s, s', q, ranks, out, h1, h2, h3, h4, h5, e2, (7, 9), by rw [e1]; simp, r, i, x, hr, hx, hg, ?_, ?_⟩
  · intro p hp b hb
    rw [e3 p hp b hb]
    unfold BCQP.dblEps
    norm_num
  · intro r' hr' z hz hzg D hD heq
    obtain ⟨m1, m2, -⟩ := e6 r hr x (List.mem_of_getElem? hx)
    obtain ⟨n1, n2, -⟩ := e6 r' hr' z hz
    have hxp : x.pos = ⟨0.4, 0.5, 0.5⟩ := by
      rcases m1 with m | m
      · exact m.2
      · rw [m.1] at hg; norm_num at hg
    have hzp : z.pos = ⟨0.6, 0.5, 0.5⟩ := by
      rcases n1 with m | m
      · rw [m.1] at hzg; norm_num at hzg
      · exact m.2
    have h0 : (z.pos + D).x = z.pos.x := (hD 0).1 (e5 0)
    have := congrArg V3.x heq
    simp only [minusEnd, plusEnd, m2, n2, V3.add_x, V3.sub_x, V3.smul_x] at this h0
    rw [hxp, hzp] at this
    rw [hzp] at h0
    norm_num at this h0
    rw [h0] at this
    norm_num at this

end Verif
