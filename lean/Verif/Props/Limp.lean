import Verif.Lemmas.Limp
import Verif.Props.Rest
import Verif.Props.Dilute
/-!
C93: links between ends that coincide.
-/
namespace Verif
open Domain Near Collector RunStep Mobility Collide Sim Links Spec.Springs Spec.Collector Spec.Momentum Spec.Mobility

/-- C93 for ends that coincide when the constraints are collected: the constraint of the link has no direction, so it pushes neither body; the solver still gives it the multiplier
that the law of the spring asks for at rest, up to the residual.  A rigid link (`κ ≤ 0`) of which the ends coincide cannot be solved: `dt` times the residual is at least the length
that it should have.  (Props/LimpRun.lean has a run in which it applies to every step.) -/
theorem C93_touching {C C₀ : Sim.Cfg} {pbc : Fin 3 → Bool} {low high : Fin 3 → ℝ} {P₀ B : ℕ → List Sylinder} (h : Sim.Sound C pbc low high P₀)
    (hfree : C.mob.sylinderFixed = false) (fl : ℝ → ℝ) (k : ℕ) (s : Sim.State) (hr : Sim.Run (Sim.Ok pbc low high) fl C₀ B C P₀ k s)
    (pre : Bool) (q : Place.Sys) (ranks : List RankIn) (out : Out) (s' : Sim.State) (hs : Sim.Step C fl pre s q ranks out s') (res : ℝ) (hc : Sim.Converged C fl out res)
    (l : ℤ × ℤ) (hl : l ∈ C.linkMap) (r : ℕ) (x : Sylinder) (hrn : r < C.place.g.n) (hx : x ∈ numbered C.place.g.n q.P r) (hg : x.gid = l.1) :
    ∃ r' < C.place.g.n, ∃ z ∈ numbered C.place.g.n q.P r', z.gid = l.2 ∧ ∃ D, NearestImage C.link x.pos z.pos (z.pos + D) ∧
      (minusEnd z D = plusEnd x → ∃ p b, out.pools[r]? = some p ∧ b ∈ p.flatten ∧ b.gidI = l.1 ∧ b.gidJ = l.2 ∧ b.bilateral = true ∧ b.normI = 0 ∧ b.normJ = 0 ∧
        (∀ g, unitForce b g = 0 ∧ unitTorque b g = 0) ∧
        (0 < C.link.linkKappa → C.link.linkKappa * (x.radius + z.radius + C.link.linkGap - C.mob.dt * res) ≤ b.gamma ∧
          (fl (-(10 : ℝ) ^ 8 + BCQP.dblEps * 100) ≤ b.gamma → b.gamma ≤ C.link.linkKappa * (x.radius + z.radius + C.link.linkGap + C.mob.dt * res))) ∧
        (C.link.linkKappa ≤ 0 → x.radius + z.radius + C.link.linkGap ≤ C.mob.dt * res)) := by
  have hq := hs.prepared h (Sim.run_inv hr)
  obtain ⟨order, ho, hdir⟩ := hs.publish
  obtain ⟨X, hX, hcol⟩ := hs.collect
  rw [hdir] at hcol
  obtain ⟨last, rfl, hcon⟩ := step_converged hs h hq hfree hc
  have hrk : ranks[r]? = some (ranks[r]'(by rw [hs.size]; exact hrn)) := List.getElem?_eq_getElem _
  obtain ⟨rk, hrkd⟩ : ∃ rk, ranks[r]? = some rk := ⟨_, hrk⟩
  obtain ⟨L, blocks, news, h1, -, -, -, h7⟩ := Layout.pool_exact hq h s.dir order ho X hX hrn rk.pool (hcol r rk hrkd)
  have hpair : (x, l.2) ∈ linkPairs C.linkMap (numbered C.place.g.n q.P r) := by
    refine List.mem_flatMap.2 ⟨x, hx, List.mem_map.2 ⟨l.2, ?_, rfl⟩⟩
    exact List.mem_map.2 ⟨l, List.mem_filter.2 ⟨hl, decide_eq_true hg.symm⟩, rfl⟩
  obtain ⟨m, hm, hmx⟩ := List.getElem_of_mem hpair
  have hm' : m < news.length := by rw [← h7.length_eq]; exact hm
  obtain ⟨e, he, c, himg, hblk⟩ := (List.forall₂_iff_get.1 h7).2 m hm hm'
  simp only [List.get_eq_getElem, hmx] at he himg hblk
  obtain ⟨r', hr', z, hz, hzg, hze⟩ := dir_spec hq h s.dir order ho l hl
  rw [hze] at he
  cases he
  have hbox : ∀ k, C.link.pbc k = true → C.link.low k < C.link.high k := by
    rw [h.linkBox.1, h.linkBox.2.1, h.linkBox.2.2]
    exact h.place.periodic
  obtain ⟨c', -, hn, huniq⟩ := image_spec C.link hbox x.pos z.pos (fun k hk => hq.inside h hrn hx k hk)
  obtain rfl := huniq c himg
  have ec : z.pos + (c - z.pos) = c := by ext <;> simp
  refine ⟨r', hr', z, hz, hzg, c - z.pos, by rw [ec]; exact hn, fun hco => ?_⟩
  obtain ⟨n1, n2, n3⟩ := Limp.block_zero hblk hco
  have hb0m : news[m] ∈ rk.pool.flatten := h1.mem_iff.2 (List.mem_append_right _ (List.getElem_mem hm'))
  have hf : (news[m]).bilateral = true ∧ (news[m]).kappa = C.link.linkKappa ∧ (news[m]).gidI = x.gid ∧ (news[m]).gidJ = z.gid := by
    unfold Links.block at hblk
    simp only [Option.map_eq_some_iff] at hblk
    obtain ⟨S, -, hb⟩ := hblk
    rw [← hb]
    exact ⟨rfl, rfl, rfl, rfl⟩
  obtain ⟨p, b, hp, hbp, hw, hlaw', hlaw⟩ := C93_solved hcon r rk news[m] hrkd hb0m hf.1
  have w1 : b.normI = 0 := by rw [hw]; exact n1
  have w2 : b.normJ = 0 := by rw [hw]; exact n2
  refine ⟨p, b, hp, hbp, by rw [hw]; exact hf.2.2.1.trans hg, by rw [hw]; exact hf.2.2.2.trans hzg, by rw [hw]; exact hf.1, w1, w2, fun g => ?_, ?_⟩
  · unfold unitForce unitTorque
    rw [w1, w2]
    constructor
    · ext <;> simp
    · split_ifs <;> ext <;> simp [V3.cross]
  · have hgr : ∀ U W, gapRate U W (news[m]) = 0 := by
      intro U W
      unfold gapRate
      rw [n1, n2]
      simp [V3.dot]
    have hdt : (C.mobility pre).dt = C.mob.dt := (mobility_fields C pre).2.1
    rw [hgr, n3, hf.2.1, hdt, mul_zero, add_zero] at hlaw hlaw'
    refine ⟨fun hk => ?_, fun hk => ?_⟩
    · rw [if_pos hk] at hlaw hlaw'
      refine ⟨?_, fun hlow => ?_⟩
      · rw [mul_comm, ← le_div_iff₀ hk]
        linarith
      · have hlaw := hlaw hlow
        rw [abs_le] at hlaw
        rw [mul_comm, ← div_le_iff₀ hk]
        linarith [hlaw.2]
    · rw [if_neg (not_lt.2 hk)] at hlaw'
      linarith

end Verif
