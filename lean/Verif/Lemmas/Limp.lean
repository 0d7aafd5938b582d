import Verif.Lemmas.Layout
import Verif.Props.Motion
import Verif.Props.Springs
/-! For C93: links between ends that coincide. -/
namespace Verif.Limp
open Domain Near Collector RunStep Mobility Collide Sim Links Spec.Springs Spec.Momentum Spec.Mobility Spec.Collector Momentum

variable {C C₀ : Sim.Cfg} {pbc : Fin 3 → Bool} {low high : Fin 3 → ℝ} {P₀ B : ℕ → List Sylinder} {fl : ℝ → ℝ} {pre : Bool} {s s' : Sim.State} {q : Place.Sys}
  {ranks : List RankIn} {out : Out}

/-- The block of a link between ends that coincide has no direction. -/
theorem block_zero {cfg : Links.Cfg} {x z : Sylinder} {c : V3} {b : Block} (hb : Links.block cfg x (EP.copyFromFP z) c = some b) (h : minusEnd z (c - z.pos) = plusEnd x) :
    b.normI = 0 ∧ b.normJ = 0 ∧ b.delta0 = -x.radius - z.radius - cfg.linkGap := by
  unfold Links.block at hb
  simp only [Option.map_eq_some_iff] at hb
  obtain ⟨S, -, hb⟩ := hb
  have hz : x.pos + (0.5 * x.length) • x.direction - (c - (0.5 * z.length) • z.direction) = 0 := by
    have ex := congrArg V3.x h
    have ey := congrArg V3.y h
    have ez := congrArg V3.z h
    simp only [minusEnd, plusEnd, V3.add_x, V3.add_y, V3.add_z, V3.sub_x, V3.sub_y, V3.sub_z, V3.smul_x, V3.smul_y, V3.smul_z] at ex ey ez
    ext <;> simp <;> linarith
  have hz' : c - (0.5 * z.length) • z.direction - (x.pos + (0.5 * x.length) • x.direction) = 0 := by
    have ex := congrArg V3.x hz
    have ey := congrArg V3.y hz
    have ez := congrArg V3.z hz
    simp only [V3.add_x, V3.add_y, V3.add_z, V3.sub_x, V3.sub_y, V3.sub_z, V3.smul_x, V3.smul_y, V3.smul_z, V3.zero_x, V3.zero_y, V3.zero_z] at ex ey ez
    ext <;> simp <;> linarith
  have hn : (0 : V3).normalized = 0 := by
    unfold V3.normalized
    split_ifs
    · ext <;> simp
    · rfl
  have e1 : b.normI = (x.pos + (0.5 * x.length) • x.direction - (c - (0.5 * z.length) • z.direction)).normalized := by rw [← hb]; rfl
  have e2 : b.normJ = -(x.pos + (0.5 * x.length) • x.direction - (c - (0.5 * z.length) • z.direction)).normalized := by rw [← hb]; rfl
  have e3 : b.delta0 = V3.norm (c - (0.5 * z.length) • z.direction - (x.pos + (0.5 * x.length) • x.direction)) - x.radius - z.radius - cfg.linkGap := by rw [← hb]; rfl
  rw [e1, e2, e3, hz, hz', hn, V3.norm_zero]
  exact ⟨rfl, by ext <;> simp, by ring⟩

theorem force_zero (l : List (Block × ℝ)) (h : ∀ p ∈ l, p.1.normI = 0 ∧ p.1.normJ = 0) (g : ℤ) : force l g = 0 ∧ torque l g = 0 := by
  unfold force torque
  induction l with
  | nil => exact ⟨rfl, rfl⟩
  | cons p l ih =>
    obtain ⟨h1, h2⟩ := ih fun p hp => h p (List.mem_cons_of_mem _ hp)
    obtain ⟨n1, n2⟩ := h p List.mem_cons_self
    simp only [List.map_cons, vsum]
    rw [h1, h2]
    unfold unitForce unitTorque
    rw [n1, n2]
    constructor
    · ext <;> simp
    · split_ifs <;> ext <;> simp [V3.cross]

/-- A step in which no constraint has a direction and nothing else acts moves nothing, whatever the solver does. -/
theorem limp_step (h : Sound C pbc low high P₀) (hmono : C.mob.monolayer = false) (hcold : C.mob.KBT ≤ 0) (k : ℕ)
    (hr : Sim.Run (Sim.Ok pbc low high) fl C₀ B C P₀ k s) (hs : Step C fl pre s q ranks out s')
    (hnone : ∀ rk ∈ ranks, rk.force = none ∧ rk.velPart = none) (hz : ∀ b ∈ constraints ranks, b.normI = 0 ∧ b.normJ = 0) (r : ℕ) (hrn : r < C.place.g.n) :
    (s'.sys.P r).length = (q.P r).length ∧ ∀ (i : ℕ) (x : Sylinder), (numbered C.place.g.n q.P r)[i]? = some x →
      ∃ u, (s'.sys.P r)[i]? = some u ∧ u.pos = x.pos ∧ u.orientation = x.orientation ∧ u.vel = 0 ∧ u.omega = 0 ∧ SameBody u x := by
  have hq := hs.prepared h (Sim.run_inv hr)
  obtain ⟨mult, hm, -⟩ := applies hs h hq
  obtain ⟨-, e2, e3⟩ := all_loaded hs h hq
  have hg := loaded_given hs h hq hm
  have hgiven : ∀ G ∈ given ranks, G = (0, 0) := by
    intro G hG
    obtain ⟨rk, hrk, hG⟩ := List.mem_flatMap.1 hG
    obtain ⟨i, -, rfl⟩ := List.mem_map.1 hG
    rw [(hnone rk hrk).1]
    rfl
  have hzip : ∀ p ∈ (constraints ranks).zip mult, p.1.normI = 0 ∧ p.1.normJ = 0 := fun p hp => hz _ (List.of_mem_zip hp).1
  have hload : ∀ t ∈ loaded out, t.force = 0 ∧ t.torque = 0 := by
    intro t ht
    obtain ⟨i, hi, rfl⟩ := List.getElem_of_mem ht
    have hi' : i < (given ranks).length := by rw [← hg.length_eq]; exact hi
    obtain ⟨g1, g2⟩ := (List.forall₂_iff_get.1 hg).2 i hi hi'
    simp only [List.get_eq_getElem] at g1 g2
    rw [hgiven _ (List.getElem_mem hi')] at g1 g2
    rw [g1, g2, (force_zero _ hzip _).1, (force_zero _ hzip _).2]
    exact ⟨by ext <;> simp, by ext <;> simp⟩
  have hfree : ∀ u ∈ all C.place.g.n s'.sys.P, u.force = 0 ∧ u.torque = 0 := by
    intro u hu
    have h1 : u.force ∈ (loaded out).map Sylinder.force := by rw [← e2]; exact List.mem_map_of_mem hu
    have h2 : u.torque ∈ (loaded out).map Sylinder.torque := by rw [← e3]; exact List.mem_map_of_mem hu
    obtain ⟨t, ht, h1⟩ := List.mem_map.1 h1
    obtain ⟨t', ht', h2⟩ := List.mem_map.1 h2
    rw [← h1, ← h2]
    exact ⟨(hload t ht).1, (hload t' ht').2⟩
  obtain ⟨hl, hm⟩ := C96_motion h hmono fl k s hr pre q ranks out s' hs r hrn
  refine ⟨hl, fun i x hx => ?_⟩
  obtain ⟨rk, D, u, w, g1, -, g3, g4, g5, g6, g7, g8⟩ := hm i x hx
  obtain ⟨f1, f2⟩ := hfree u (mem_all.2 ⟨r, hrn, List.mem_of_getElem? g3⟩)
  have hw : w = (0, 0) := g4.2 (by split <;> linarith)
  have hU := (Motion.dissipates (hq.valid h hrn (List.mem_of_getElem? hx)) g5).2 (by rw [f1, f2]; simp [Spec.Motion.power, V3.dot])
  have hp : at6 (rk.velPart.getD []) i = (0, 0) := by rw [(hnone rk (List.mem_of_getElem? g1)).2]; rfl
  rw [hw, hp] at hU
  have hv0 : u.vel = 0 := by
    have e : u.vel - 0 - 0 = 0 := congrArg Prod.fst hU
    refine Eq.trans ?_ e
    ext <;> simp
  have ho0 : u.omega = 0 := by
    have e : u.omega - 0 - 0 = 0 := congrArg Prod.snd hU
    refine Eq.trans ?_ e
    ext <;> simp
  refine ⟨u, g3, ?_, ?_, hv0, ho0, g8⟩
  · cases hf : C.mob.sylinderFixed with
    | true => exact (g7 hf).1
    | false => rw [(g6 hf).1, hv0]; ext <;> simp
  · cases hf : C.mob.sylinderFixed with
    | true => exact (g7 hf).2
    | false =>
      refine (g6 hf).2.2 ?_
      rw [ho0, V3.norm_zero]
      norm_num [Equatn.fltEps]

end Verif.Limp
