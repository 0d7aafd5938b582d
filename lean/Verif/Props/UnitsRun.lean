import Verif.Props.Units
import Verif.Props.RenameRun
/-!
The hypotheses of C117 can be met.
-/
namespace Verif
open Near Collector RunStep Mobility Sim Spec.Resume Spec.Momentum Spec.Layout Spec.Displace Spec.Mobility Spec.Motion Layout Displace Spec.Units Units

namespace Units
open Rest

/-- The configuration in other units. -/
noncomputable def converted (φ τ : ℝ) (C : Sim.Cfg) : Sim.Cfg :=
  { C with link := { C.link with linkKappa := φ * C.link.linkKappa }, mob := { C.mob with viscosity := φ * τ * C.mob.viscosity, dt := τ * C.mob.dt } }

/-- A step of two linked spheres in other units. -/
theorem units_step {C : Sim.Cfg} {c : Place.Cfg} (hC : C = Momentum.linkedCfg c) (h0 : Sim.Sound C (fun _ => false) (fun _ => 0) (fun _ => 1) twoBalls)
    (hmono : C.place.monolayer = false ∧ C.mob.monolayer = false) (hn : C.place.g.n = 2) (hper : ∀ k, C.place.d.periodic k = false)
    (k1 : c.diameterColRatio = 1) (k2 : c.lengthColRatio = 1) (D : Draws) {φ τ : ℝ} (hφ : 0 < φ) (hτ : 0 < τ) (E : Sim.Cfg) (hE : E = converted φ τ C) :
    Calm E (all E.place.g.n twoBalls) ∧ Sim.Sound E (fun _ => false) (fun _ => 0) (fun _ => 1) twoBalls ∧
    ∃ (s1 s2 : Place.Sys) (q : Place.Sys) (ranks : List RankIn) (out : Out) (s' : Sim.State),
      Place.DecomposeDomain E.place (Place.plain E.place) ⟨⟨true, fun _ => E.place.root⟩, twoBalls⟩ s1 ∧ Place.ExchangeSylinder E.place (Place.plain E.place) s1 s2 ∧
      Sim.Step E id false ⟨s2, Links.Dir.empty, 0⟩ q ranks out s' ∧ Sim.Converged E id out 0 ∧ (∀ p ∈ out.pools, ∀ b ∈ p.flatten, b.gamma = 0) ∧
      ∀ rk ∈ ranks, rk.force = none ∧ rk.velPart = none := by
  have h : Sim.Sound E (fun _ => false) (fun _ => 0) (fun _ => 1) twoBalls := by
    rw [hE]
    exact ⟨h0.place, .inl hmono, h0.enough, mul_pos (mul_pos hφ hτ) h0.viscosity, mul_pos hτ h0.dt, h0.valid, h0.body, h0.fdps, h0.largest, h0.links, h0.linkBox⟩
  have hpl : E.place = C.place := by rw [hE]; rfl
  have hctl : E.ctl = C.ctl := by rw [hE]; rfl
  have hb0 : E.bounds = [] := by rw [hE, hC]; rfl
  have hch : E.ctl.choice ≠ 1 := by rw [hctl, hC]; simp [Momentum.linkedCfg, twoBallsCfg]
  have hres : 0 < E.ctl.res := by rw [hctl, hC]; show (0 : ℝ) < 1 / 10 ^ 5; norm_num
  have hcold : E.mob.KBT ≤ 0 := by rw [hE, hC]; exact le_refl (0 : ℝ)
  have hall : all E.place.g.n twoBalls = all 2 twoBalls := by rw [hpl, hn]
  have hcalm : Calm E (all E.place.g.n twoBalls) := by
    have := balls_calm (C := E) (by rw [hpl]; exact hn) (by rw [hpl]; exact hper) hb0 (by rw [hE, hC]; rfl) (fun k => by rw [hE, hC]; rfl) (by rw [hE, hC]; rfl) 0 (fun k => by fin_cases k <;> simp [Near.comp])
    rw [balls_all, hpl, hn] at this
    have e : put 0 = id := by
      funext b
      unfold put
      rw [show b.pos + 0 = b.pos by ext <;> simp]
      rfl
    rw [hall]
    rwa [e, List.map_id] at this
  obtain ⟨s1, s2, d1, d2⟩ := (C83_progress E.place _ _ _ h.place twoBalls h.enough).1 (fun _ => E.place.root) _ _ (Place.plain_valid _) (Place.plain_valid _)
  have hrun : Sim.Run (Sim.Ok (fun _ => false) (fun _ => 0) (fun _ => 1)) id E twoBalls E twoBalls 0 ⟨s2, Links.Dir.empty, 0⟩ :=
    .start _ _ _ s1 s2 h (Place.plain_valid _) (Place.plain_valid _) d1 d2
  have h2 : (all E.place.g.n twoBalls).length = 2 := by rw [hall, twoBalls_all]; rfl
  have hlm : E.linkMap = [(7, 9)] := by rw [hE, hC]; rfl
  obtain ⟨q, ranks, out, s', hst, hfr⟩ := Momentum.acts none h (by rw [hpl]; exact hn) (by rw [hpl]; exact hper) hb0 (by rw [hE, hC]; rfl) hch hres (fun S => by
    unfold linkPairs
    rw [List.length_flatMap]
    have := List.sum_le_card_nsmul (S.map fun s => ((Links.nexts E.linkMap s.gid).map fun g => (s, g)).length) 1 (by
      intro x hx
      obtain ⟨y, -, rfl⟩ := List.mem_map.1 hx
      rw [List.length_map, Links.nexts, List.length_map, hlm]
      exact List.length_filter_le _ _)
    rw [List.length_map, smul_eq_mul, mul_one] at this
    exact this) h2 D hrun
  have hfree : C113_Free E twoBalls ranks := ⟨fun rk hrk => ⟨(hfr rk hrk).1, (hfr rk hrk).2.1⟩, by rw [h2]; norm_num, fun rk hrk => (hfr rk hrk).2.2⟩
  have hq := hst.prepared h (Sim.run_inv hrun)
  obtain ⟨x, hx, hpq⟩ := hst.prepare
  obtain ⟨g1, g2, -⟩ := C113_step h hch hres hcold 0 _ hrun false q ranks out s' hst hfree (hcalm.congr fun b hb => by
    obtain ⟨u, hu, u1, u2, u3⟩ := prepare_pos h (by rw [hpl]; exact hmono.1) (Sim.run_inv hrun) hx hpq b hb
    obtain ⟨a, ha, a1, a2, a3⟩ := start_pos h (Place.plain_valid _) (Place.plain_valid _) d1 d2 u hu
    obtain ⟨r, hrn, hbr⟩ := mem_all.1 hb
    obtain ⟨w, hw⟩ := hq.fresh r hrn b hbr
    have hpu : u.pos = a.pos := comp_ext fun k => (a3 k).2 rfl (hcalm.finite a ha k)
    have hk : kind b = kind a := u1.trans a1
    have hk' := hk
    simp only [kind, Prod.mk.injEq] at hk'
    have hc1 : E.place.diameterColRatio = 1 := by rw [hpl, hC]; exact k1
    have hc2 : E.place.lengthColRatio = 1 := by rw [hpl, hC]; exact k2
    have hb1 : b.radiusCollision = b.radius := by
      rw [hw]
      show w.radius * E.place.diameterColRatio = w.radius
      rw [hc1, mul_one]
    have hb2 : b.lengthCollision = b.length := by
      rw [hw]
      show w.length * E.place.lengthColRatio = w.length
      rw [hc2, mul_one]
    have ha' : a.radiusCollision = a.radius ∧ a.lengthCollision = a.length := by
      rw [hall, twoBalls_all] at ha
      simp only [List.map_cons, List.map_nil, List.mem_cons, List.not_mem_nil, or_false] at ha
      rcases ha with rfl | rfl <;> exact ⟨rfl, rfl⟩
    refine ⟨a, ha, ⟨hk, ?_, u2.trans a2, ?_, ?_⟩⟩
    · refine comp_ext fun k => ?_
      rw [(u3 k).2 rfl (by rw [hpu]; exact hcalm.finite a ha k), hpu]
    · rw [hb1, ha'.1, hk'.2.2.2.1]
    · rw [hb2, ha'.2, hk'.2.2.2.2])
  exact ⟨hcalm, h, s1, s2, q, ranks, out, s', d1, d2, hst, g1, g2, hfree.none⟩

end Units

/-- The hypotheses of C117 can be met: two linked spheres, a unit of force a third as large and a unit of time half as long. -/
example (D : Draws) : ∃ (C E : Sim.Cfg) (s s' t t' : Sim.State) (q q' : Place.Sys) (ranks ranks' : List RankIn) (out out' : Out) (U W U' W' : ℤ → V3),
    C.place.g.n = 2 ∧ Sim.Sound C (fun _ => false) (fun _ => 0) (fun _ => 1) twoBalls ∧
    Sim.Sound E (fun _ => false) (fun _ => 0) (fun _ => 1) twoBalls ∧ OtherUnits 3 2 C E ∧ ((all C.place.g.n s.sys.P).map seen).Perm ((all E.place.g.n t.sys.P).map seen) ∧
    Sim.Step C id false s q ranks out s' ∧ Sim.Step E id false t q' ranks' out' t' ∧ Sim.Converged C id out 0 ∧ Sim.Converged E id out' 0 ∧
    Loads C.place.g.n q ranks (fun _ => (0, 0)) (fun _ => (0, 0)) ∧ Loads E.place.g.n q' ranks' (fun _ => multiple 3 (0, 0)) (fun _ => multiple 2⁻¹ (0, 0)) ∧
    Velocities (all C.place.g.n s'.sys.P) U W ∧ Velocities (all E.place.g.n t'.sys.P) U' W' ∧
    ((all C.place.g.n q.P).map seen).Perm ((all E.place.g.n q'.P).map seen) ∧ ((constraints ranks).map fun b => forget (stiff 3 b)).Perm ((constraints ranks').map forget) ∧
    C.mob.dt * ((all C.place.g.n q.P).map fun x => lag C.mob.viscosity x (U x.gid - (2 : ℝ) • U' x.gid, W x.gid - (2 : ℝ) • W' x.gid)).sum ≤
      (((constraints ranks).zip ((out.pools.flatMap fun p => p.flatten).map Block.gamma)).map fun x =>
        loose C.mob.dt C.ctl.res (2 * E.ctl.res) |id (BCQP.dblEps * 100)| x.1 (x.1.delta0 + C.mob.dt * gapOf U W x.1) x.2).sum +
      3⁻¹ * (((constraints ranks').zip ((out'.pools.flatMap fun p => p.flatten).map Block.gamma)).map fun x =>
        loose E.mob.dt E.ctl.res (C.ctl.res / 2) |id (BCQP.dblEps * 100)| x.1 (x.1.delta0 + E.mob.dt * gapOf U' W' x.1) x.2).sum := by
  obtain ⟨c, h, hn, hper, k1, k2, k3, k4, -⟩ := twoBalls_sound
  obtain ⟨C, hC⟩ : ∃ C, C = Momentum.linkedCfg c := ⟨_, rfl⟩
  have hn : C.place.g.n = 2 := by rw [hC]; exact hn
  have hper : ∀ k, C.place.d.periodic k = false := by rw [hC]; exact hper
  have hmono : C.place.monolayer = false ∧ C.mob.monolayer = false := by rw [hC]; exact ⟨k4, rfl⟩
  have h : Sim.Sound C (fun _ => false) (fun _ => 0) (fun _ => 1) twoBalls := by
    rw [hC]
    exact ⟨h.place, .inl ⟨k4, rfl⟩, h.enough, h.viscosity, h.dt, h.valid, h.body, h.fdps, h.largest, h.links, h.linkBox⟩
  have hlm : C.linkMap = [(7, 9)] := by rw [hC]; rfl
  obtain ⟨s1, s2, q, ranks, out, s', a1, a2, a3, a4, a5, a6⟩ := Displace.balls_step hC h hmono hn hper k1 k2 D 0 (fun k => by fin_cases k <;> simp [Near.comp])
  obtain ⟨E, hE⟩ : ∃ E : Sim.Cfg, E = converted 3 2 C := ⟨_, rfl⟩
  obtain ⟨hcalmE, hT, t1, t2, q', ranks', out', t', b1, b2, b3, b4, b5, b6⟩ := units_step hC h hmono hn hper k1 k2 D (by norm_num : (0 : ℝ) < 3) (by norm_num : (0 : ℝ) < 2) E hE
  have hb0 : balls 0 = twoBalls := by
    have e : put 0 = id := by
      funext b
      unfold put
      rw [show b.pos + 0 = b.pos by ext <;> simp]
      rfl
    funext r
    rw [balls, e, List.map_id]
  rw [hb0] at a1
  have hpl : E.place = C.place := by rw [hE]; rfl
  have hfin : ∀ b ∈ all C.place.g.n twoBalls, ∀ k : Fin 3, (fun _ => false : Fin 3 → Bool) k = false → |Near.comp b.pos k| < Stats.largeFloat := by
    intro b hb k _
    have := (Displace.balls_calm (C := C) hn hper (by rw [hC]; rfl) hlm (fun k => by rw [hC]; rfl) (by rw [hC]; rfl) 0 (fun k => by fin_cases k <;> simp [Near.comp])).finite
    rw [hb0] at this
    exact this b hb k
  have hall : all E.place.g.n twoBalls = all C.place.g.n twoBalls := by rw [hpl]
  obtain ⟨g1, g2⟩ := C100_start h hT (by rw [hall]) hfin _ _ _ _ _ _ s1 s2 t1 t2 (Place.plain_valid _) (Place.plain_valid _) (Place.plain_valid _) (Place.plain_valid _) a1 a2 b1 b2
  have hp : OtherUnits 3 2 C E := by
    rw [hE]
    exact ⟨by norm_num, by norm_num, ⟨hmono, hmono⟩, rfl, rfl, rfl, rfl, List.Perm.refl _, List.Perm.refl _, rfl, rfl, rfl⟩
  have hrun : Sim.Run (Sim.Ok (fun _ => false) (fun _ => 0) (fun _ => 1)) id C twoBalls C twoBalls 0 ⟨s2, Links.Dir.empty, 0⟩ :=
    .start _ _ _ s1 s2 h (Place.plain_valid _) (Place.plain_valid _) a1 a2
  have hrun' : Sim.Run (Sim.Ok (fun _ => false) (fun _ => 0) (fun _ => 1)) id E twoBalls E twoBalls 0 ⟨t2, Links.Dir.empty, 0⟩ :=
    .start _ _ _ t1 t2 hT (Place.plain_valid _) (Place.plain_valid _) b1 b2
  have hid : ((all C.place.g.n twoBalls).map Sylinder.gid).Nodup := by
    rw [hn, twoBalls_all]
    show ([7, 9] : List ℤ).Nodup
    decide
  have hid' : ((all E.place.g.n twoBalls).map Sylinder.gid).Nodup := by rw [hall]; exact hid
  have h0 : ∀ i, at6 (([] : List ℝ)) i = (0, 0) := fun i => Prod.ext (V3.ext (by simp [at6]) (by simp [at6]) (by simp [at6])) (V3.ext (by simp [at6]) (by simp [at6]) (by simp [at6]))
  have hload : ∀ (n : ℕ) (q : Place.Sys) (ranks : List RankIn), (∀ rk ∈ ranks, rk.force = none ∧ rk.velPart = none) → Loads n q ranks (fun _ => (0, 0)) (fun _ => (0, 0)) := by
    intro n q ranks hf r rk i x hr _
    obtain ⟨e1, e2⟩ := hf rk (List.mem_of_getElem? hr)
    rw [e1, e2]
    exact ⟨h0 i, h0 i⟩
  have hvel : ∀ l : List Sylinder, (l.map Sylinder.gid).Nodup → ∃ U W, Velocities l U W := by
    intro l hl
    refine ⟨fun g => ((l.find? fun u => u.gid = g).map Sylinder.vel).getD 0, fun g => ((l.find? fun u => u.gid = g).map Sylinder.omega).getD 0, fun u hu => ?_⟩
    have hf : (l.find? fun v => v.gid = u.gid) = some u := by
      cases hf : l.find? (fun v => v.gid = u.gid) with
      | none => exact absurd (List.find?_eq_none.1 hf u hu) (by simp)
      | some v =>
        have hv1 := List.mem_of_find?_eq_some hf
        have hv2 := List.find?_some hf
        rw [List.inj_on_of_nodup_map hl hv1 hu (by simpa using hv2)]
    beta_reduce
    rw [hf]
    exact ⟨rfl, rfl⟩
  have hlow : ∀ out : Out, (∀ p ∈ out.pools, ∀ b ∈ p.flatten, b.gamma = 0) → ∀ p ∈ out.pools, ∀ b ∈ p.flatten, b.bilateral = true → id (-(10 : ℝ) ^ 8 + BCQP.dblEps * 100) ≤ b.gamma := by
    intro out hz p hp b hb _
    rw [hz p hp b hb]
    unfold BCQP.dblEps
    norm_num
  have hids : ∀ {C : Sim.Cfg} {P : ℕ → List Sylinder} {s s' : Sim.State} {q : Place.Sys} {ranks : List RankIn} {out : Out},
      Sim.Sound C (fun _ => false) (fun _ => 0) (fun _ => 1) P → Sim.Run (Sim.Ok (fun _ => false) (fun _ => 0) (fun _ => 1)) id C P C P 0 s → Sim.Step C id false s q ranks out s' →
      ((all C.place.g.n P).map Sylinder.gid).Nodup → ((all C.place.g.n s'.sys.P).map Sylinder.gid).Nodup := by
    intro C P s s' q ranks out h hr hs hid
    have hi := Sim.step_inv hs h (hs.prepared h (Sim.run_inv hr))
    have := hi.kinds.map fun k => k.1
    simp only [List.map_map] at this
    exact this.nodup_iff.2 hid
  obtain ⟨U, W, hU⟩ := hvel _ (hids h hrun a3 hid)
  obtain ⟨U', W', hU'⟩ := hvel _ (hids hT hrun' b3 hid')
  have hfree : C.mob.sylinderFixed = false := by rw [hC]; rfl
  have hcold : C.mob.KBT ≤ 0 := by rw [hC]; exact le_refl (0 : ℝ)
  have hres : 0 ≤ C.ctl.res := by rw [hC]; show (0 : ℝ) ≤ 1 / 10 ^ 5; norm_num
  have hctlE : E.ctl = C.ctl := by rw [hE]; rfl
  have hz : ∀ c : ℝ, multiple c (0, 0) = (0, 0) := fun c => by unfold multiple; refine Prod.ext (V3.ext ?_ ?_ ?_) (V3.ext ?_ ?_ ?_) <;> simp
  have hl' : Loads E.place.g.n q' ranks' (fun _ => multiple 3 (0, 0)) (fun _ => multiple 2⁻¹ (0, 0)) := by rw [hz, hz]; exact hload _ _ _ b6
  obtain ⟨m1, m2⟩ := C117_constraints h hT hp hid id id 0 0 _ _ hrun hrun' g1 g2 false false q q' ranks ranks' out out' s' t' a3 b3
  exact ⟨C, E, _, s', _, t', q, q', ranks, ranks', out, out', U, W, U', W', hn, h, hT, hp, g1, a3, b3, a4, b4, hload _ _ _ a6, hl', hU, hU', m1, m2,
    (C117_motion h hT hp hid id id 0 0 _ _ hrun hrun' g1 g2 false false q q' ranks ranks' out out' s' t' a3 b3 (Or.inr hcold) (Or.inr (by rw [hE]; exact hcold)) hfree
      (by rw [hE]; exact hfree) hres (by rw [hctlE]; exact hres) 0 0 a4 b4 (hlow _ a5) (hlow _ b5) (fun _ => (0, 0)) (fun _ => (0, 0)) (hload _ _ _ a6) hl' U W U' W' hU hU').2⟩

end Verif
