import Verif.Props.Rename
/-!
The hypotheses of C116 can be met.
-/
namespace Verif
open Near Collector RunStep Mobility Sim Spec.Resume Spec.Momentum Spec.Layout Spec.Displace Spec.Rename Spec.Mobility Spec.Motion Layout Displace Rename

namespace Rename
open Rest

/-- The same bodies with other names can be simulated too. -/
theorem named_sound {C : Sim.Cfg} {P : ℕ → List Sylinder} {pbc : Fin 3 → Bool} {low high : Fin 3 → ℝ} (f : ℤ → ℤ) (h : Sim.Sound C pbc low high P)
    (hmono : C.place.monolayer = false ∧ C.mob.monolayer = false) :
    Sim.Sound { C with linkMap := C.linkMap.map fun l => (f l.1, f l.2) } pbc low high (fun r => (P r).map (named f)) := by
  have hall : all C.place.g.n (fun r => (P r).map (named f)) = (all C.place.g.n P).map (named f) := by
    unfold all
    rw [List.map_flatMap]
  refine ⟨h.place, .inl hmono, ?_, h.viscosity, h.dt, ?_, ?_, ?_, ?_, ?_, h.linkBox⟩
  · have e : Place.total (fun r => (P r).map (named f)) C.place.g.n = Place.total P C.place.g.n := Place.total_congr _ fun r hr => by rw [List.length_map]
    exact h.enough.trans_eq e.symm
  · intro b hb
    rw [show all _ _ = _ from hall] at hb
    obtain ⟨a, ha, rfl⟩ := List.mem_map.1 hb
    have := h.valid a ha
    exact ⟨this.radius, this.length, this.unit⟩
  · intro b hb
    rw [show all _ _ = _ from hall] at hb
    obtain ⟨a, ha, rfl⟩ := List.mem_map.1 hb
    have := h.body a ha
    exact ⟨⟨this.1.1, this.1.2, this.1.3⟩, this.2, this.3, this.4, this.5⟩
  · exact ⟨h.fdps.1, h.fdps.2, h.fdps.3, h.fdps.4, fun hp r hr x hx => by
      rw [List.map_map] at hx
      obtain ⟨a, ha, rfl⟩ := List.mem_map.1 hx
      exact h.fdps.5 hp r hr (sized C a) (List.mem_map_of_mem ha)⟩
  · obtain ⟨R, r1, r2, r3⟩ := h.largest
    refine ⟨R, ?_, r2, r3⟩
    intro b hb
    rw [show all _ _ = _ from hall] at hb
    obtain ⟨a, ha, rfl⟩ := List.mem_map.1 hb
    exact r1 a ha
  · intro l hl
    obtain ⟨l0, hl0, rfl⟩ := List.mem_map.1 hl
    obtain ⟨b, hb, e⟩ := h.links l0 hl0
    refine ⟨named f b, ?_, congrArg f e⟩
    rw [show all _ _ = _ from hall]
    exact List.mem_map_of_mem hb

/-- They are calm too. -/
theorem named_calm {C : Sim.Cfg} {L : List Sylinder} (f : ℤ → ℤ) (hf : Function.Injective f) (h : Calm C L) :
    Calm { C with linkMap := C.linkMap.map fun l => (f l.1, f l.2) } (L.map (named f)) := by
  refine ⟨?_, ?_, ?_, ?_⟩
  · intro x hx k
    obtain ⟨a, ha, rfl⟩ := List.mem_map.1 hx
    exact h.finite a ha k
  · intro x hx y hy hg
    obtain ⟨a, ha, rfl⟩ := List.mem_map.1 hx
    obtain ⟨b, hb, rfl⟩ := List.mem_map.1 hy
    exact h.pairs a ha b hb fun e => hg (congrArg f e)
  · intro b hb
    obtain ⟨h1, h2⟩ := h.bounds b hb
    refine ⟨h1, fun x hx => ?_⟩
    obtain ⟨a, ha, rfl⟩ := List.mem_map.1 hx
    exact h2 a ha
  · intro e he x hx z hz ex ez
    obtain ⟨e0, he0, rfl⟩ := List.mem_map.1 he
    obtain ⟨a, ha, rfl⟩ := List.mem_map.1 hx
    obtain ⟨b, hb, rfl⟩ := List.mem_map.1 hz
    exact h.links e0 he0 a ha b hb (hf ex) (hf ez)

/-- A step of two linked spheres with other names. -/
theorem named_step {C : Sim.Cfg} {c : Place.Cfg} (hC : C = Momentum.linkedCfg c) (h0 : Sim.Sound C (fun _ => false) (fun _ => 0) (fun _ => 1) twoBalls)
    (hmono : C.place.monolayer = false ∧ C.mob.monolayer = false) (hn : C.place.g.n = 2) (hper : ∀ k, C.place.d.periodic k = false)
    (k1 : c.diameterColRatio = 1) (k2 : c.lengthColRatio = 1) (D : Draws) (f : ℤ → ℤ) (hf : Function.Injective f) (E : Sim.Cfg)
    (hE : E = { C with linkMap := C.linkMap.map fun l => (f l.1, f l.2) }) (Q : ℕ → List Sylinder) (hQ : Q = fun r => (twoBalls r).map (named f)) :
    Calm E (all E.place.g.n Q) ∧ Sim.Sound E (fun _ => false) (fun _ => 0) (fun _ => 1) Q ∧ ∃ (s1 s2 : Place.Sys) (q : Place.Sys) (ranks : List RankIn) (out : Out) (s' : Sim.State),
      Place.DecomposeDomain E.place (Place.plain E.place) ⟨⟨true, fun _ => E.place.root⟩, Q⟩ s1 ∧ Place.ExchangeSylinder E.place (Place.plain E.place) s1 s2 ∧
      Sim.Step E id false ⟨s2, Links.Dir.empty, 0⟩ q ranks out s' ∧ Sim.Converged E id out 0 ∧ (∀ p ∈ out.pools, ∀ b ∈ p.flatten, b.gamma = 0) ∧
      ∀ rk ∈ ranks, rk.force = none ∧ rk.velPart = none := by
  have h : Sim.Sound E (fun _ => false) (fun _ => 0) (fun _ => 1) Q := by
    rw [hE, hQ]
    exact named_sound f h0 hmono
  have hpl : E.place = C.place := by rw [hE]
  have hctl : E.ctl = C.ctl := by rw [hE]
  have hmob : E.mob = C.mob := by rw [hE]
  have hb0 : E.bounds = [] := by rw [hE, hC]; rfl
  have hch : E.ctl.choice ≠ 1 := by rw [hctl, hC]; simp [Momentum.linkedCfg, twoBallsCfg]
  have hres : 0 < E.ctl.res := by rw [hctl, hC]; show (0 : ℝ) < 1 / 10 ^ 5; norm_num
  have hcold : E.mob.KBT ≤ 0 := by rw [hmob, hC]; exact le_refl (0 : ℝ)
  have hall : all E.place.g.n Q = (all 2 twoBalls).map (named f) := by
    rw [hpl, hn, hQ]
    unfold all
    rw [List.map_flatMap]
  have hcalm : Calm E (all E.place.g.n Q) := by
    rw [hall, hE]
    refine named_calm f hf ?_
    have := balls_calm (C := C) hn hper (by rw [hC]; rfl) (by rw [hC]; rfl) (fun k => by rw [hC]; rfl) (by rw [hC]; rfl) 0 (fun k => by fin_cases k <;> simp [Near.comp])
    rw [balls_all, hn] at this
    have e : put 0 = id := by
      funext b
      unfold put
      rw [show b.pos + 0 = b.pos by ext <;> simp]
      rfl
    rwa [e, List.map_id] at this
  obtain ⟨s1, s2, d1, d2⟩ := (C83_progress E.place _ _ _ h.place Q h.enough).1 (fun _ => E.place.root) _ _ (Place.plain_valid _) (Place.plain_valid _)
  have hrun : Sim.Run (Sim.Ok (fun _ => false) (fun _ => 0) (fun _ => 1)) id E Q E Q 0 ⟨s2, Links.Dir.empty, 0⟩ :=
    .start _ _ _ s1 s2 h (Place.plain_valid _) (Place.plain_valid _) d1 d2
  have h2 : (all E.place.g.n Q).length = 2 := by rw [hall, twoBalls_all]; rfl
  have hlm : E.linkMap = [(f 7, f 9)] := by rw [hE, hC]; rfl
  obtain ⟨q, ranks, out, s', hst, hfr⟩ := Momentum.acts none h (by rw [hpl]; exact hn) (by rw [hpl]; exact hper) hb0 (by rw [hE, hC]; rfl) hch hres (fun S => by
    unfold linkPairs
    rw [List.length_flatMap]
    have := List.sum_le_card_nsmul (S.map fun s => ((Links.nexts E.linkMap s.gid).map fun g => (s, g)).length) 1 (by
      intro x hx
      obtain ⟨y, -, rfl⟩ := List.mem_map.1 hx
      rw [List.length_map, Links.nexts, List.length_map, hlm]
      exact List.length_filter_le _ _)
    rw [List.length_map, smul_eq_mul, mul_one] at this
    exact this) h2 D hrun
  have hfree : C113_Free E Q ranks := ⟨fun rk hrk => ⟨(hfr rk hrk).1, (hfr rk hrk).2.1⟩, by rw [h2]; norm_num, fun rk hrk => (hfr rk hrk).2.2⟩
  have hq := hst.prepared h (Sim.run_inv hrun)
  obtain ⟨x, hx, hpq⟩ := hst.prepare
  obtain ⟨g1, g2, -⟩ := C113_step h hch hres hcold 0 _ hrun false q ranks out s' hst hfree (hcalm.congr fun b hb => by
    obtain ⟨u, hu, u1, u2, u3⟩ := prepare_pos h (by rw [hpl]; exact hmono.1) (Sim.run_inv hrun) hx hpq b hb
    obtain ⟨a, ha, a1, a2, a3⟩ := start_pos h (Place.plain_valid _) (Place.plain_valid _) d1 d2 u hu
    obtain ⟨r, hrn, hbr⟩ := mem_all.1 hb
    obtain ⟨w, hw⟩ := hq.fresh r hrn b hbr
    have hpu : u.pos = a.pos := comp_ext fun k => (a3 k).2 rfl (hcalm.finite a ha k)
    have hk : kind b = kind a := u1.trans a1
    have hk' := hk
    simp only [kind, Prod.mk.injEq] at hk'
    have hc1 : E.place.diameterColRatio = 1 := by rw [hpl, hC]; exact k1
    have hc2 : E.place.lengthColRatio = 1 := by rw [hpl, hC]; exact k2
    have hb1 : b.radiusCollision = b.radius := by
      rw [hw]
      show w.radius * E.place.diameterColRatio = w.radius
      rw [hc1, mul_one]
    have hb2 : b.lengthCollision = b.length := by
      rw [hw]
      show w.length * E.place.lengthColRatio = w.length
      rw [hc2, mul_one]
    have ha' : a.radiusCollision = a.radius ∧ a.lengthCollision = a.length := by
      rw [hall, twoBalls_all] at ha
      simp only [List.map_cons, List.map_nil, List.mem_cons, List.not_mem_nil, or_false] at ha
      rcases ha with rfl | rfl <;> exact ⟨rfl, rfl⟩
    refine ⟨a, ha, ⟨hk, ?_, u2.trans a2, ?_, ?_⟩⟩
    · refine comp_ext fun k => ?_
      rw [(u3 k).2 rfl (by rw [hpu]; exact hcalm.finite a ha k), hpu]
    · rw [hb1, ha'.1, hk'.2.2.2.1]
    · rw [hb2, ha'.2, hk'.2.2.2.2])
  exact ⟨hcalm, h, s1, s2, q, ranks, out, s', d1, d2, hst, g1, g2, hfree.none⟩

end Rename

/-- The hypotheses of C116 can be met: two linked spheres, called 7 and 9, and the same called 9 and 7. -/
example (D : Draws) : ∃ (C E : Sim.Cfg) (f : ℤ → ℤ) (P Q : ℕ → List Sylinder) (s s' t t' : Sim.State) (q q' : Place.Sys) (ranks ranks' : List RankIn) (out out' : Out) (U W U' W' : ℤ → V3),
    C.place.g.n = 2 ∧ f 7 = 9 ∧ f 9 = 7 ∧ C.linkMap = [(7, 9)] ∧ E.linkMap = [(9, 7)] ∧ Sim.Sound C (fun _ => false) (fun _ => 0) (fun _ => 1) P ∧
    Sim.Sound E (fun _ => false) (fun _ => 0) (fun _ => 1) Q ∧ SameUnder f C E ∧ Renamed f (all C.place.g.n s.sys.P) (all E.place.g.n t.sys.P) ∧
    Sim.Step C id false s q ranks out s' ∧ Sim.Step E id false t q' ranks' out' t' ∧ Sim.Converged C id out 0 ∧ Sim.Converged E id out' 0 ∧
    Clear (fun _ => false) (fun _ => 0) (fun _ => 1) f C (all C.place.g.n q.P) ∧
    Loads C.place.g.n q ranks (fun _ => (0, 0)) (fun _ => (0, 0)) ∧ Loads E.place.g.n q' ranks' (fun _ => (0, 0)) (fun _ => (0, 0)) ∧
    Velocities (all C.place.g.n s'.sys.P) U W ∧ Velocities (all E.place.g.n t'.sys.P) U' W' ∧
    Renamed f (all C.place.g.n q.P) (all E.place.g.n q'.P) ∧ ((constraints ranks).map fun b => bare (under f b)).Perm ((constraints ranks').map bare) ∧
    C.mob.dt * ((all C.place.g.n q.P).map fun x => lag C.mob.viscosity x (U x.gid - U' (f x.gid), W x.gid - W' (f x.gid))).sum ≤
      (((constraints ranks).zip ((out.pools.flatMap fun p => p.flatten).map Block.gamma)).map fun x =>
        loose C.mob.dt C.ctl.res E.ctl.res |id (BCQP.dblEps * 100)| x.1 (x.1.delta0 + C.mob.dt * gapOf U W x.1) x.2).sum +
      (((constraints ranks').zip ((out'.pools.flatMap fun p => p.flatten).map Block.gamma)).map fun x =>
        loose C.mob.dt E.ctl.res C.ctl.res |id (BCQP.dblEps * 100)| x.1 (x.1.delta0 + C.mob.dt * gapOf U' W' x.1) x.2).sum := by
  obtain ⟨c, h, hn, hper, k1, k2, k3, k4, -⟩ := twoBalls_sound
  obtain ⟨C, hC⟩ : ∃ C, C = Momentum.linkedCfg c := ⟨_, rfl⟩
  have hn : C.place.g.n = 2 := by rw [hC]; exact hn
  have hper : ∀ k, C.place.d.periodic k = false := by rw [hC]; exact hper
  have hmono : C.place.monolayer = false ∧ C.mob.monolayer = false := by rw [hC]; exact ⟨k4, rfl⟩
  have h : Sim.Sound C (fun _ => false) (fun _ => 0) (fun _ => 1) twoBalls := by
    rw [hC]
    exact ⟨h.place, .inl ⟨k4, rfl⟩, h.enough, h.viscosity, h.dt, h.valid, h.body, h.fdps, h.largest, h.links, h.linkBox⟩
  obtain ⟨f, hff⟩ : ∃ f : ℤ → ℤ, f = fun g => 16 - g := ⟨_, rfl⟩
  have hf : Function.Injective f := by
    intro a b hab
    simp only [hff] at hab
    omega
  have hlm : C.linkMap = [(7, 9)] := by rw [hC]; rfl
  obtain ⟨s1, s2, q, ranks, out, s', a1, a2, a3, a4, a5, a6⟩ := Displace.balls_step hC h hmono hn hper k1 k2 D 0 (fun k => by fin_cases k <;> simp [Near.comp])
  obtain ⟨E, hE⟩ : ∃ E : Sim.Cfg, E = { C with linkMap := C.linkMap.map fun l => (f l.1, f l.2) } := ⟨_, rfl⟩
  obtain ⟨Q, hQ⟩ : ∃ Q : ℕ → List Sylinder, Q = fun r => (twoBalls r).map (named f) := ⟨_, rfl⟩
  obtain ⟨hcalmE, hT, t1, t2, q', ranks', out', t', b1, b2, b3, b4, b5, b6⟩ := named_step hC h hmono hn hper k1 k2 D f hf E hE Q hQ
  have hb0 : balls 0 = twoBalls := by
    have e : put 0 = id := by
      funext b
      unfold put
      rw [show b.pos + 0 = b.pos by ext <;> simp]
      rfl
    funext r
    rw [balls, e, List.map_id]
  rw [hb0] at a1
  have hpl : E.place = C.place := by rw [hE]
  have hfin : ∀ b ∈ all C.place.g.n twoBalls, ∀ k : Fin 3, (fun _ => false : Fin 3 → Bool) k = false → |Near.comp b.pos k| < Stats.largeFloat := by
    intro b hb k _
    have := (Displace.balls_calm (C := C) hn hper (by rw [hC]; rfl) hlm (fun k => by rw [hC]; rfl) (by rw [hC]; rfl) 0 (fun k => by fin_cases k <;> simp [Near.comp])).finite
    rw [hb0] at this
    exact this b hb k
  have hfin' : ∀ b ∈ all E.place.g.n Q, ∀ k : Fin 3, (fun _ => false : Fin 3 → Bool) k = false → |Near.comp b.pos k| < Stats.largeFloat := fun b hb k _ => hcalmE.finite b hb k
  have hgive : Renamed f (all C.place.g.n twoBalls) (all E.place.g.n Q) := by
    unfold Renamed all
    rw [hpl, hQ, List.map_flatMap, List.map_flatMap]
    simp only [List.map_map]
    exact List.Perm.refl _
  obtain ⟨g1, g2, g3⟩ := C116_start h hT hgive hfin hfin' _ _ _ _ _ _ s1 s2 t1 t2 (Place.plain_valid _) (Place.plain_valid _) (Place.plain_valid _) (Place.plain_valid _) a1 a2 b1 b2
  have hp : SameUnder f C E := by
    rw [hE]
    exact ⟨⟨⟨hmono, hmono⟩, rfl, rfl, rfl, rfl, List.Perm.refl _, List.Perm.refl _, rfl, rfl⟩, List.Perm.refl _⟩
  have hrun : Sim.Run (Sim.Ok (fun _ => false) (fun _ => 0) (fun _ => 1)) id C twoBalls C twoBalls 0 ⟨s2, Links.Dir.empty, 0⟩ :=
    .start _ _ _ s1 s2 h (Place.plain_valid _) (Place.plain_valid _) a1 a2
  have hrun' : Sim.Run (Sim.Ok (fun _ => false) (fun _ => 0) (fun _ => 1)) id E Q E Q 0 ⟨t2, Links.Dir.empty, 0⟩ :=
    .start _ _ _ t1 t2 hT (Place.plain_valid _) (Place.plain_valid _) b1 b2
  have hid : ((all C.place.g.n twoBalls).map Sylinder.gid).Nodup := by
    rw [hn, twoBalls_all]
    show ([7, 9] : List ℤ).Nodup
    decide
  have hid' : ((all E.place.g.n Q).map Sylinder.gid).Nodup := by
    have := (hgive.map fun w : View => w.1.1)
    rw [List.map_map, List.map_map] at this
    refine this.nodup_iff.1 ?_
    have h2 := hid.map hf
    rw [List.map_map] at h2
    exact h2
  have h0 : ∀ i, at6 (([] : List ℝ)) i = (0, 0) := fun i => Prod.ext (V3.ext (by simp [at6]) (by simp [at6]) (by simp [at6])) (V3.ext (by simp [at6]) (by simp [at6]) (by simp [at6]))
  have hload : ∀ (n : ℕ) (q : Place.Sys) (ranks : List RankIn), (∀ rk ∈ ranks, rk.force = none ∧ rk.velPart = none) → Loads n q ranks (fun _ => (0, 0)) (fun _ => (0, 0)) := by
    intro n q ranks hf r rk i x hr _
    obtain ⟨e1, e2⟩ := hf rk (List.mem_of_getElem? hr)
    rw [e1, e2]
    exact ⟨h0 i, h0 i⟩
  have hvel : ∀ l : List Sylinder, (l.map Sylinder.gid).Nodup → ∃ U W, Velocities l U W := by
    intro l hl
    refine ⟨fun g => ((l.find? fun u => u.gid = g).map Sylinder.vel).getD 0, fun g => ((l.find? fun u => u.gid = g).map Sylinder.omega).getD 0, fun u hu => ?_⟩
    have hf : (l.find? fun v => v.gid = u.gid) = some u := by
      cases hf : l.find? (fun v => v.gid = u.gid) with
      | none => exact absurd (List.find?_eq_none.1 hf u hu) (by simp)
      | some v =>
        have hv1 := List.mem_of_find?_eq_some hf
        have hv2 := List.find?_some hf
        rw [List.inj_on_of_nodup_map hl hv1 hu (by simpa using hv2)]
    beta_reduce
    rw [hf]
    exact ⟨rfl, rfl⟩
  have hlow : ∀ out : Out, (∀ p ∈ out.pools, ∀ b ∈ p.flatten, b.gamma = 0) → ∀ p ∈ out.pools, ∀ b ∈ p.flatten, b.bilateral = true → id (-(10 : ℝ) ^ 8 + BCQP.dblEps * 100) ≤ b.gamma := by
    intro out hz p hp b hb _
    rw [hz p hp b hb]
    unfold BCQP.dblEps
    norm_num
  have hids : ∀ {C : Sim.Cfg} {P : ℕ → List Sylinder} {s s' : Sim.State} {q : Place.Sys} {ranks : List RankIn} {out : Out},
      Sim.Sound C (fun _ => false) (fun _ => 0) (fun _ => 1) P → Sim.Run (Sim.Ok (fun _ => false) (fun _ => 0) (fun _ => 1)) id C P C P 0 s → Sim.Step C id false s q ranks out s' →
      ((all C.place.g.n P).map Sylinder.gid).Nodup → ((all C.place.g.n s'.sys.P).map Sylinder.gid).Nodup := by
    intro C P s s' q ranks out h hr hs hid
    have hi := Sim.step_inv hs h (hs.prepared h (Sim.run_inv hr))
    have := hi.kinds.map fun k => k.1
    simp only [List.map_map] at this
    exact this.nodup_iff.2 hid
  obtain ⟨U, W, hU⟩ := hvel _ (hids h hrun a3 hid)
  obtain ⟨U', W', hU'⟩ := hvel _ (hids hT hrun' b3 hid')
  have hfree : C.mob.sylinderFixed = false := by rw [hC]; rfl
  have hcold : C.mob.KBT ≤ 0 := by rw [hC]; exact le_refl (0 : ℝ)
  have hres : 0 ≤ C.ctl.res := by rw [hC]; show (0 : ℝ) ≤ 1 / 10 ^ 5; norm_num
  have hmobE : E.mob = C.mob := by rw [hE]
  have hctlE : E.ctl = C.ctl := by rw [hE]
  have hcl : Clear (fun _ => false) (fun _ => 0) (fun _ => 1) f C (all C.place.g.n q.P) := by
    intro a ha b _ _ _ hrod
    exfalso
    have hq := a3.prepared h (Sim.run_inv hrun)
    have hk := hq.kinds.mem_iff.1 (List.mem_map_of_mem ha)
    rw [hn, twoBalls_all] at hk
    unfold Rod at hrod
    have c1 : C.place.diameterColRatio = 1 := by rw [hC]; exact k1
    have c2 : C.place.lengthColRatio = 1 := by rw [hC]; exact k2
    rw [c1, c2, mul_one, mul_one] at hrod
    simp only [List.map_cons, List.map_nil, List.mem_cons, List.not_mem_nil, or_false] at hk
    have hr : a.radius = 0.09 ∧ a.length = 0 := by
      rcases hk with hk | hk <;> simp only [kind, NoOverlap.ball, Prod.mk.injEq] at hk <;> exact ⟨hk.2.2.2.1, hk.2.2.2.2⟩
    rw [hr.1, hr.2] at hrod
    norm_num at hrod
  obtain ⟨m1, m2⟩ := C116_constraints_partial hf h hT hp hid id id 0 0 _ _ hrun hrun' g1 g2 g3 false false q q' ranks ranks' out out' s' t' a3 b3 hcl
  exact ⟨C, E, f, _, _, _, s', _, t', q, q', ranks, ranks', out, out', U, W, U', W', hn, by rw [hff]; rfl, by rw [hff]; rfl, hlm, by rw [hE, hff, hC]; rfl, h, hT, hp, g1, a3, b3, a4, b4, hcl,
    hload _ _ _ a6, hload _ _ _ b6, hU, hU', m1, m2,
    (C116_motion_partial hf h hT hp hid id id 0 0 _ _ hrun hrun' g1 g2 g3 false false q q' ranks ranks' out out' s' t' a3 b3 hcl (Or.inr hcold) (Or.inr (by rw [hmobE]; exact hcold)) hfree
      (by rw [hmobE]; exact hfree) hres (by rw [hctlE]; exact hres) 0 0 a4 b4 (hlow _ a5) (hlow _ b5) (fun _ => (0, 0)) (fun _ => (0, 0)) (hload _ _ _ a6) (hload _ _ _ b6) U W U' W' hU hU').2⟩

/-- Rods that are parallel, and rods that cross. -/
example : Decided DCP.dblEps ⟨0, 0, 0⟩ ⟨1, 0, 0⟩ ⟨5, 3, 0⟩ ⟨8, 3, 0⟩ ∧ Decided DCP.dblEps ⟨-1, 0, 0⟩ ⟨1, 0, 0⟩ ⟨0, -1, 1⟩ ⟨0, 1, 1⟩ := by
  have hseg : ∀ x y : ℝ, |x| ≤ 1 → Spec.DCP.OnSegment ⟨-1, 0, y⟩ ⟨1, 0, y⟩ ⟨x, 0, y⟩ ∧ Spec.DCP.OnSegment ⟨0, -1, y⟩ ⟨0, 1, y⟩ ⟨0, x, y⟩ := by
    intro x y hx
    obtain ⟨h1, h2⟩ := abs_le.1 hx
    constructor <;> refine ⟨(x + 1) / 2, by linarith, by linarith, ?_⟩ <;> ext <;> simp <;> ring
  refine ⟨⟨?_, ?_, .inl ⟨3, ?_⟩⟩, ⟨?_, ?_, .inr ⟨.inr ⟨⟨0, -1, 1⟩, ⟨0, 1, 1⟩, ⟨0, 0, 0⟩, ⟨0, 0, 0⟩, (hseg _ 1 ?_).2, (hseg _ 1 ?_).2, ?_, ?_, ?_⟩,
    .inr ⟨⟨-1, 0, 0⟩, ⟨1, 0, 0⟩, ⟨0, 0, 1⟩, ⟨0, 0, 1⟩, (hseg _ 0 ?_).1, (hseg _ 0 ?_).1, ?_, ?_, ?_⟩⟩⟩⟩
  · norm_num [DCP.dblEps, V3.normSq, V3.dot]
  · norm_num [DCP.dblEps, V3.normSq, V3.dot]
  · ext <;> norm_num
  · norm_num [DCP.dblEps, V3.normSq, V3.dot]
  · norm_num [DCP.dblEps, V3.normSq, V3.dot]
  · norm_num
  · norm_num
  · exact ⟨(hseg 0 0 (by norm_num)).1, by norm_num [V3.dot]⟩
  · exact ⟨(hseg 0 0 (by norm_num)).1, by norm_num [V3.dot]⟩
  · norm_num [DCP.dblEps, V3.normSq, V3.dot]
  · norm_num
  · norm_num
  · exact ⟨(hseg 0 1 (by norm_num)).2, by norm_num [V3.dot]⟩
  · exact ⟨(hseg 0 1 (by norm_num)).2, by norm_num [V3.dot]⟩
  · norm_num [DCP.dblEps, V3.normSq, V3.dot]

end Verif
