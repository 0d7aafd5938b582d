import Verif.Props.Headless
import Verif.Props.Rest
/-!
The hypotheses of C118 can be met.
-/
namespace Verif
open Near Collector RunStep Mobility Sim Spec.Resume Spec.Momentum Spec.Layout Spec.Displace Spec.Headless Spec.Mobility Spec.Motion Layout Displace Headless

namespace Headless
open Rest

/-- An upright rod. -/
noncomputable def rod (g : ℤ) (x : ℝ) (o : Quat) : Sylinder := Sylinder.make g 0.09 0.09 0.4 0.4 ⟨x, 0.5, 0.5⟩ o 0.5

/-- Two upright rods side by side, one with the orientation `o`. -/
noncomputable def rods (o : Quat) : ℕ → List Sylinder := fun r => if r = 0 then [rod 7 0.4 ⟨1, 0, 0, 0⟩, rod 9 0.6 o] else []

/-- The orientation of an upright rod. -/
def Upright (o : Quat) : Prop := o = ⟨1, 0, 0, 0⟩ ∨ o = ⟨0, 1, 0, 0⟩

theorem rod_up (g : ℤ) (x : ℝ) : (rod g x ⟨1, 0, 0, 0⟩).direction = ⟨0, 0, 1⟩ ∧ (rod g x ⟨0, 1, 0, 0⟩).direction = ⟨0, 0, -1⟩ := by
  constructor <;> simp only [Sylinder.direction, rod, Sylinder.make, Quat.rot, Quat.vec, V3.cross] <;> ext <;> norm_num

theorem rod_unit {o : Quat} (ho : Upright o) : Spec.UnitQuat o := by
  rcases ho with rfl | rfl <;> norm_num [Spec.UnitQuat]

theorem rod_direction {o : Quat} (ho : Upright o) (g : ℤ) (x : ℝ) : ∃ z : ℝ, (rod g x o).direction = ⟨0, 0, z⟩ ∧ z ^ 2 = 1 := by
  rcases ho with rfl | rfl
  · exact ⟨1, (rod_up g x).1, by norm_num⟩
  · exact ⟨-1, (rod_up g x).2, by norm_num⟩

theorem rod_long (g : ℤ) (x : ℝ) (o : Quat) : ¬ Spec.Near.Sphere (EP.copyFromFP (rod g x o)) := by
  show ¬ (0.4 : ℝ) < 2 * 0.09
  norm_num

theorem rod_rad (g : ℤ) (x : ℝ) (o : Quat) : Spec.Near.Rad (EP.copyFromFP (rod g x o)) = 0.09 := by
  unfold Spec.Near.Rad
  rw [if_neg (rod_long g x o)]
  rfl

theorem rods_all (o : Quat) : all 2 (rods o) = [rod 7 0.4 ⟨1, 0, 0, 0⟩, rod 9 0.6 o] := by simp [all, List.range_succ, rods]

theorem rods_mem {o : Quat} (ho : Upright o) {b : Sylinder} (h : b ∈ all 2 (rods o)) :
    ∃ x o', Upright o' ∧ (b = rod 7 x o' ∧ x = 0.4 ∨ b = rod 9 x o' ∧ x = 0.6) := by
  rw [rods_all] at h
  simp only [List.mem_cons, List.not_mem_nil, or_false] at h
  rcases h with rfl | rfl
  · exact ⟨_, _, .inl rfl, .inl ⟨rfl, rfl⟩⟩
  · exact ⟨_, _, ho, .inr ⟨rfl, rfl⟩⟩

theorem rod_sized {C : Sim.Cfg} (k1 : C.place.diameterColRatio = 1) (k2 : C.place.lengthColRatio = 1) (k3 : C.place.colBuf = 0.5) (g : ℤ) (x : ℝ) (o : Quat) :
    sized C (rod g x o) = rod g x o := by
  unfold sized
  rw [k1, k2, k3]
  simp [rod, Sylinder.make]

theorem rod_body {o : Quat} (ho : Upright o) (g : ℤ) (x : ℝ) : Collide.Body (rod g x o) := by
  refine ⟨⟨?_, ?_, ?_⟩, ?_, ?_, ?_, fun h => absurd h (rod_long g x o)⟩
  · show (0 : ℝ) < 0.09
    norm_num
  · show (0 : ℝ) ≤ 0.4
    norm_num
  · obtain ⟨z, e1, e2⟩ := rod_direction ho g x
    show V3.norm (rod g x o).direction = 1
    rw [e1, V3.norm, show V3.normSq (⟨0, 0, z⟩ : V3) = z ^ 2 by simp [V3.normSq, V3.dot]; ring, e2, Real.sqrt_one]
  · show (0 : ℝ) < 0.09
    norm_num
  · show (0 : ℝ) ≤ 0.4
    norm_num
  · show (0 : ℝ) ≤ 0.5
    norm_num

/-- They can be simulated. -/
theorem rods_sound {C : Sim.Cfg} (h : Sim.Sound C (fun _ => false) (fun _ => 0) (fun _ => 1) twoBalls) (hmono : C.place.monolayer = false ∧ C.mob.monolayer = false)
    (hn : C.place.g.n = 2) (hper : ∀ k, C.place.d.periodic k = false) (k1 : C.place.diameterColRatio = 1) (k2 : C.place.lengthColRatio = 1) (k3 : C.place.colBuf = 0.5) {o : Quat} (ho : Upright o)
    (hl : C.linkMap = []) : Sim.Sound C (fun _ => false) (fun _ => 0) (fun _ => 1) (rods o) := by
  refine ⟨h.place, .inl hmono, ?_, h.viscosity, h.dt, ?_, ?_, ?_, ?_, ?_, h.linkBox⟩
  · have e : Place.total (rods o) C.place.g.n = Place.total twoBalls C.place.g.n := Place.total_congr _ fun r hr => by
      unfold rods twoBalls
      split_ifs <;> rfl
    exact h.enough.trans_eq e.symm
  · intro b hb
    rw [hn] at hb
    obtain ⟨x, o', ho', ⟨rfl, -⟩ | ⟨rfl, -⟩⟩ := rods_mem ho hb
    all_goals
      refine ⟨?_, ?_, rod_unit ho'⟩
      · show (0 : ℝ) < 0.09
        norm_num
      · show (0 : ℝ) ≤ 0.4
        norm_num
  · intro b hb
    rw [hn] at hb
    obtain ⟨x, o', ho', ⟨rfl, -⟩ | ⟨rfl, -⟩⟩ := rods_mem ho hb
    all_goals
      rw [rod_sized k1 k2 k3]
      exact rod_body ho' _ _
  · refine ⟨h.fdps.1, h.fdps.2, h.fdps.3, fun k hk => ?_, fun hk => ?_⟩
    · rw [hper k] at hk
      simp at hk
    · rw [hper 0] at hk
      simp at hk
  · obtain ⟨R, r1, r2, r3⟩ := h.largest
    have hR : 0.09 ≤ R := by
      have := (r1 (NoOverlap.ball 7 0 0.4) (by rw [hn, twoBalls_all]; simp)).2
      exact this
    refine ⟨R, ?_, r2, r3⟩
    intro b hb
    rw [hn] at hb
    obtain ⟨x, o', ho', ⟨rfl, -⟩ | ⟨rfl, -⟩⟩ := rods_mem ho hb
    all_goals
      rw [rod_sized k1 k2 k3, rod_rad]
      exact ⟨hR, hR⟩
  · rw [hl]
    intro l hl
    cases hl

theorem rod_core {g : ℤ} {x : ℝ} {o : Quat} (ho : Upright o) {P : V3} (h : Spec.Near.Core (EP.copyFromFP (rod g x o)) P) : P.x = x := by
  rcases h with ⟨h, -⟩ | ⟨-, t, -, rfl⟩
  · exact absurd h (rod_long g x o)
  · obtain ⟨z, e, -⟩ := rod_direction ho g x
    have e' : (EP.copyFromFP (rod g x o)).direction = ⟨0, 0, z⟩ := e
    rw [e']
    show x + t * 0 = x
    ring

theorem norm_far {v : V3} {a : ℝ} (ha : a ≤ |v.x|) : a ≤ V3.norm v := by
  refine ha.trans ?_
  rw [V3.norm]
  refine Real.abs_le_sqrt ?_
  simp only [V3.normSq, V3.dot]
  nlinarith [mul_self_nonneg v.y, mul_self_nonneg v.z]

/-- They violate no constraint. -/
theorem rods_calm {C : Sim.Cfg} (hn : C.place.g.n = 2) (hper : ∀ k, C.place.d.periodic k = false) (hb : C.bounds = []) (hl : C.linkMap = []) {o : Quat} (ho : Upright o) :
    Calm C (all C.place.g.n (rods o)) := by
  rw [hn]
  refine ⟨?_, ?_, ?_, ?_⟩
  · intro b hb k
    obtain ⟨x, hx, hbp⟩ : ∃ x : ℝ, |x| ≤ 1 ∧ b.pos = ⟨x, 0.5, 0.5⟩ := by
      obtain ⟨x, o', ho', ⟨rfl, rfl⟩ | ⟨rfl, rfl⟩⟩ := rods_mem ho hb
      · exact ⟨_, by norm_num, rfl⟩
      · exact ⟨_, by norm_num, rfl⟩
    rw [hbp]
    refine lt_of_le_of_lt ?_ (by norm_num [Stats.largeFloat] : (1 : ℝ) < Stats.largeFloat)
    fin_cases k
    · exact hx
    · show |(0.5 : ℝ)| ≤ 1
      norm_num
    · show |(0.5 : ℝ)| ≤ 1
      norm_num
  · intro x hx y hy hg m h0 h1 h2 P Q hP hQ
    have hm : away C m = 0 := by
      unfold away
      rw [h0 (hper 0), h1 (hper 1), h2 (hper 2)]
      ext <;> simp
    rw [hm]
    obtain ⟨p, o1, ho1, hx⟩ := rods_mem ho hx
    obtain ⟨p', o2, ho2, hy⟩ := rods_mem ho hy
    have hsep : ∀ {g g' : ℤ} {p p' : ℝ}, Spec.Near.Core (EP.copyFromFP (rod g p o1)) P → Spec.Near.Core (EP.copyFromFP (rod g' p' o2)) Q → |p - p'| = 0.2 →
        Spec.Near.Rad (EP.copyFromFP (rod g p o1)) + Spec.Near.Rad (EP.copyFromFP (rod g' p' o2)) ≤ (P - (Q + 0)).norm := by
      intro g g' p p' hP hQ hd
      rw [rod_rad, rod_rad]
      refine norm_far ?_
      have e : (P - (Q + 0)).x = p - p' := by
        simp only [V3.sub_x, V3.add_x, V3.zero_x, rod_core ho1 hP, rod_core ho2 hQ]
        ring
      rw [e, hd]
      norm_num
    obtain ⟨rfl, rfl⟩ | ⟨rfl, rfl⟩ := hx <;> obtain ⟨rfl, rfl⟩ | ⟨rfl, rfl⟩ := hy
    · exact absurd rfl hg
    · exact hsep hP hQ (by norm_num [abs_of_nonneg, abs_of_nonpos])
    · exact hsep hP hQ (by norm_num [abs_of_nonneg, abs_of_nonpos])
    · exact absurd rfl hg
  · rw [hb]
    intro b hb
    cases hb
  · rw [hl]
    intro b hb
    cases hb

/-- A step with the rods. -/
theorem rods_step {C : Sim.Cfg} {c : Place.Cfg} (hC : C = { Momentum.linkedCfg c with linkMap := [] }) (h0 : Sim.Sound C (fun _ => false) (fun _ => 0) (fun _ => 1) twoBalls)
    (hmono : C.place.monolayer = false ∧ C.mob.monolayer = false) (hn : C.place.g.n = 2) (hper : ∀ k, C.place.d.periodic k = false)
    (k1 : C.place.diameterColRatio = 1) (k2 : C.place.lengthColRatio = 1) (k3 : C.place.colBuf = 0.5) (D : Draws) {o : Quat} (ho : Upright o) :
    Sim.Sound C (fun _ => false) (fun _ => 0) (fun _ => 1) (rods o) ∧ ∃ (s1 s2 : Place.Sys) (q : Place.Sys) (ranks : List RankIn) (out : Out) (s' : Sim.State),
      Place.DecomposeDomain C.place (Place.plain C.place) ⟨⟨true, fun _ => C.place.root⟩, rods o⟩ s1 ∧ Place.ExchangeSylinder C.place (Place.plain C.place) s1 s2 ∧
      Sim.Step C id false ⟨s2, Links.Dir.empty, 0⟩ q ranks out s' ∧ Sim.Converged C id out 0 ∧ (∀ p ∈ out.pools, ∀ b ∈ p.flatten, b.gamma = 0) ∧
      ∀ rk ∈ ranks, rk.force = none ∧ rk.velPart = none := by
  have hl : C.linkMap = [] := by rw [hC]
  have h := rods_sound h0 hmono hn hper k1 k2 k3 ho hl
  have hb0 : C.bounds = [] := by rw [hC]; rfl
  have hch : C.ctl.choice ≠ 1 := by rw [hC]; simp [Momentum.linkedCfg, twoBallsCfg]
  have hres : 0 < C.ctl.res := by rw [hC]; show (0 : ℝ) < 1 / 10 ^ 5; norm_num
  have hcold : C.mob.KBT ≤ 0 := by rw [hC]; exact le_refl (0 : ℝ)
  have hcalm : Calm C (all C.place.g.n (rods o)) := rods_calm hn hper hb0 hl ho
  obtain ⟨s1, s2, d1, d2⟩ := (C83_progress C.place _ _ _ h.place (rods o) h.enough).1 (fun _ => C.place.root) _ _ (Place.plain_valid _) (Place.plain_valid _)
  have hrun : Sim.Run (Sim.Ok (fun _ => false) (fun _ => 0) (fun _ => 1)) id C (rods o) C (rods o) 0 ⟨s2, Links.Dir.empty, 0⟩ :=
    .start _ _ _ s1 s2 h (Place.plain_valid _) (Place.plain_valid _) d1 d2
  have h2 : (all C.place.g.n (rods o)).length = 2 := by rw [hn, rods_all]; rfl
  obtain ⟨q, ranks, out, s', hst, hf⟩ := Momentum.acts none h hn hper hb0 (by rw [hC]; rfl) hch hres (by
    intro l
    rw [hl]
    unfold linkPairs
    simp [Links.nexts]) h2 D hrun
  have hfree : C113_Free C (rods o) ranks := ⟨fun rk hrk => ⟨(hf rk hrk).1, (hf rk hrk).2.1⟩, by rw [h2]; norm_num, fun rk hrk => (hf rk hrk).2.2⟩
  have hq := hst.prepared h (Sim.run_inv hrun)
  obtain ⟨x, hx, hpq⟩ := hst.prepare
  obtain ⟨g1, g2, -⟩ := C113_step h hch hres hcold 0 _ hrun false q ranks out s' hst hfree (hcalm.congr fun b hb => by
    obtain ⟨u, hu, u1, u2, u3⟩ := prepare_pos h hmono.1 (Sim.run_inv hrun) hx hpq b hb
    obtain ⟨a, ha, a1, a2, a3⟩ := start_pos h (Place.plain_valid _) (Place.plain_valid _) d1 d2 u hu
    obtain ⟨r, hrn, hbr⟩ := mem_all.1 hb
    obtain ⟨w, hw⟩ := hq.fresh r hrn b hbr
    have hpu : u.pos = a.pos := comp_ext fun k => (a3 k).2 rfl (hcalm.finite a ha k)
    have hk : kind b = kind a := u1.trans a1
    have hk' := hk
    simp only [kind, Prod.mk.injEq] at hk'
    have hb1 : b.radiusCollision = b.radius := by
      rw [hw]
      show w.radius * C.place.diameterColRatio = w.radius
      rw [k1, mul_one]
    have hb2 : b.lengthCollision = b.length := by
      rw [hw]
      show w.length * C.place.lengthColRatio = w.length
      rw [k2, mul_one]
    have ha' : a.radiusCollision = a.radius ∧ a.lengthCollision = a.length := by
      rw [hn, rods_all] at ha
      simp only [List.mem_cons, List.not_mem_nil, or_false] at ha
      rcases ha with rfl | rfl <;> exact ⟨rfl, rfl⟩
    refine ⟨a, ha, ⟨hk, ?_, u2.trans a2, ?_, ?_⟩⟩
    · refine comp_ext fun k => ?_
      rw [(u3 k).2 rfl (by rw [hpu]; exact hcalm.finite a ha k), hpu]
    · rw [hb1, ha'.1, hk'.2.2.2.1]
    · rw [hb2, ha'.2, hk'.2.2.2.2])
  exact ⟨h, s1, s2, q, ranks, out, s', d1, d2, hst, g1, g2, hfree.none⟩

end Headless

/-- The hypotheses of C118 can be met: two upright rods side by side, and the same with the second one upside down. -/
example (D : Draws) : ∃ (C : Sim.Cfg) (S : ℤ → Bool) (P Q : ℕ → List Sylinder) (s s' t t' : Sim.State) (q q' : Place.Sys) (ranks ranks' : List RankIn) (out out' : Out) (U W U' W' : ℤ → V3),
    C.place.g.n = 2 ∧ S 7 = false ∧ S 9 = true ∧ ((all 2 P).map fun b => (b.gid, b.length, b.direction)) = [(7, 0.4, ⟨0, 0, 1⟩), (9, 0.4, ⟨0, 0, 1⟩)] ∧
    ((all 2 Q).map fun b => (b.gid, b.length, b.direction)) = [(7, 0.4, ⟨0, 0, 1⟩), (9, 0.4, ⟨0, 0, -1⟩)] ∧
    Sim.Sound C (fun _ => false) (fun _ => 0) (fun _ => 1) P ∧
    Sim.Sound C (fun _ => false) (fun _ => 0) (fun _ => 1) Q ∧ SamePhysics C C ∧ Unlinked S C ∧ TurnedOver S (all C.place.g.n s.sys.P) (all C.place.g.n t.sys.P) ∧
    Sim.Step C id false s q ranks out s' ∧ Sim.Step C id false t q' ranks' out' t' ∧ Sim.Converged C id out 0 ∧ Sim.Converged C id out' 0 ∧
    Long C (all C.place.g.n q.P) ∧
    Loads C.place.g.n q ranks (fun _ => (0, 0)) (fun _ => (0, 0)) ∧ Loads C.place.g.n q' ranks' (fun _ => (0, 0)) (fun _ => (0, 0)) ∧
    Velocities (all C.place.g.n s'.sys.P) U W ∧ Velocities (all C.place.g.n t'.sys.P) U' W' ∧
    TurnedOver S (all C.place.g.n q.P) (all C.place.g.n q'.P) ∧ ((constraints ranks).map forget).Perm ((constraints ranks').map forget) ∧
    C.mob.dt * ((all C.place.g.n q.P).map fun x => lag C.mob.viscosity x (U x.gid - U' x.gid, W x.gid - W' x.gid)).sum ≤
      (((constraints ranks).zip ((out.pools.flatMap fun p => p.flatten).map Block.gamma)).map fun x =>
        loose C.mob.dt C.ctl.res C.ctl.res |id (BCQP.dblEps * 100)| x.1 (x.1.delta0 + C.mob.dt * gapOf U W x.1) x.2).sum +
      (((constraints ranks').zip ((out'.pools.flatMap fun p => p.flatten).map Block.gamma)).map fun x =>
        loose C.mob.dt C.ctl.res C.ctl.res |id (BCQP.dblEps * 100)| x.1 (x.1.delta0 + C.mob.dt * gapOf U' W' x.1) x.2).sum := by
  obtain ⟨c, h, hn, hper, k1, k2, k3, k4, -⟩ := twoBalls_sound
  obtain ⟨C, hC⟩ : ∃ C, C = { Momentum.linkedCfg c with linkMap := [] } := ⟨_, rfl⟩
  have hn : C.place.g.n = 2 := by rw [hC]; exact hn
  have hper : ∀ k, C.place.d.periodic k = false := by rw [hC]; exact hper
  have hmono : C.place.monolayer = false ∧ C.mob.monolayer = false := by rw [hC]; exact ⟨k4, rfl⟩
  have k1 : C.place.diameterColRatio = 1 := by rw [hC]; exact k1
  have k2 : C.place.lengthColRatio = 1 := by rw [hC]; exact k2
  have k3 : C.place.colBuf = 0.5 := by rw [hC]; exact k3
  have h : Sim.Sound C (fun _ => false) (fun _ => 0) (fun _ => 1) twoBalls := by
    rw [hC]
    exact ⟨h.place, .inl ⟨k4, rfl⟩, h.enough, h.viscosity, h.dt, h.valid, h.body, h.fdps, h.largest, (by intro l hl; cases hl), h.linkBox⟩
  have hl : C.linkMap = [] := by rw [hC]
  obtain ⟨hP, s1, s2, q, ranks, out, s', a1, a2, a3, a4, a5, a6⟩ := Headless.rods_step hC h hmono hn hper k1 k2 k3 D (o := ⟨1, 0, 0, 0⟩) (.inl rfl)
  obtain ⟨hQ, t1, t2, q', ranks', out', t', b1, b2, b3, b4, b5, b6⟩ := Headless.rods_step hC h hmono hn hper k1 k2 k3 D (o := ⟨0, 1, 0, 0⟩) (.inr rfl)
  obtain ⟨S, hSS⟩ : ∃ S : ℤ → Bool, S = fun g => decide (g = 9) := ⟨_, rfl⟩
  have hS7 : S 7 = false := by rw [hSS]; rfl
  have hS9 : S 9 = true := by rw [hSS]; rfl
  have hb0 : C.bounds = [] := by rw [hC]; rfl
  have hfin : ∀ {o : Quat}, Headless.Upright o → ∀ b ∈ all C.place.g.n (Headless.rods o), ∀ k : Fin 3, (fun _ => false : Fin 3 → Bool) k = false → |Near.comp b.pos k| < Stats.largeFloat :=
    fun ho b hb k _ => (Headless.rods_calm hn hper hb0 hl ho).finite b hb k
  have hgive : TurnedOver S (all C.place.g.n (Headless.rods ⟨1, 0, 0, 0⟩)) (all C.place.g.n (Headless.rods ⟨0, 1, 0, 0⟩)) := by
    unfold TurnedOver
    rw [hn, Headless.rods_all, Headless.rods_all]
    refine List.Perm.of_eq ?_
    simp only [List.map_cons, List.map_nil, List.cons.injEq, and_true]
    constructor
    · unfold seenOver seen
      rw [show (Headless.rod 7 0.4 ⟨1, 0, 0, 0⟩).gid = 7 from rfl, hS7]
      rfl
    · unfold seenOver seen
      rw [show (Headless.rod 9 0.6 ⟨1, 0, 0, 0⟩).gid = 9 from rfl, hS9, (Headless.rod_up 9 0.6).1, (Headless.rod_up 9 0.6).2]
      refine Prod.ext rfl (Prod.ext rfl ?_)
      show -(⟨0, 0, 1⟩ : V3) = ⟨0, 0, -1⟩
      ext <;> simp
  obtain ⟨g1, g2, g3⟩ := C118_start hP hQ hgive (hfin (.inl rfl)) (hfin (.inr rfl)) _ _ _ _ _ _ s1 s2 t1 t2 (Place.plain_valid _) (Place.plain_valid _) (Place.plain_valid _) (Place.plain_valid _)
    a1 a2 b1 b2
  have hp : SamePhysics C C := ⟨⟨hmono, hmono⟩, rfl, rfl, rfl, rfl, List.Perm.refl _, List.Perm.refl _, rfl, rfl⟩
  have hU : Unlinked S C := by
    unfold Unlinked
    rw [hl]
    intro l hl
    cases hl
  have hrun : Sim.Run (Sim.Ok (fun _ => false) (fun _ => 0) (fun _ => 1)) id C (Headless.rods ⟨1, 0, 0, 0⟩) C (Headless.rods ⟨1, 0, 0, 0⟩) 0 ⟨s2, Links.Dir.empty, 0⟩ :=
    .start _ _ _ s1 s2 hP (Place.plain_valid _) (Place.plain_valid _) a1 a2
  have hrun' : Sim.Run (Sim.Ok (fun _ => false) (fun _ => 0) (fun _ => 1)) id C (Headless.rods ⟨0, 1, 0, 0⟩) C (Headless.rods ⟨0, 1, 0, 0⟩) 0 ⟨t2, Links.Dir.empty, 0⟩ :=
    .start _ _ _ t1 t2 hQ (Place.plain_valid _) (Place.plain_valid _) b1 b2
  have hid : ∀ o, ((all C.place.g.n (Headless.rods o)).map Sylinder.gid).Nodup := by
    intro o
    rw [hn, Headless.rods_all]
    show ([7, 9] : List ℤ).Nodup
    decide
  have h0 : ∀ i, at6 (([] : List ℝ)) i = (0, 0) := fun i => Prod.ext (V3.ext (by simp [at6]) (by simp [at6]) (by simp [at6])) (V3.ext (by simp [at6]) (by simp [at6]) (by simp [at6]))
  have hload : ∀ (n : ℕ) (q : Place.Sys) (ranks : List RankIn), (∀ rk ∈ ranks, rk.force = none ∧ rk.velPart = none) → Loads n q ranks (fun _ => (0, 0)) (fun _ => (0, 0)) := by
    intro n q ranks hf r rk i x hr _
    obtain ⟨e1, e2⟩ := hf rk (List.mem_of_getElem? hr)
    rw [e1, e2]
    exact ⟨h0 i, h0 i⟩
  have hvel : ∀ l : List Sylinder, (l.map Sylinder.gid).Nodup → ∃ U W, Velocities l U W := by
    intro l hl
    refine ⟨fun g => ((l.find? fun u => u.gid = g).map Sylinder.vel).getD 0, fun g => ((l.find? fun u => u.gid = g).map Sylinder.omega).getD 0, fun u hu => ?_⟩
    have hf : (l.find? fun v => v.gid = u.gid) = some u := by
      cases hf : l.find? (fun v => v.gid = u.gid) with
      | none => exact absurd (List.find?_eq_none.1 hf u hu) (by simp)
      | some v =>
        have hv1 := List.mem_of_find?_eq_some hf
        have hv2 := List.find?_some hf
        rw [List.inj_on_of_nodup_map hl hv1 hu (by simpa using hv2)]
    beta_reduce
    rw [hf]
    exact ⟨rfl, rfl⟩
  have hlow : ∀ out : Out, (∀ p ∈ out.pools, ∀ b ∈ p.flatten, b.gamma = 0) → ∀ p ∈ out.pools, ∀ b ∈ p.flatten, b.bilateral = true → id (-(10 : ℝ) ^ 8 + BCQP.dblEps * 100) ≤ b.gamma := by
    intro out hz p hp b hb _
    rw [hz p hp b hb]
    unfold BCQP.dblEps
    norm_num
  have hids : ∀ {P : ℕ → List Sylinder} {s s' : Sim.State} {q : Place.Sys} {ranks : List RankIn} {out : Out},
      Sim.Sound C (fun _ => false) (fun _ => 0) (fun _ => 1) P → Sim.Run (Sim.Ok (fun _ => false) (fun _ => 0) (fun _ => 1)) id C P C P 0 s → Sim.Step C id false s q ranks out s' →
      ((all C.place.g.n P).map Sylinder.gid).Nodup → ((all C.place.g.n s'.sys.P).map Sylinder.gid).Nodup := by
    intro P s s' q ranks out h hr hs hid
    have hi := Sim.step_inv hs h (hs.prepared h (Sim.run_inv hr))
    have := hi.kinds.map fun k => k.1
    simp only [List.map_map] at this
    exact this.nodup_iff.2 hid
  obtain ⟨U, W, hUV⟩ := hvel _ (hids hP hrun a3 (hid _))
  obtain ⟨U', W', hUV'⟩ := hvel _ (hids hQ hrun' b3 (hid _))
  have hfree : C.mob.sylinderFixed = false := by rw [hC]; rfl
  have hcold : C.mob.KBT ≤ 0 := by rw [hC]; exact le_refl (0 : ℝ)
  have hres : 0 ≤ C.ctl.res := by rw [hC]; show (0 : ℝ) ≤ 1 / 10 ^ 5; norm_num
  have hlong : Long C (all C.place.g.n q.P) := by
    intro a ha _
    have hq := a3.prepared hP (Sim.run_inv hrun)
    have hk := hq.kinds.mem_iff.1 (List.mem_map_of_mem ha)
    rw [hn, Headless.rods_all] at hk
    simp only [List.map_cons, List.map_nil, List.mem_cons, List.not_mem_nil, or_false] at hk
    have hlen : a.length = 0.4 := by
      rcases hk with hk | hk <;> simp only [kind, Prod.mk.injEq] at hk <;> exact hk.2.2.2.2
    rw [hlen, k2]
    norm_num [DCP.dblEps]
  obtain ⟨m1, m2⟩ := C118_constraints hP hQ hp hU (hid _) id id 0 0 _ _ hrun hrun' g1 g2 g3 false false q q' ranks ranks' out out' s' t' a3 b3 hlong
  refine ⟨C, S, _, _, _, s', _, t', q, q', ranks, ranks', out, out', U, W, U', W', hn, hS7, hS9, ?_, ?_, hP, hQ, hp, hU, g1, a3, b3, a4, b4, hlong,
    hload _ _ _ a6, hload _ _ _ b6, hUV, hUV', m1, m2,
    (C118_motion_partial hP hQ hp hU (hid _) id id 0 0 _ _ hrun hrun' g1 g2 g3 false false q q' ranks ranks' out out' s' t' a3 b3 hlong (Or.inr hcold) (Or.inr hcold) hfree
      hfree hres hres 0 0 a4 b4 (hlow _ a5) (hlow _ b5) (fun _ => (0, 0)) (fun _ => (0, 0)) (hload _ _ _ a6) (hload _ _ _ b6) U W U' W' hUV hUV').2⟩
  · rw [Headless.rods_all]
    simp only [List.map_cons, List.map_nil, (Headless.rod_up _ _).1]
    rfl
  · rw [Headless.rods_all]
    simp only [List.map_cons, List.map_nil, (Headless.rod_up _ _).1, (Headless.rod_up _ _).2]
    rfl

end Verif
