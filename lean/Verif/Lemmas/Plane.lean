import Verif.Lemmas.Motion
import Verif.Spec.Layer
/-! Forces and velocities in the plane of a monolayer. -/
namespace Verif.Sim
open Domain Near Collector RunStep Mobility Spec.Momentum Momentum
open Spec.Collector (vsum force torque unitForce unitTorque)

open BoundaryCol in
theorem Perpendicular.delta {z : ℝ} {b : Bound} (h : Perpendicular z b) {p proj delta : V3} (hp : p.z = z) (hd : b.project p = some (proj, delta)) : delta.z = 0 := by
  have hn : ∀ v : V3, v.z = 0 → v.normalized.z = 0 := by
    intro v hv
    unfold V3.normalized
    split_ifs
    · simp [hv]
    · exact hv
  cases b with
  | sphere b =>
    have hz : (p - b.center).z = 0 := by rw [V3.sub_z, hp, show b.center.z = z from h]; ring
    simp only [Bound.project, Boundary.SphereShell.project] at hd
    split_ifs at hd
    all_goals
      simp only [Option.some.injEq, Prod.mk.injEq] at hd
      rw [← hd.2]
      simp only [V3.sub_z, V3.smul_z, V3.neg_z] at hz ⊢
      rw [hz]
      ring
  | wall b =>
    have hz : b.norm.z = 0 := h
    simp only [Bound.project, Boundary.Wall.project, Option.some.injEq, Prod.mk.injEq] at hd
    rw [← hd.2]
    split_ifs <;> simp [hz]
  | tube b =>
    have hz : (p - (b.center + V3.dot (p - b.center) b.axis • b.axis)).z = 0 := by
      rcases h with ⟨h1, h2, h3⟩ | ⟨h1, h2⟩
      · have h4 : b.axis.z * b.axis.z = 1 := by
          have := V3.norm_sq b.axis
          rw [h3] at this
          simp only [V3.normSq, V3.dot, h1, h2] at this
          linarith
        simp only [V3.sub_z, V3.add_z, V3.smul_z, V3.dot, h1, h2, V3.sub_x, V3.sub_y]
        linear_combination -(p.z - b.center.z) * h4
      · simp only [V3.sub_z, V3.add_z, V3.smul_z, h1, h2, hp]
        ring
    have hz' := hn _ hz
    simp only [Bound.project, Boundary.Tube.project, Option.some.injEq, Prod.mk.injEq] at hd
    have key : (p - (b.center + V3.dot (p - b.center) b.axis • b.axis + b.radius • (p - (b.center + V3.dot (p - b.center) b.axis • b.axis)).normalized)).z = 0 := by
      rw [V3.sub_z, V3.add_z, V3.smul_z, hz']
      rw [V3.sub_z] at hz
      linarith
    rw [← hd.2]
    split_ifs
    all_goals first | exact key | (rw [V3.neg_z, key]; ring)

open BoundaryCol in
theorem bodyBlocks_plane {z : ℝ} {b : Bound} (hb : Perpendicular z b) (colBuf : ℝ) (sy : Sylinder) (h1 : sy.pos.z = z) (h2 : sy.direction.z = 0) (l : List Block)
    (h : bodyBlocks b colBuf sy = some l) : ∀ blk ∈ l, blk.normI.z = 0 ∧ blk.posI.z = 0 := by
  have hend : ∀ query radius l, query.z = z → checkEnd b colBuf sy query radius = some l → ∀ blk ∈ l, blk.normI.z = 0 ∧ blk.posI.z = 0 := by
    intro query radius l hqz h blk hbl
    unfold checkEnd at h
    split at h
    · cases h; cases hbl
    · rename_i proj delta hpr
      have hd := hb.delta hqz hpr
      dsimp only at h
      have key : ((1 / delta.norm) • delta).z = 0 ∧ (query - sy.pos).z = 0 := by
        constructor
        · rw [V3.smul_z, hd, mul_zero]
        · rw [V3.sub_z, hqz, h1, sub_self]
      split_ifs at h
      · cases h
        rw [List.mem_singleton] at hbl
        subst hbl
        exact key
      · cases h
        rw [List.mem_singleton] at hbl
        subst hbl
        exact key
      · cases h; cases hbl
  have h2' : (sy.orientation.rot ⟨0, 0, 1⟩).z = 0 := h2
  unfold bodyBlocks at h
  split_ifs at h
  · exact hend _ _ _ h1 h
  · simp only [Option.bind_eq_some_iff, Option.some.injEq] at h
    obtain ⟨l1, e1, l2, e2, rfl⟩ := h
    intro blk hbl
    rcases List.mem_append.1 hbl with hbl | hbl
    · exact hend _ _ _ (by rw [V3.sub_z, V3.smul_z, h2', h1]; ring) e1 blk hbl
    · exact hend _ _ _ (by rw [V3.add_z, V3.smul_z, h2', h1]; ring) e2 blk hbl

/-- Points at the same height: the normal between them is horizontal. -/
theorem normal_plane {a b n : V3} (h : a - b = (a - b).norm • n) (h0 : a = b → n = 0) (hz : a.z = b.z) : n.z = 0 := by
  by_cases hab : a = b
  · rw [h0 hab]; rfl
  · have h1 : (a - b).norm ≠ 0 := fun h1 => by
      apply hab
      have h2 := h
      rw [h1] at h2
      have hx := congrArg V3.x h2
      have hy := congrArg V3.y h2
      rw [V3.sub_x, V3.smul_x] at hx
      rw [V3.sub_y, V3.smul_y] at hy
      exact V3.ext (by linarith) (by linarith) hz
    have h2 := congrArg V3.z h
    rw [V3.sub_z, hz, sub_self, V3.smul_z] at h2
    rcases mul_eq_zero.1 h2.symm with h3 | h3
    · exact absurd h3 h1
    · exact h3

section
variable {C : Sim.Cfg} {pbc : Fin 3 → Bool} {low high : Fin 3 → ℝ} {P₀ : ℕ → List Sylinder} {fl : ℝ → ℝ} {pre : Bool} {s s' : State} {q : Place.Sys}
  {ranks : List RankIn} {out : Out}

theorem core_plane {x : EP} {p : V3} (h : Spec.Near.Core x p) (hd : x.direction.z = 0) : p.z = x.pos.z := by
  rcases h with ⟨-, rfl⟩ | ⟨-, t, -, rfl⟩
  · rfl
  · rw [V3.add_z, V3.smul_z, hd, mul_zero, add_zero]

/-- When all bodies are in the plane, so are the constraints. -/
theorem constraints_plane (hs : Step C fl pre s q ranks out s') (h : Sound C pbc low high P₀) (hq : Sim.Prepared C P₀ q) (hz : pbc 2 = false)
    (hbd : ∀ b ∈ C.bounds, Perpendicular C.place.monoZ b) (hin : ∀ r < C.place.g.n, ∀ x ∈ numbered C.place.g.n q.P r, InPlane C x) :
    ∀ b ∈ constraints ranks, (b.normI.z = 0 ∧ b.posI.z = 0) ∧ (b.oneSide = false → b.normJ.z = 0 ∧ b.posJ.z = 0) := by
  intro b hb
  obtain ⟨rk, hrk, hb⟩ := List.mem_flatMap.1 hb
  obtain ⟨r, hr, hr'⟩ := List.getElem_of_mem hrk
  have hr1 : ranks[r]? = some rk := by rw [← hr']; exact List.getElem?_eq_getElem hr
  have hrn : r < C.place.g.n := by rw [← hs.size]; exact hr
  obtain ⟨order, ho, hdir⟩ := hs.publish
  obtain ⟨X, hX, hcol⟩ := hs.collect
  have hcr := hcol r rk hr1
  rw [hdir] at hcr
  obtain ⟨L, blocks, bs, news, hperm, -, hcon, -, hbs, hsch, hlinks⟩ := pool_parts hq h s.dir order ho X hX hrn rk.pool hcr
  rcases List.mem_append.1 (hperm.mem_iff.1 hb) with hb | hb
  · rcases List.mem_append.1 hb with hb | hb
    · obtain ⟨k, hk, rfl⟩ := List.getElem_of_mem hb
      obtain ⟨hlen, hf⟩ := List.forall₂_iff_get.1 hcon
      obtain ⟨x, y, hx, hy, himg, -, hc, -⟩ := hf k (by omega) hk
      simp only [List.get_eq_getElem] at hx hy himg hc
      generalize blocks[k] = b at *
      generalize L[k] = o at *
      obtain ⟨i, r', j, m⟩ := o
      obtain ⟨z, hzz, rfl⟩ := Option.map_eq_some_iff.1 hy
      obtain ⟨x1, x2⟩ := hin r hrn x (List.mem_of_getElem? hx)
      obtain ⟨z1, z2⟩ := hin r' himg.1 z (List.mem_of_getElem? hzz)
      have hm : m.z = 0 := himg.2.2.2 (by rw [h.place.extent.2.1 2]; exact hz)
      have l1 : b.labI.z = C.place.monoZ := (core_plane hc.axes.1 x2).trans x1
      have l2 : b.labJ.z = C.place.monoZ := by
        refine (core_plane hc.axes.2 z2).trans ?_
        show z.pos.z + m.z * _ = _
        rw [hm, z1]
        simp
      have hn : b.normI.z = 0 := normal_plane hc.normals.2 hc.unit.2 (l1.trans l2.symm)
      refine ⟨⟨hn, ?_⟩, fun _ => ⟨?_, ?_⟩⟩
      · have := congrArg V3.z hc.arms.1
        rw [V3.add_z, l1, show (EP.copyFromFP x).pos.z = C.place.monoZ from x1] at this
        linarith
      · rw [hc.normals.1, V3.neg_z, hn, neg_zero]
      · have := congrArg V3.z hc.arms.2
        rw [V3.add_z, l2] at this
        have e : z.pos.z + m.z * (C.place.d.high 2 - C.place.d.low 2) + b.posJ.z = C.place.monoZ := this
        rw [hm, z1] at e
        simp at e
        exact e
    · obtain ⟨e, he, hb⟩ := List.mem_flatMap.1 hb
      obtain ⟨y, hy, hb⟩ := List.mem_flatMap.1 hb
      cases hbb : BoundaryCol.bodyBlocks e.1 C.place.colBuf y.2 with
      | none => rw [hbb] at hb; cases hb
      | some l =>
      rw [hbb] at hb
      obtain ⟨-, -, e3, e4⟩ := bodyBlocks_plain _ _ _ _ hbb b hb
      have hym : y.2 ∈ numbered C.place.g.n q.P r := (hsch e he).mem_iff.1 (List.mem_map_of_mem hy)
      have hbe : e.1 ∈ C.bounds := by rw [← hbs]; exact List.mem_map_of_mem he
      obtain ⟨y1, y2⟩ := hin r hrn _ hym
      exact ⟨bodyBlocks_plane (hbd _ hbe) _ _ y1 y2 _ hbb b hb, fun hone => by rw [e3] at hone; cases hone⟩
  · obtain ⟨k, hk, rfl⟩ := List.getElem_of_mem hb
    obtain ⟨hlen, hf⟩ := List.forall₂_iff_get.1 hlinks
    obtain ⟨e, hde, c, P, Q, hc, hP, hQ, -, -, h1, -, -, -, h2, h3, h4, h5, h6, h7, h8, h9, h10, -⟩ := hf k (by omega) hk
    simp only [List.get_eq_getElem] at hde hc hP hQ h1 h2 h3 h4 h5 h6 h7 h8 h9 h10
    have hp : (linkPairs C.linkMap (numbered C.place.g.n q.P r))[k]'(by omega) ∈ linkPairs C.linkMap (numbered C.place.g.n q.P r) := List.getElem_mem _
    generalize news[k] = b at *
    obtain ⟨I, hIm, hp⟩ := List.mem_flatMap.1 hp
    obtain ⟨g, hg, hp⟩ := List.mem_map.1 hp
    rw [← hp] at hde hc hP h2 h6
    obtain ⟨l, hl, hlg⟩ := List.mem_map.1 hg
    obtain ⟨r', hr', z, hzz, -, hd⟩ := dir_spec hq h s.dir order ho l (List.mem_filter.1 hl).1
    simp only at hde hc hP h2 h6
    rw [← hlg, hd] at hde
    cases hde
    obtain ⟨x1, x2⟩ := hin r hrn I hIm
    obtain ⟨z1, z2⟩ := hin r' hr' z hzz
    have hcz : c.z = C.place.monoZ := by
      have : Near.comp c 2 = Near.comp z.pos 2 := (hc 2).1 (by rw [h.linkBox.1]; exact hz)
      exact (show c.z = z.pos.z from this).trans z1
    have hPz : P.z = C.place.monoZ := by rw [hP, V3.add_z, V3.smul_z, x2, mul_zero, add_zero, x1]
    have hQz : Q.z = C.place.monoZ := by
      rw [hQ, V3.sub_z, V3.smul_z, show (EP.copyFromFP z).direction.z = 0 from z2, mul_zero, sub_zero, hcz]
    have hn : b.normI.z = 0 := normal_plane h9 h10.2 (hPz.trans hQz.symm)
    refine ⟨⟨hn, ?_⟩, fun _ => ⟨by rw [h8, V3.neg_z, hn, neg_zero], ?_⟩⟩
    · have := congrArg V3.z h6
      rw [V3.add_z, hPz, x1] at this
      linarith
    · have := congrArg V3.z h7
      rw [V3.add_z, hQz, hcz] at this
      linarith

/-- Their forces are in the plane, their torques perpendicular to it. -/
theorem loads_plane {cs : List (Block × ℝ)} (h : ∀ p ∈ cs, (p.1.normI.z = 0 ∧ p.1.posI.z = 0) ∧ (p.1.oneSide = false → p.1.normJ.z = 0 ∧ p.1.posJ.z = 0)) (g : ℤ) :
    (force cs g).z = 0 ∧ (torque cs g).x = 0 ∧ (torque cs g).y = 0 := by
  unfold force torque
  induction cs with
  | nil => exact ⟨rfl, rfl, rfl⟩
  | cons p cs ih =>
    obtain ⟨i1, i2, i3⟩ := ih fun p hp => h p (List.mem_cons_of_mem _ hp)
    obtain ⟨⟨a1, a2⟩, a3⟩ := h p List.mem_cons_self
    have key : (unitForce p.1 g).z = 0 ∧ (unitTorque p.1 g).x = 0 ∧ (unitTorque p.1 g).y = 0 := by
      unfold unitForce unitTorque
      have hc : ∀ a b : V3, a.z = 0 → b.z = 0 → (V3.cross a b).x = 0 ∧ (V3.cross a b).y = 0 := by
        intro a b ha hb
        rw [V3.cross_x, V3.cross_y, ha, hb]
        constructor <;> ring
      have c1 := hc _ _ a2 a1
      by_cases hj : p.1.oneSide = false ∧ p.1.globalIndexJ = g
      · obtain ⟨b1, b2⟩ := a3 hj.1
        have c2 := hc _ _ b2 b1
        rw [if_pos hj, if_pos hj]
        split_ifs
        · simp only [V3.add_z, V3.add_x, V3.add_y, a1, b1, c1.1, c1.2, c2.1, c2.2]
          norm_num
        · simp only [V3.add_z, V3.add_x, V3.add_y, b1, c2.1, c2.2]
          norm_num
      · rw [if_neg hj, if_neg hj]
        split_ifs
        · simp only [V3.add_z, V3.add_x, V3.add_y, a1, c1.1, c1.2]
          norm_num
        · simp
    simp only [List.map_cons, vsum, V3.add_z, V3.add_x, V3.add_y, V3.smul_z, V3.smul_x, V3.smul_y, i1, i2, i3, key.1, key.2.1, key.2.2]
    norm_num

/-- The mobility of a body in the plane. -/
theorem mob_plane {mu : ℝ} {b : Sylinder} {F V : V3 × V3} (h : MobOf mu b F V) (hd : b.direction.z = 0) (h1 : F.1.z = 0) (h2 : F.2.x = 0) (h3 : F.2.y = 0) :
    V.1.z = 0 ∧ V.2.x = 0 ∧ V.2.y = 0 := by
  rcases h with ⟨-, rfl⟩ | ⟨-, p, e, r, -, -, -, -, rfl⟩
  · exact ⟨rfl, rfl, rfl⟩
  · simp only [mobFun, V3.add_z, V3.smul_z, V3.sub_z, V3.smul_x, V3.smul_y, hd, h1, h2, h3]
    norm_num

/-- A turn about an axis perpendicular to the plane. -/
theorem turn_plane {q : Quat} {w : V3} {dt : ℝ} (hq : Spec.UnitQuat q) (h1 : w.x = 0) (h2 : w.y = 0) (h3 : (q.rot ⟨0, 0, 1⟩).z = 0) :
    ((Equatn.rotateEquatn q w dt).rot ⟨0, 0, 1⟩).z = 0 := by
  by_cases hn : w.norm < Equatn.fltEps
  · rw [C13_small _ _ _ hn]
    exact h3
  · rw [C13_rotation _ _ _ hq (not_lt.1 hn)]
    simp only [Spec.rodrigues, V3.add_z, V3.smul_z, V3.cross_z, V3.smul_x, V3.smul_y, V3.dot, h1, h2, h3]
    ring

/-- When all bodies are in the plane, a step keeps them there. -/
theorem step_plane (hs : Step C fl pre s q ranks out s') (h : Sound C pbc low high P₀) (hq : Sim.Prepared C P₀ q) (hm : C.mob.monolayer = true) (hz : pbc 2 = false)
    (hbd : ∀ b ∈ C.bounds, Perpendicular C.place.monoZ b) (hin : ∀ r < C.place.g.n, ∀ x ∈ numbered C.place.g.n q.P r, InPlane C x) :
    ∀ b ∈ all C.place.g.n s'.sys.P, InPlane C b ∧ b.vel.z = 0 ∧ b.omega.x = 0 ∧ b.omega.y = 0 := by
  intro u hu
  obtain ⟨r, hrn, hu⟩ := mem_all.1 hu
  obtain ⟨-, h1⟩ := step_bodies hs h hq
  obtain ⟨so, h2, -, h4, h5⟩ := h1 r hrn
  have hP : s'.sys.P r = so.moved := by rw [hs.moved]; simp only [after, h2]; rfl
  rw [hP] at hu
  obtain ⟨i, hi, rfl⟩ := List.getElem_of_mem hu
  have hlt : i < (numbered C.place.g.n q.P r).length := by rw [numbered_length _ _ _ hrn]; omega
  have hx := List.getElem?_eq_getElem hlt
  generalize (numbered C.place.g.n q.P r)[i] = x at hx
  obtain ⟨t, u, k1, k2, -, k4, k5, k6, k7⟩ := h5 i x hx
  have hu' : so.moved[i] = u := by rw [List.getElem?_eq_getElem hi] at k2; exact Option.some.inj k2
  rw [hu']
  obtain ⟨rk, g1, -, g2, -⟩ := hs.rank hrn
  have hx' := hx
  rw [← g2, List.getElem?_map] at hx'
  obtain ⟨⟨D, b⟩, hb, rfl⟩ := Option.map_eq_some_iff.1 hx'
  obtain ⟨fuel, hout⟩ := hs.run
  obtain ⟨so', t', m, v, bs, F, V, e1, e2, e3, e4, e5, e6⟩ := Motion.step_split (C.mobility pre) h.viscosity h.dt (h.cold pre) C.ctl fl fuel ranks (hs.ready h hq) hs.matrix hs.vector out hout
    r i rk D b g1 hb
  rw [h2] at e1
  cases e1
  rw [k1] at e2
  cases e2
  have hrk : rk ∈ ranks := List.mem_of_getElem? g1
  obtain ⟨v1, v2, v3⟩ := Motion.beforeSolve_plane (C.mobility pre) h.viscosity h.dt hm rk (C88_ok _ rk (hs.ready h hq rk hrk)) m v bs e3 i D b hb
  obtain ⟨mult, ⟨-, hap⟩, -⟩ := applies hs h hq
  obtain ⟨so', t', a1, a2, a3⟩ := hap r i rk D b g1 hb
  rw [h2] at a1
  cases a1
  rw [k1] at a2
  cases a2
  have hF : F = (force ((constraints ranks).zip mult) b.globalIndex, torque ((constraints ranks).zip mult) b.globalIndex) := by
    rw [e5] at a3
    have x1 := congrArg (fun p : V3 × V3 => p.1.x) a3
    have x2 := congrArg (fun p : V3 × V3 => p.1.y) a3
    have x3 := congrArg (fun p : V3 × V3 => p.1.z) a3
    have x4 := congrArg (fun p : V3 × V3 => p.2.x) a3
    have x5 := congrArg (fun p : V3 × V3 => p.2.y) a3
    have x6 := congrArg (fun p : V3 × V3 => p.2.z) a3
    simp only [Prod.fst_add, Prod.snd_add, V3.add_x, V3.add_y, V3.add_z, add_right_inj] at x1 x2 x3 x4 x5 x6
    exact Prod.ext (V3.ext x1 x2 x3) (V3.ext x4 x5 x6)
  have hcs := constraints_plane hs h hq hz hbd hin
  obtain ⟨f1, f2, f3⟩ := loads_plane (cs := (constraints ranks).zip mult) (fun p hp => hcs p.1 (List.of_mem_zip hp).1) b.globalIndex
  have hmem := List.mem_of_getElem? hx
  obtain ⟨p1, p2⟩ := hin r hrn b hmem
  have hun := hq.unit' hrn hmem
  obtain ⟨w1, w2, w3⟩ := mob_plane e4 p2 (by rw [hF]; exact f1) (by rw [hF]; exact f2) (by rw [hF]; exact f3)
  have t1 : t.vel.z = 0 := by
    have := congrArg (fun p : V3 × V3 => p.1.z) e6
    simp only [Prod.fst_add, V3.add_z, v1, w1, add_zero] at this
    exact this
  have t2 : t.omega.x = 0 := by
    have := congrArg (fun p : V3 × V3 => p.2.x) e6
    simp only [Prod.snd_add, V3.add_x, v2, w2, add_zero] at this
    exact this
  have t3 : t.omega.y = 0 := by
    have := congrArg (fun p : V3 × V3 => p.2.y) e6
    simp only [Prod.snd_add, V3.add_y, v3, w3, add_zero] at this
    exact this
  have p2' : (b.orientation.rot ⟨0, 0, 1⟩).z = 0 := p2
  rw [k7]
  split_ifs with hf
  · refine ⟨⟨by rw [k5]; exact p1, ?_⟩, t1, t2, t3⟩
    show (t.orientation.rot ⟨0, 0, 1⟩).z = 0
    rw [k6]
    exact p2'
  · refine ⟨⟨?_, ?_⟩, t1, t2, t3⟩
    · show (t.pos + C.mob.dt • t.vel).z = _
      rw [V3.add_z, V3.smul_z, t1, k5, p1]
      ring
    · show ((Equatn.rotateEquatn t.orientation t.omega C.mob.dt).rot ⟨0, 0, 1⟩).z = 0
      rw [k6]
      exact turn_plane hun t2 t3 p2'

end
end Verif.Sim
