import Verif.Spec.Rest
import Verif.Lemmas.Layout
import Verif.Props.Sim
/-! For C113. -/
namespace Verif.Rest
open Domain Near Collector RunStep Mobility Collide Sim

variable {C C₀ : Sim.Cfg} {pbc : Fin 3 → Bool} {low high : Fin 3 → ℝ} {P₀ B : ℕ → List Sylinder}

/-- Equal in all that `Calm` is about. -/
structure Same (b a : Sylinder) : Prop where
  kind : Sim.kind b = Sim.kind a
  pos : b.pos = a.pos
  orientation : b.orientation = a.orientation
  radiusCollision : b.radiusCollision = a.radiusCollision
  lengthCollision : b.lengthCollision = a.lengthCollision

theorem Same.parts {a b : Sylinder} (h : Same b a) : b.gid = a.gid ∧ b.radius = a.radius ∧ b.length = a.length := by
  have := h.kind
  simp only [Sim.kind, Prod.mk.injEq] at this
  exact ⟨this.1, this.2.2.2.1, this.2.2.2.2⟩

theorem Same.direction {a b : Sylinder} (h : Same b a) : b.direction = a.direction := by
  unfold Sylinder.direction
  rw [h.orientation]

theorem Same.core {a b : Sylinder} (h : Same b a) (P : V3) : Spec.Near.Core (EP.copyFromFP b) P ↔ Spec.Near.Core (EP.copyFromFP a) P := by
  have e1 : (EP.copyFromFP b).pos = (EP.copyFromFP a).pos := h.pos
  have e2 : (EP.copyFromFP b).direction = (EP.copyFromFP a).direction := h.direction
  have e3 : (EP.copyFromFP b).radiusCollision = (EP.copyFromFP a).radiusCollision := h.radiusCollision
  have e4 : (EP.copyFromFP b).lengthCollision = (EP.copyFromFP a).lengthCollision := h.lengthCollision
  unfold Spec.Near.Core Spec.Near.Sphere
  rw [e1, e2, e3, e4]

theorem Same.rad {a b : Sylinder} (h : Same b a) : Spec.Near.Rad (EP.copyFromFP b) = Spec.Near.Rad (EP.copyFromFP a) ∧ Spec.BoundaryCol.Rad b = Spec.BoundaryCol.Rad a := by
  have e3 : (EP.copyFromFP b).radiusCollision = (EP.copyFromFP a).radiusCollision := h.radiusCollision
  have e4 : (EP.copyFromFP b).lengthCollision = (EP.copyFromFP a).lengthCollision := h.lengthCollision
  unfold Spec.Near.Rad Spec.Near.Sphere Spec.BoundaryCol.Rad Spec.BoundaryCol.Sphere
  rw [e3, e4, h.radiusCollision, h.lengthCollision]
  exact ⟨rfl, rfl⟩

theorem Same.ends {a b : Sylinder} (h : Same b a) (p : V3) : Spec.BoundaryCol.End b p ↔ Spec.BoundaryCol.End a p := by
  unfold Spec.BoundaryCol.End Spec.BoundaryCol.Sphere
  rw [h.radiusCollision, h.lengthCollision, h.pos, h.direction]

theorem Calm.congr {l l' : List Sylinder} (h : Calm C l) (hs : ∀ b ∈ l', ∃ a ∈ l, Same b a) : Calm C l' := by
  refine ⟨?_, ?_, ?_, ?_⟩
  · intro x hx k
    obtain ⟨a, ha, s⟩ := hs x hx
    rw [s.pos]
    exact h.finite a ha k
  · intro x hx y hy hg m h0 h1 h2 P Q hP hQ
    obtain ⟨a, ha, s⟩ := hs x hx
    obtain ⟨b, hb, t⟩ := hs y hy
    rw [s.rad.1, t.rad.1]
    exact h.pairs a ha b hb (by rw [← s.parts.1, ← t.parts.1]; exact hg) m h0 h1 h2 P Q ((s.core P).1 hP) ((t.core Q).1 hQ)
  · intro b hb
    obtain ⟨h1, h2⟩ := h.bounds b hb
    refine ⟨h1, fun x hx p hp => ?_⟩
    obtain ⟨a, ha, s⟩ := hs x hx
    rw [s.rad.2]
    exact h2 a ha p ((s.ends p).1 hp)
  · intro e he x hx z hz g1 g2 D hD
    obtain ⟨a, ha, s⟩ := hs x hx
    obtain ⟨b, hb, t⟩ := hs z hz
    have := h.links e he a ha b hb (by rw [← s.parts.1]; exact g1) (by rw [← t.parts.1]; exact g2) D (by rw [← s.pos, ← t.pos]; exact hD)
    unfold Spec.Springs.minusEnd Spec.Springs.plusEnd at this ⊢
    rw [s.pos, t.pos, s.direction, t.direction, s.parts.2.1, s.parts.2.2, t.parts.2.1, t.parts.2.2]
    exact this

/-- Giving a body its number changes nothing of this. -/
theorem same_index (b : Sylinder) (g : ℕ) : Same (withIndex b g) b := ⟨rfl, rfl, rfl, rfl, rfl⟩

theorem Calm.numbered {q : Place.Sys} (h : Calm C (all C.place.g.n q.P)) {r : ℕ} (hr : r < C.place.g.n) {x : Sylinder} (hx : x ∈ numbered C.place.g.n q.P r) :
    ∃ a ∈ all C.place.g.n q.P, Same x a := by
  obtain ⟨b, hb, g, rfl⟩ := numbered_mem _ _ _ _ hx
  exact ⟨b, mem_all.2 ⟨r, hr, hb⟩, same_index b g⟩

/-- The constraints of bodies that violate none. -/
theorem calm_blocks {q : Place.Sys} (hq : Sim.Prepared C P₀ q) (h : Sound C pbc low high P₀) (hcalm : Calm C (all C.place.g.n q.P)) (dir : Links.Dir EP) (order : List (ℤ × EP))
    (ho : order.Perm ((List.range C.place.g.n).flatMap fun r => Links.published (numbered C.place.g.n q.P r))) (X : ℕ → Force.RankExec EP)
    (hX : ∀ r < C.place.g.n, (X r).Valid C.F ((numbered C.place.g.n q.P r).map Collide.toEp)) {r : ℕ} (hr : r < C.place.g.n) (pool : Pool)
    (hc : Collects C q.dec.dom (numbered C.place.g.n q.P) (dir.buildIndex order) X r pool) (b : Block) (hb : b ∈ pool.flatten) :
    (b.bilateral = true → b.delta0 = 0) ∧ b.gamma = 0 ∧ 0 ≤ b.delta0 := by
  have hcalm' : Calm C (Layout.everyone C.place.g.n q.P) := hcalm.congr fun x hx => by
    obtain ⟨r, hr, hx⟩ := Layout.mem_everyone.1 hx
    exact hcalm.numbered hr hx
  have hev : ∀ r < C.place.g.n, ∀ x ∈ numbered C.place.g.n q.P r, x ∈ Layout.everyone C.place.g.n q.P := fun r hr x hx => Layout.mem_everyone.2 ⟨r, hr, hx⟩
  obtain ⟨L, blocks, news, h1, -, h3, -, h5⟩ := Layout.pool_exact hq h dir order ho X hX hr pool hc
  rcases List.mem_append.1 (h1.subset hb) with hb | hb
  · rcases List.mem_append.1 hb with hb | hb
    · obtain ⟨i, hi, rfl⟩ := List.getElem_of_mem hb
      have hi' : i < L.length := by rw [h3.length_eq]; exact hi
      obtain ⟨x, y, hx, hy, ho, hg, hrec⟩ := (List.forall₂_iff_get.1 h3).2 i hi' hi
      simp only [List.get_eq_getElem] at hrec hx hy ho
      generalize L[i] = p at hx hy ho
      obtain ⟨pi, o1, o2, m⟩ := p
      obtain ⟨i1, i2, i3, i4⟩ := ho
      obtain ⟨z, hz, rfl⟩ := Option.map_eq_some_iff.1 hy
      have hxm := List.mem_of_getElem? hx
      have hzm := List.mem_of_getElem? hz
      simp only at hg hxm hzm i1 i2 i3 i4
      have vx := (hq.body h hr hxm).valid
      have vz := (hq.body h i1 hzm).valid
      have vy : Spec.Near.Valid { EP.copyFromFP z with pos := z.pos + away C m } := ⟨vz.radius, vz.length, vz.direction⟩
      obtain ⟨P, Q, sep, S, hP, hQ, rfl, -, -, hcol⟩ := collide_spec (EP.copyFromFP x) _ vx vy
      have hrec : recorded (EP.copyFromFP x) { EP.copyFromFP z with pos := z.pos + away C m } = some blocks[i] := hrec
      unfold recorded at hrec
      rw [hcol, Option.getD_some] at hrec
      split_ifs at hrec with hlt
      rw [← Option.some.inj hrec]
      have hQ' : Spec.Near.Core (EP.copyFromFP z) (Q - away C m) := by
        rcases hQ with ⟨s1, rfl⟩ | ⟨s1, t, ht, rfl⟩
        · exact .inl ⟨s1, by show z.pos + away C m - away C m = z.pos; ext <;> simp⟩
        · refine .inr ⟨s1, t, ht, ?_⟩
          show z.pos + away C m + t • z.direction - away C m = z.pos + t • z.direction
          ext <;> simp <;> ring
      have key := hcalm'.pairs x (hev r hr x hxm) z (hev _ i1 z hzm) (by
        intro e
        have : x.gid < z.gid := hg
        omega) m i2 i3 i4 P _ hP hQ'
      have e : Q - away C m + away C m = Q := by ext <;> simp
      rw [e] at key
      have key : 0 ≤ V3.norm (P - Q) - (Spec.Near.Rad (EP.copyFromFP x) + Spec.Near.Rad { EP.copyFromFP z with pos := z.pos + away C m }) := by
        have : Spec.Near.Rad { EP.copyFromFP z with pos := z.pos + away C m } = Spec.Near.Rad (EP.copyFromFP z) := rfl
        rw [this]
        linarith
      refine ⟨fun hb => ?_, ?_, key⟩
      · simp [contact, Block.setStress] at hb
      · show (if _ < (0 : ℝ) then _ else (0 : ℝ)) = 0
        rw [if_neg (not_lt.2 key)]
    · obtain ⟨bd, hbd, hb⟩ := List.mem_flatMap.1 hb
      obtain ⟨x, hx, hb⟩ := List.mem_flatMap.1 hb
      obtain ⟨hv, hcl⟩ := hcalm'.bounds bd hbd
      have hbody := hq.body h hr hx
      have hcb : 0 ≤ C.place.colBuf := by
        obtain ⟨b0, -, hl⟩ := hq.like hr hx
        have := hbody.colBuf
        rw [hl.colBuf] at this
        exact this
      have hR : 0 < Spec.BoundaryCol.Rad x := by
        unfold Spec.BoundaryCol.Rad
        have h1 : 0 < x.radiusCollision := hbody.valid.radius
        have h2 : 0 ≤ x.lengthCollision := hbody.valid.length
        split <;> linarith
      obtain ⟨l, e1, e2, -⟩ := BoundaryCol.bodyBlocks_spec bd hv C.place.colBuf hcb x hbody.valid.radius (fun p hp => by
        obtain ⟨g1, g2⟩ := hcl x (hev r hr x hx) p hp
        exact ⟨g1, (hR.trans_le g2).ne'⟩)
      rw [e1, Option.getD_some] at hb
      obtain ⟨p, hp, -, hgood⟩ := e2 b hb
      refine ⟨fun hbl => ?_, hgood.guess.1, ?_⟩
      · rw [hgood.unilateral] at hbl; cases hbl
      · rw [hgood.value]
        linarith [(hcl x (hev r hr x hx) p hp).2]
  · obtain ⟨i, hi, rfl⟩ := List.getElem_of_mem hb
    have hi' : i < (linkPairs C.linkMap (numbered C.place.g.n q.P r)).length := by rw [h5.length_eq]; exact hi
    obtain ⟨e, hde, c, himg, hblk⟩ := (List.forall₂_iff_get.1 h5).2 i hi' hi
    simp only [List.get_eq_getElem] at hde himg hblk
    have hpm := List.getElem_mem hi'
    generalize (linkPairs C.linkMap (numbered C.place.g.n q.P r))[i] = p at hde himg hblk hpm
    obtain ⟨x, hx, hp⟩ := List.mem_flatMap.1 hpm
    obtain ⟨g, hg, rfl⟩ := List.mem_map.1 hp
    obtain ⟨l, hl, rfl⟩ := List.mem_map.1 hg
    rw [List.mem_filter] at hl
    obtain ⟨hl, hlg⟩ := hl
    have hlg : l.1 = x.gid := by simpa using hlg
    obtain ⟨r', hr', z, hz, hzg, hd⟩ := dir_spec hq h dir order ho l hl
    simp only at hde himg hblk
    rw [hd] at hde
    cases hde
    have hbox : ∀ k, C.link.pbc k = true → C.link.low k < C.link.high k := by
      rw [h.linkBox.1, h.linkBox.2.1, h.linkBox.2.2]
      exact h.place.periodic
    obtain ⟨c', -, hn, huniq⟩ := image_spec C.link hbox x.pos z.pos (fun k hk => hq.inside h hr hx k hk)
    obtain rfl := huniq c himg
    have e : z.pos + (c - z.pos) = c := by ext <;> simp
    have key := hcalm'.links l hl x (hev r hr x hx) z (hev r' hr' z hz) hlg.symm hzg (c - z.pos) (by rw [e]; exact hn)
    have hn0 : V3.norm (c - (0.5 * z.length) • z.direction - (x.pos + (0.5 * x.length) • x.direction)) = x.radius + z.radius + C.link.linkGap := by
      rw [← key]
      unfold Spec.Springs.minusEnd Spec.Springs.plusEnd
      rw [e]
      norm_num
      congr 1
      ext <;> simp <;> ring
    unfold Links.block at hblk
    simp only at hblk
    obtain ⟨S, -, hb⟩ := Option.map_eq_some_iff.1 hblk
    have hd0 : (news[i]).delta0 = 0 := by
      rw [← hb]
      show V3.norm (c - (0.5 * z.length) • z.direction - (x.pos + (0.5 * x.length) • x.direction)) - x.radius - z.radius - C.link.linkGap = 0
      rw [hn0]
      ring
    refine ⟨fun _ => hd0, ?_, hd0.ge⟩
    have hgam : (news[i]).gamma = if (news[i]).delta0 < 0 then -(news[i]).delta0 else 0 := by
      rw [← hb]
      rfl
    rw [hgam, hd0]
    simp

end Verif.Rest
