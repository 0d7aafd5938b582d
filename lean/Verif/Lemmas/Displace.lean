import Verif.Spec.Displace
import Verif.Lemmas.Alike
/-! Lemmas for C114: what is computed for displaced bodies. -/
namespace Verif.Displace
open Verif.V3 Verif.Near Verif.Collector Verif.Sim Verif.Spec.Layout Verif.Spec.Resume Verif.Spec.Momentum Verif.Spec.Displace Image RunStep Layout

theorem add_sub_add (a b u : V3) : (a + u) - (b + u) = a - b := by ext <;> simp
theorem add_sub_right (a b u : V3) : (a + u) - b = (a - b) + u := by ext <;> simp <;> ring
theorem add_smul_right (a u : V3) (c : ℝ) (d : V3) : (a + u) + c • d = (a + c • d) + u := by ext <;> simp <;> ring

/-! ### contacts -/

theorem distPointSeg_tr (p a b u : V3) : DCP.distPointSeg (p + u) (a + u) (b + u) = ((DCP.distPointSeg p a b).1, (DCP.distPointSeg p a b).2 + u) := by
  unfold DCP.distPointSeg
  simp only [add_sub_add]
  split_ifs <;> simp only [add_sub_add, add_smul_right]

theorem query_tr (eps : ℝ) (P0 P1 Q0 Q1 u : V3) : DCP.query eps (P0 + u) (P1 + u) (Q0 + u) (Q1 + u) =
    (DCP.query eps P0 P1 Q0 Q1).map fun r => { r with Ploc := r.Ploc + u, Qloc := r.Qloc + u } := by
  have hc : DCP.coef (P0 + u) (P1 + u) (Q0 + u) (Q1 + u) = DCP.coef P0 P1 Q0 Q1 := by
    unfold DCP.coef
    simp only [add_sub_add]
  have hw : ∀ (s : ℝ) (A B : V3), (1 - s) • (A + u) + s • (B + u) = ((1 - s) • A + s • B) + u := by
    intro s A B
    ext <;> simp <;> ring
  unfold DCP.query
  rw [hc]
  cases DCP.parameters eps (DCP.coef P0 P1 Q0 Q1) with
  | none => rfl
  | some p =>
    simp only [Option.bind_eq_bind, Option.bind_some, Option.map_some, hw, add_sub_add]

theorem outer_tr (a b u F : V3) : outer (a + u) (-F) + outer (b + u) F = outer a (-F) + outer b F := by
  funext i j
  show comp (a + u) i * comp (-F) j + comp (b + u) i * comp F j = comp a i * comp (-F) j + comp b i * comp F j
  have h1 : ∀ a u : V3, comp (a + u) i = comp a i + comp u i := by intro a u; fin_cases i <;> simp [comp]
  have h2 : comp (-F) j = -comp F j := by fin_cases j <;> simp [comp]
  rw [h1, h1, h2]
  ring

theorem stress_tr (dI dJ cI cJ : V3) (hI hJ rI rJ rho : ℝ) (P Q u : V3) :
    collideStress dI dJ (cI + u) (cJ + u) hI hJ rI rJ rho (P + u) (Q + u) = collideStress dI dJ cI cJ hI hJ rI rJ rho P Q := by
  unfold collideStress
  simp only [add_sub_add, outer_tr]

/-- A body in the tree, displaced. -/
noncomputable def tr (u : V3) (e : EP) : EP := { e with pos := e.pos + u }

/-- A constraint, displaced. -/
noncomputable def trb (u : V3) (b : Block) : Block := { b with labI := b.labI + u, labJ := b.labJ + u }

theorem contact_tr (sep : ℝ) (I J : EP) (P Q u : V3) : contact sep (tr u I) (tr u J) (P + u) (Q + u) = trb u (contact sep I J P Q) := by
  unfold contact tr trb
  simp only [add_sub_add]

theorem reverse_tr (u : V3) (b : Block) : (trb u b).reverseIJ = trb u b.reverseIJ := rfl

theorem setStress_tr (u : V3) (b : Block) (s : Mat3) : (trb u b).setStress s = trb u (b.setStress s) := rfl

theorem tr_pos (u : V3) (e : EP) : (tr u e).pos = e.pos + u := rfl
theorem tr_direction (u : V3) (e : EP) : (tr u e).direction = e.direction := rfl
theorem tr_length (u : V3) (e : EP) : (tr u e).lengthCollision = e.lengthCollision := rfl
theorem tr_radius (u : V3) (e : EP) : (tr u e).radiusCollision = e.radiusCollision := rfl
theorem tr_colBuf (u : V3) (e : EP) : (tr u e).colBuf = e.colBuf := rfl
theorem tr_sphere (u : V3) (e : EP) : isSphere (tr u e) = isSphere e := rfl

theorem bind_tr (u : V3) (o : Option Mat3) (b : Block) : (o.bind fun s => some (some ((trb u b).setStress s))) =
    (o.bind fun s => some (some (b.setStress s))).map (Option.map (trb u)) := by
  cases o <;> rfl

theorem sp_sp_tr (u : V3) (I J : EP) : sp_sp (tr u I) (tr u J) = (sp_sp I J).map (Option.map (trb u)) := by
  unfold sp_sp
  simp only [tr_pos, tr_length, tr_radius, tr_colBuf, add_sub_add, contact_tr, stress_tr, Option.bind_eq_bind]
  split_ifs
  · exact bind_tr _ _ _
  · rfl

theorem sp_sy_tr (u : V3) (I J : EP) (rev : Bool) : sp_sy (tr u I) (tr u J) rev = (sp_sy I J rev).map (Option.map (trb u)) := by
  unfold sp_sy
  simp only [tr_pos, tr_length, tr_radius, tr_colBuf, tr_direction, add_sub_right, add_smul_right, distPointSeg_tr, contact_tr, stress_tr, Option.bind_eq_bind]
  split_ifs
  · rw [reverse_tr]; exact bind_tr _ _ _
  · exact bind_tr _ _ _
  · rfl

theorem sy_sy_tr (u : V3) (I J : EP) : sy_sy (tr u I) (tr u J) = (sy_sy I J).map (Option.map (trb u)) := by
  unfold sy_sy
  simp only [tr_pos, tr_length, tr_radius, tr_colBuf, tr_direction, add_sub_right, add_smul_right, query_tr]
  cases DCP.query DCP.dblEps (I.pos - (0.5 * I.lengthCollision) • I.direction) (I.pos + (0.5 * I.lengthCollision) • I.direction)
      (J.pos - (0.5 * J.lengthCollision) • J.direction) (J.pos + (0.5 * J.lengthCollision) • J.direction) with
  | none => rfl
  | some q =>
    simp only [Option.map_some, Option.bind_some, contact_tr, stress_tr, Option.bind_eq_bind]
    split_ifs
    · exact bind_tr _ _ _
    · rfl

theorem recorded_tr (u : V3) (I J : EP) : recorded (tr u I) (tr u J) = (recorded I J).map (trb u) := by
  have h : collide (tr u I) (tr u J) = (collide I J).map (Option.map (trb u)) := by
    unfold collide
    simp only [tr_sphere, sp_sp_tr, sp_sy_tr, sy_sy_tr]
    split <;> split <;> rfl
  unfold recorded
  rw [h]
  cases collide I J <;> rfl

theorem bare_trb (u : V3) (b : Block) : bare (trb u b) = bare b := rfl
theorem bare_forget (b : Block) : bare (forget b) = bare b := rfl

/-! ### bodies -/

/-- Periods of the box. -/
noncomputable def per (d : Stats.Domain) (m : Idx) : V3 := ⟨m.x * (d.high 0 - d.low 0), m.y * (d.high 1 - d.low 1), m.z * (d.high 2 - d.low 2)⟩

theorem shift_per (d : Stats.Domain) (m : Idx) (e : EP) : shift d m e = tr (per d m) e := rfl

/-- A body, displaced by `v` and the periods that belong to its id. -/
noncomputable def move (d : Stats.Domain) (v : V3) (n : ℤ → Idx) (w : View) : View := (w.1, w.2.1 + (v + per d (n w.1.1)), w.2.2)

/-- No periods along directions that are not periodic. -/
def Flat (d : Stats.Domain) (m : Idx) : Prop := (d.periodic 0 = false → m.x = 0) ∧ (d.periodic 1 = false → m.y = 0) ∧ (d.periodic 2 = false → m.z = 0)

/-- The key of a contact of displaced bodies. -/
def rekey (n : ℤ → Idx) (k : ℤ × ℤ × Idx) : ℤ × ℤ × Idx :=
  (k.1, k.2.1, ⟨k.2.2.x + (n k.1).x - (n k.2.1).x, k.2.2.y + (n k.1).y - (n k.2.1).y, k.2.2.z + (n k.1).z - (n k.2.1).z⟩)

def negate (n : ℤ → Idx) (g : ℤ) : Idx := ⟨-(n g).x, -(n g).y, -(n g).z⟩

theorem rekey_negate (n : ℤ → Idx) (k : ℤ × ℤ × Idx) : rekey n (rekey (negate n) k) = k := by
  obtain ⟨g, g', m⟩ := k
  simp only [rekey, negate, Prod.mk.injEq, true_and]
  ext <;> simp <;> ring

theorem rekey_inj (n : ℤ → Idx) : Function.Injective (rekey n) := by
  rintro ⟨g, g', m⟩ ⟨h, h', m'⟩ e
  simp only [rekey, Prod.mk.injEq, Idx.mk.injEq] at e
  obtain ⟨rfl, rfl, e1, e2, e3⟩ := e
  simp only [Prod.mk.injEq, true_and]
  ext <;> omega

theorem move_back (d : Stats.Domain) (v : V3) (n : ℤ → Idx) (w : View) : move d (-v) (negate n) (move d v n w) = w := by
  refine Prod.ext rfl (Prod.ext ?_ rfl)
  show w.2.1 + (v + per d (n w.1.1)) + (-v + per d (negate n w.1.1)) = w.2.1
  ext <;> simp [per, negate] <;> ring

/-- The contact of two displaced bodies. -/
theorem pair_move {c c' : Place.Cfg} {V V' : List View} (hc : c'.diameterColRatio = c.diameterColRatio ∧ c'.lengthColRatio = c.lengthColRatio ∧ c'.colBuf = c.colBuf ∧ c'.d = c.d)
    (v : V3) (n : ℤ → Idx) (hn : ∀ w ∈ V, Flat c.d (n w.1.1)) (hV : ∀ w ∈ V, move c.d v n w ∈ V') (k : ℤ × ℤ × Idx) (b : Block) (h : PairOf c V k b) :
    ∃ u, PairOf c' V' (rekey n k) (trb u b) := by
  obtain ⟨g, g', m⟩ := k
  obtain ⟨x, hx, y, hy, e1, e2, e3, e4, e5⟩ := h
  simp only at e1 e2 e3 e4 e5
  subst e1 e2
  have he : ∀ v, ep c' v = ep c v := by
    intro v
    unfold ep
    rw [hc.1, hc.2.1, hc.2.2.1]
  have hnx := hn x hx
  have hny := hn y hy
  refine ⟨v + per c.d (n x.1.1), move c.d v n x, hV x hx, move c.d v n y, hV y hy, rfl, rfl, e3, ?_, ?_⟩
  · rw [hc.2.2.2]
    refine ⟨fun h => ?_, fun h => ?_, fun h => ?_⟩
    · show m.x + (n x.1.1).x - (n y.1.1).x = 0
      rw [e4.1 h, hnx.1 h, hny.1 h]; rfl
    · show m.y + (n x.1.1).y - (n y.1.1).y = 0
      rw [e4.2.1 h, hnx.2.1 h, hny.2.1 h]; rfl
    · show m.z + (n x.1.1).z - (n y.1.1).z = 0
      rw [e4.2.2 h, hnx.2.2 h, hny.2.2 h]; rfl
  · rw [he, he, hc.2.2.2]
    have h1 : ep c (move c.d v n x) = tr (v + per c.d (n x.1.1)) (ep c x) := rfl
    have h2 : shift c.d (rekey n (x.1.1, y.1.1, m)).2.2 (ep c (move c.d v n y)) = tr (v + per c.d (n x.1.1)) (shift c.d m (ep c y)) := by
      unfold shift tr
      have hp : (ep c (move c.d v n y)).pos + per c.d (rekey n (x.1.1, y.1.1, m)).2.2 = (ep c y).pos + per c.d m + (v + per c.d (n x.1.1)) := by
        show y.2.1 + (v + per c.d (n y.1.1)) + per c.d _ = y.2.1 + per c.d m + (v + per c.d (n x.1.1))
        ext <;> simp [per, rekey] <;> ring
      have hp' := hp
      unfold per at hp'
      show EP.mk _ _ _ _ _ _ _ _ _ _ = EP.mk _ _ _ _ _ _ _ _ _ _
      congr 1
    rw [h1, h2, recorded_tr, e5]
    rfl

/-- What belongs to keys that are the same up to order, and to another name for each. -/
theorem perm_of_two {α α' β γ : Type*} {R : α → β → Prop} {R' : α' → β → Prop} {f : β → γ} {φ : α → α'} {k : List α} {k' : List α'} {l l' : List β}
    (hR : ∀ a ∈ k, ∀ b b', R a b → R' (φ a) b' → f b = f b') (h : List.Forall₂ R k l) (h' : List.Forall₂ R' k' l') (hk : (k.map φ).Perm k') : (l.map f).Perm (l'.map f) := by
  obtain ⟨m, h1, h2⟩ := List.perm_comp_forall₂ hk h'
  refine List.Perm.trans (List.Perm.of_eq ?_) (h2.map f)
  rw [List.forall₂_map_left_iff] at h1
  clear h' hk h2
  induction h generalizing m with
  | nil => cases h1; rfl
  | cons hab _ ih =>
    cases h1 with
    | cons h3 h4 =>
      rw [List.map_cons, List.map_cons, hR _ List.mem_cons_self _ _ hab h3, ih (fun a ha => hR a (List.mem_cons_of_mem _ ha)) _ h4]

/-! ### links -/

theorem sub_smul_right (a u d : V3) (c : ℝ) : (a + u) - c • d = (a - c • d) + u := by ext <;> simp <;> ring

theorem comp_add (a b : V3) (k : Fin 3) : Near.comp (a + b) k = Near.comp a k + Near.comp b k := by fin_cases k <;> simp [Near.comp]

/-- The image of a displaced body. -/
theorem image_move (cfg : Links.Cfg) (hbox : ∀ k, cfg.pbc k = true → cfg.low k < cfg.high k) {p x c x' c' : V3} (u : V3)
    (hp : ∀ k, cfg.pbc k = true → cfg.low k ≤ Near.comp p k ∧ Near.comp p k < cfg.high k) (hp' : ∀ k, cfg.pbc k = true → cfg.low k ≤ Near.comp (p + u) k ∧ Near.comp (p + u) k < cfg.high k)
    (h : Links.Image cfg p x c) (h' : Links.Image cfg (p + u) x' c')
    (hx : ∀ k, ∃ m : ℤ, (cfg.pbc k = false → m = 0) ∧ Near.comp x' k = Near.comp x k + Near.comp u k + m * (cfg.high k - cfg.low k)) : c' = c + u := by
  apply comp_ext
  intro k
  rw [comp_add]
  obtain ⟨m, hm, hxk⟩ := hx k
  have h1 := h k
  have h2 := h' k
  cases hk : cfg.pbc k with
  | false =>
    rw [hk] at h1 h2
    simp at h1 h2
    rw [h1, h2, hxk, hm hk]
    simp
  | true =>
    rw [hk] at h1 h2
    rw [if_pos rfl] at h1 h2
    obtain ⟨t1, ⟨f1, d1, g1, e1⟩, -⟩ := h1
    obtain ⟨t2, ⟨f2, d2, g2, e2⟩, -⟩ := h2
    have ht1 := (C05_wrap_fixed id _ _ _ (hp k hk).1 (hp k hk).2 t1).1 f1
    have ht2 := (C05_wrap_fixed id _ _ _ (hp' k hk).1 (hp' k hk).2 t2).1 f2
    subst ht1 ht2
    have hL : (0 : ℝ) < cfg.high k - cfg.low k := sub_pos.2 (hbox k hk)
    obtain ⟨a1, a2, i, a3⟩ := GeoUtil.find_spec (by simpa using hbox k hk) g1
    obtain ⟨b1, b2, j, b3⟩ := GeoUtil.find_spec (by simpa using hbox k hk) g2
    simp only [id, sub_zero] at a2 a3 b2 b3 e1 e2
    rw [hxk, comp_add] at b3
    have hd : d2 = d1 := by
      have e : d2 - d1 = ((j + m - i : ℤ) : ℝ) * (cfg.high k - cfg.low k) := by
        rw [a3, b3]; push_cast; ring
      have hz : j + m - i = 0 := by
        have l1 : -(1 : ℝ) < ((j + m - i : ℤ) : ℝ) := by
          by_contra hc
          push Not at hc
          nlinarith
        have l2 : ((j + m - i : ℤ) : ℝ) < 1 := by
          by_contra hc
          push Not at hc
          nlinarith
        have l1' : (-1 : ℤ) < j + m - i := by exact_mod_cast l1
        have l2' : j + m - i < (1 : ℤ) := by exact_mod_cast l2
        omega
      rw [hz] at e
      simp at e
      linarith
    rw [e1, e2, hd, comp_add]
    split_ifs <;> ring

theorem block_move (cfg : Links.Cfg) (x x' : Sylinder) (e e' : EP) (c u : V3) (hk : kind x' = kind x) (hd : x'.direction = x.direction) (hp : x'.pos = x.pos + u)
    (e1 : e'.gid = e.gid) (e2 : e'.radius = e.radius) (e3 : e'.length = e.length) (e4 : e'.direction = e.direction) :
    (Links.block cfg x' e' (c + u)).map bare = (Links.block cfg x e c).map bare := by
  simp only [kind, Prod.mk.injEq] at hk
  obtain ⟨x1, -, -, x2, x3⟩ := hk
  unfold Links.block
  simp only [x1, x2, x3, hd, hp, e1, e2, e3, e4, sub_smul_right, add_smul_right, add_sub_add, Option.map_map, stress_tr]
  rfl

theorem link_move {cfg : Links.Cfg} {c c' : Place.Cfg} {V V' : List View} (hc : c'.diameterColRatio = c.diameterColRatio ∧ c'.lengthColRatio = c.lengthColRatio ∧ c'.colBuf = c.colBuf ∧ c'.d = c.d)
    (hbox : ∀ k, cfg.pbc k = true → cfg.low k < cfg.high k) (hd : ∀ k, c.d.periodic k = cfg.pbc k) (hlh : ∀ k, cfg.pbc k = true → c.d.low k = cfg.low k ∧ c.d.high k = cfg.high k)
    (hV' : (V'.map fun v => v.1.1).Nodup)
    (v : V3) (n : ℤ → Idx) (hn : ∀ w ∈ V, Flat c.d (n w.1.1)) (hV : ∀ w ∈ V, move c.d v n w ∈ V') (w : View) (hw : w ∈ V) (g : ℤ)
    (hp : ∀ k, cfg.pbc k = true → cfg.low k ≤ Near.comp w.2.1 k ∧ Near.comp w.2.1 k < cfg.high k)
    (hp' : ∀ k, cfg.pbc k = true → cfg.low k ≤ Near.comp (move c.d v n w).2.1 k ∧ Near.comp (move c.d v n w).2.1 k < cfg.high k) (b b' : Block)
    (h : LinkOf cfg c V (w, g) b) (h' : LinkOf cfg c' V' (move c.d v n w, g) b') : bare b = bare b' := by
  obtain ⟨x, e, a, hx, ⟨y, hy, hg, he⟩, ⟨ctr, hct, hb⟩, rfl⟩ := h
  obtain ⟨x', e', a', hx', ⟨y', hy', hg', he'⟩, ⟨ctr', hct', hb'⟩, rfl⟩ := h'
  simp only at hx hg hx' hg'
  have hyy : y' = move c.d v n y := view_unique hV' hy' (hV y hy) (hg'.trans hg.symm)
  subst hyy
  have hpx : x.pos = w.2.1 := congrArg (fun v : View => v.2.1) hx
  have hpx' : x'.pos = w.2.1 + (v + per c.d (n w.1.1)) := congrArg (fun v : View => v.2.1) hx'
  have hpe : e.pos = y.2.1 := congrArg EP.pos he
  have hpe' : e'.pos = y.2.1 + (v + per c.d (n y.1.1)) := congrArg EP.pos he'
  have hpk : ∀ (m : Idx) (k : Fin 3), Flat c.d m → ∃ i : ℤ, (cfg.pbc k = false → i = 0) ∧ Near.comp (per c.d m) k = i * (cfg.high k - cfg.low k) := by
    intro m k hm
    have key : ∀ i : ℤ, (c.d.periodic k = false → i = 0) → (i : ℝ) * (c.d.high k - c.d.low k) = i * (cfg.high k - cfg.low k) := by
      intro i hi
      cases hk : cfg.pbc k with
      | true => rw [(hlh k hk).1, (hlh k hk).2]
      | false => rw [hi (by rw [hd]; exact hk)]; simp
    fin_cases k
    · exact ⟨m.x, fun h => hm.1 (by rw [hd]; exact h), by rw [← key m.x hm.1]; rfl⟩
    · exact ⟨m.y, fun h => hm.2.1 (by rw [hd]; exact h), by rw [← key m.y hm.2.1]; rfl⟩
    · exact ⟨m.z, fun h => hm.2.2 (by rw [hd]; exact h), by rw [← key m.z hm.2.2]; rfl⟩
  rw [hpx, hpe] at hct
  rw [hpx', hpe'] at hct'
  have hc2 : ctr' = ctr + (v + per c.d (n w.1.1)) := by
    refine image_move cfg hbox (v + per c.d (n w.1.1)) hp hp' hct hct' fun k => ?_
    obtain ⟨i, i1, i2⟩ := hpk _ k (hn y hy)
    obtain ⟨j, j1, j2⟩ := hpk _ k (hn w hw)
    refine ⟨i - j, fun h => by rw [i1 h, j1 h]; rfl, ?_⟩
    rw [comp_add, comp_add, comp_add, i2, j2]
    push_cast
    ring
  have f1 : e'.gid = e.gid := by
    have h1 : e.gid = y.1.1 := congrArg EP.gid he
    have h2 : e'.gid = y.1.1 := congrArg EP.gid he'
    rw [h1, h2]
  have f2 : e'.radius = e.radius := by
    have h1 : e.radius = y.1.2.2.2.1 := congrArg EP.radius he
    have h2 : e'.radius = y.1.2.2.2.1 := congrArg EP.radius he'
    rw [h1, h2]
  have f3 : e'.length = e.length := by
    have h1 : e.length = y.1.2.2.2.2 := congrArg EP.length he
    have h2 : e'.length = y.1.2.2.2.2 := congrArg EP.length he'
    rw [h1, h2]
  have f4 : e'.direction = e.direction := by
    have h1 : e.direction = y.2.2 := congrArg EP.direction he
    have h2 : e'.direction = y.2.2 := congrArg EP.direction he'
    rw [h1, h2]
  have g1 : kind x' = kind x := by
    have h1 : kind x = w.1 := congrArg Prod.fst hx
    have h2 : kind x' = w.1 := congrArg Prod.fst hx'
    rw [h1, h2]
  have g2 : x'.direction = x.direction := by
    have h1 : x.direction = w.2.2 := congrArg (fun v : View => v.2.2) hx
    have h2 : x'.direction = w.2.2 := congrArg (fun v : View => v.2.2) hx'
    rw [h1, h2]
  have := block_move cfg x x' e e' ctr (v + per c.d (n w.1.1)) g1 g2 (by rw [hpx, hpx']) f1 f2 f3 f4
  rw [← hc2, hb, hb'] at this
  exact (Option.some.inj this).symm

/-! ### boundaries -/

theorem carried_trans {u w : V3} {b b' b'' : BoundaryCol.Bound} (h : Carried u b b') (h' : Carried w b' b'') : Carried (u + w) b b'' := by
  intro p
  have e : p + (u + w) = (p + u) + w := by ext <;> simp <;> ring
  rw [e, h', h, Option.map_map]
  congr 1
  funext r
  exact Prod.ext (by show r.1 + u + w = r.1 + (u + w); ext <;> simp <;> ring) rfl

theorem carried_zero (b : BoundaryCol.Bound) : Carried 0 b b := by
  intro p
  have e : ∀ p : V3, p + 0 = p := by intro p; ext <;> simp
  simp only [e]
  cases b.project p <;> rfl

theorem carried_neg {u : V3} {b : BoundaryCol.Bound} (h : Carried u b b) : Carried (-u) b b := by
  intro p
  have e : p + -u + u = p := by ext <;> simp
  have h1 := h (p + -u)
  rw [e] at h1
  rw [h1, Option.map_map]
  cases b.project (p + -u) with
  | none => rfl
  | some r =>
    show some r = some (r.1 + u + -u, r.2)
    congr 1
    exact Prod.ext (by ext <;> simp) rfl

theorem carried_nsmul {u : V3} {b : BoundaryCol.Bound} (h : Carried u b b) (m : ℕ) : Carried ((m : ℝ) • u) b b := by
  induction m with
  | zero =>
    have e : ((0 : ℕ) : ℝ) • u = 0 := by ext <;> simp
    rw [e]
    exact carried_zero b
  | succ m ih =>
    have e : ((m + 1 : ℕ) : ℝ) • u = (m : ℝ) • u + u := by ext <;> simp <;> ring
    rw [e]
    exact carried_trans ih h

theorem carried_zsmul {u : V3} {b : BoundaryCol.Bound} (h : Carried u b b) (m : ℤ) : Carried ((m : ℝ) • u) b b := by
  obtain ⟨k, rfl | rfl⟩ := Int.eq_nat_or_neg m
  · exact_mod_cast carried_nsmul h k
  · have e : (((-(k : ℤ)) : ℤ) : ℝ) • u = -((k : ℝ) • u) := by ext <;> simp
    rw [e]
    exact carried_neg (carried_nsmul h k)

theorem carried_per {b : BoundaryCol.Bound} {d : Stats.Domain} {low high : Fin 3 → ℝ} {pbc : Fin 3 → Bool} (hd : ∀ k, d.periodic k = pbc k)
    (hlh : ∀ k, pbc k = true → d.low k = low k ∧ d.high k = high k) (h : ∀ k, pbc k = true → Carried (period low high k) b b) {m : Idx} (hm : Flat d m) : Carried (per d m) b b := by
  have key : ∀ (k : Fin 3) (i : ℤ), (d.periodic k = false → i = 0) → Carried ((i : ℝ) • period d.low d.high k) b b := by
    intro k i hi
    cases hk : pbc k with
    | true =>
      have e : period d.low d.high k = period low high k := by
        unfold period
        obtain ⟨l1, l2⟩ := hlh k hk
        fin_cases k <;> simp at l1 l2 <;> simp [l1, l2]
      rw [e]
      exact carried_zsmul (h k hk) i
    | false =>
      rw [hi (by rw [hd]; exact hk)]
      have e : ((0 : ℤ) : ℝ) • period d.low d.high k = 0 := by ext <;> simp
      rw [e]
      exact carried_zero b
  have e : Displace.per d m = ((m.x : ℝ) • period d.low d.high 0 + (m.y : ℝ) • period d.low d.high 1) + (m.z : ℝ) • period d.low d.high 2 := by
    unfold Displace.per period
    ext <;> simp
  rw [e]
  exact carried_trans (carried_trans (key 0 m.x hm.1) (key 1 m.y hm.2.1)) (key 2 m.z hm.2.2)

theorem checkEnd_move (b b' : BoundaryCol.Bound) (u : V3) (hb : Carried u b b') (colBuf : ℝ) (x x' : Sylinder) (hg : x'.gid = x.gid) (hp : x'.pos = x.pos + u)
    (hr : x'.radiusCollision = x.radiusCollision) (query : V3) (radius : ℝ) :
    (BoundaryCol.checkEnd b' colBuf x' (query + u) radius).map (List.map bare) = (BoundaryCol.checkEnd b colBuf x query radius).map (List.map bare) := by
  unfold BoundaryCol.checkEnd
  rw [hb query]
  cases b.project query with
  | none => rfl
  | some pd =>
    simp only [Option.map_some, hp, hr, add_sub_add]
    have e : ∀ d n p a c a' c', bare (BoundaryCol.oneSided x' d n p a c) = bare (BoundaryCol.oneSided x d n p a' c') := by
      intro d n p a c a' c'
      unfold BoundaryCol.oneSided bare
      simp only [hg]
    split_ifs <;> simp [e _ _ _ _ _ query pd.1]

theorem bodyBlocks_move (b b' : BoundaryCol.Bound) (u : V3) (hb : Carried u b b') (colBuf : ℝ) (x x' : Sylinder) (hk : kind x' = kind x) (hp : x'.pos = x.pos + u)
    (hd : x'.direction = x.direction) (hr : x'.radiusCollision = x.radiusCollision) (hl : x'.lengthCollision = x.lengthCollision) :
    ((BoundaryCol.bodyBlocks b' colBuf x').getD []).map bare = ((BoundaryCol.bodyBlocks b colBuf x).getD []).map bare := by
  simp only [kind, Prod.mk.injEq] at hk
  obtain ⟨x1, -, -, x2, x3⟩ := hk
  have key : (BoundaryCol.bodyBlocks b' colBuf x').map (List.map bare) = (BoundaryCol.bodyBlocks b colBuf x).map (List.map bare) := by
    have hd : x'.orientation.rot ⟨0, 0, 1⟩ = x.orientation.rot ⟨0, 0, 1⟩ := hd
    have hsp : x'.isSphere true = x.isSphere true := by
      unfold Sylinder.isSphere
      rw [hr, hl, x2, x3]
    unfold BoundaryCol.bodyBlocks
    simp only [hsp, hr, hl, hd, hp, add_sub_right, add_smul_right]
    split
    · exact checkEnd_move b b' u hb colBuf x x' x1 hp hr _ _
    · have h1 := checkEnd_move b b' u hb colBuf x x' x1 hp hr (x.pos - (x.lengthCollision * 0.5) • x.orientation.rot ⟨0, 0, 1⟩) x.radiusCollision
      have h2 := checkEnd_move b b' u hb colBuf x x' x1 hp hr (x.pos + (x.lengthCollision * 0.5) • x.orientation.rot ⟨0, 0, 1⟩) x.radiusCollision
      revert h1 h2
      generalize BoundaryCol.checkEnd b' colBuf x' _ _ = o1
      generalize BoundaryCol.checkEnd b colBuf x _ _ = o2
      generalize BoundaryCol.checkEnd b' colBuf x' _ _ = o3
      generalize BoundaryCol.checkEnd b colBuf x _ _ = o4
      cases o1 <;> cases o2 <;> cases o3 <;> cases o4 <;> intro h1 h2 <;> simp_all
  revert key
  cases BoundaryCol.bodyBlocks b' colBuf x' <;> cases BoundaryCol.bodyBlocks b colBuf x <;> intro key <;> simp_all

/-! ### the start of a step -/

/-- The periods, by ids. -/
theorem choose_periods {d : Stats.Domain} {v : V3} {L M : List Sylinder} {f : Sylinder → View} (hf : ∀ b, (f b).1.1 = b.gid)
    (hnd : (L.map Sylinder.gid).Nodup) (h : List.Forall₂ (fun a b => ∃ j, Flat d j ∧ f b = ((f a).1, (f a).2.1 + (v + per d j), (f a).2.2)) L M) :
    ∃ n : ℤ → Idx, (∀ a ∈ L, Flat d (n a.gid)) ∧ M.map f = (L.map f).map (move d v n) := by
  induction h with
  | nil => exact ⟨fun _ => ⟨0, 0, 0⟩, by simp, rfl⟩
  | @cons a b L M hab _ ih =>
    obtain ⟨n, n1, n2⟩ := ih (List.Nodup.of_cons hnd)
    obtain ⟨j, j1, j2⟩ := hab
    have hne : ∀ a' ∈ L, a'.gid ≠ a.gid := by
      intro a' ha' he
      rw [List.map_cons, List.nodup_cons] at hnd
      exact hnd.1 (he ▸ List.mem_map_of_mem ha')
    refine ⟨fun g => if g = a.gid then j else n g, ?_, ?_⟩
    · intro a' ha'
      rcases List.mem_cons.1 ha' with rfl | ha'
      · simpa using j1
      · simpa [hne a' ha'] using n1 a' ha'
    · rw [List.map_cons, List.map_cons, List.map_cons, n2, j2]
      congr 1
      · unfold move
        simp [hf]
      · refine List.map_congr_left fun w hw => ?_
        obtain ⟨a', ha', rfl⟩ := List.mem_map.1 hw
        unfold move
        simp [hf, hne a' ha']

/-- The place in the box is an image. -/
theorem home_image {pbc : Fin 3 → Bool} {low high : Fin 3 → ℝ} (p : V3) (k : Fin 3) :
    ∃ m : ℤ, (pbc k = false → m = 0) ∧ Near.comp (Resume.home pbc low high p) k = Near.comp p k + m * (high k - low k) := by
  have key : ∀ k x, ∃ m : ℤ, (pbc k = false → m = 0) ∧ Resume.homeAt pbc low high k x = x + m * (high k - low k) := by
    intro k x
    unfold Resume.homeAt
    split_ifs with h
    · refine ⟨-toIcoDiv (sub_pos.2 h.2) (low k) x, ⟨fun hk => absurd (h.1.symm.trans hk) (by decide), ?_⟩⟩
      have := toIcoMod_add_toIcoDiv_zsmul (sub_pos.2 h.2) (low k) x
      rw [zsmul_eq_mul] at this
      push_cast
      linarith
    · exact ⟨0, fun _ => rfl, by simp⟩
  fin_cases k
  · exact key 0 p.x
  · exact key 1 p.y
  · exact key 2 p.z

end Verif.Displace
