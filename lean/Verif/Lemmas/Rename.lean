import Verif.Spec.Rename
import Verif.Lemmas.RenameQuery
import Verif.Lemmas.Displace
/-! Lemmas for C116: what is computed for bodies with other names. -/
namespace Verif.Rename
open Verif.V3 Verif.Near Verif.Collector Verif.Sim Verif.Spec.Layout Verif.Spec.Resume Verif.Spec.Momentum Verif.Spec.Displace Verif.Spec.Rename Image RunStep Layout Displace

theorem exchange_eq (b : Block) : exchange b = b.reverseIJ := rfl

/-! ### other names -/

/-- A body in the tree with another name. -/
def nm (f : ℤ → ℤ) (e : EP) : EP := { e with gid := f e.gid }

theorem contact_nm (f : ℤ → ℤ) (sep : ℝ) (I J : EP) (P Q : V3) : contact sep (nm f I) (nm f J) P Q = name f (contact sep I J P Q) := rfl
theorem reverse_nm (f : ℤ → ℤ) (b : Block) : (name f b).reverseIJ = name f b.reverseIJ := rfl
theorem setStress_nm (f : ℤ → ℤ) (b : Block) (s : Mat3) : (name f b).setStress s = name f (b.setStress s) := rfl

theorem nm_pos (f : ℤ → ℤ) (e : EP) : (nm f e).pos = e.pos := rfl
theorem nm_direction (f : ℤ → ℤ) (e : EP) : (nm f e).direction = e.direction := rfl
theorem nm_length (f : ℤ → ℤ) (e : EP) : (nm f e).lengthCollision = e.lengthCollision := rfl
theorem nm_radius (f : ℤ → ℤ) (e : EP) : (nm f e).radiusCollision = e.radiusCollision := rfl
theorem nm_colBuf (f : ℤ → ℤ) (e : EP) : (nm f e).colBuf = e.colBuf := rfl
theorem nm_sphere (f : ℤ → ℤ) (e : EP) : isSphere (nm f e) = isSphere e := rfl

theorem bind_nm (f : ℤ → ℤ) (o : Option Mat3) (b : Block) : (o.bind fun s => some (some ((name f b).setStress s))) =
    (o.bind fun s => some (some (b.setStress s))).map (Option.map (name f)) := by
  cases o <;> rfl

theorem if_map {p q : Prop} [Decidable p] [Decidable q] (h : p ↔ q) {g : Block → Block} {x x' : Option (Option Block)} (hx : x' = x.map (Option.map g)) :
    (if p then x' else some none) = (if q then x else some none).map (Option.map g) := by
  by_cases hp : p
  · rw [if_pos hp, if_pos (h.1 hp), hx]
  · rw [if_neg hp, if_neg fun hq => hp (h.2 hq)]
    rfl

theorem sp_sp_nm (f : ℤ → ℤ) (I J : EP) : sp_sp (nm f I) (nm f J) = (sp_sp I J).map (Option.map (name f)) := by
  unfold sp_sp
  refine if_map Iff.rfl ?_
  simp only [Option.bind_eq_bind, nm_pos, nm_length, nm_radius, nm_direction, contact_nm]
  exact bind_nm f _ _

theorem sp_sy_nm (f : ℤ → ℤ) (I J : EP) (rev : Bool) : sp_sy (nm f I) (nm f J) rev = (sp_sy I J rev).map (Option.map (name f)) := by
  unfold sp_sy
  refine if_map Iff.rfl ?_
  simp only [Option.bind_eq_bind, nm_pos, nm_length, nm_radius, nm_direction, contact_nm]
  cases rev <;> simp only [Bool.false_eq_true, if_false, if_true, reverse_nm] <;> exact bind_nm f _ _

theorem sy_sy_nm (f : ℤ → ℤ) (I J : EP) : sy_sy (nm f I) (nm f J) = (sy_sy I J).map (Option.map (name f)) := by
  unfold sy_sy
  simp only [nm_pos, nm_length, nm_direction]
  cases DCP.query DCP.dblEps (I.pos - (0.5 * I.lengthCollision) • I.direction) (I.pos + (0.5 * I.lengthCollision) • I.direction)
      (J.pos - (0.5 * J.lengthCollision) • J.direction) (J.pos + (0.5 * J.lengthCollision) • J.direction) with
  | none => rfl
  | some q =>
    refine if_map Iff.rfl ?_
    simp only [Option.bind_eq_bind, nm_pos, nm_length, nm_radius, nm_direction, contact_nm]
    exact bind_nm f _ _

theorem recorded_nm (f : ℤ → ℤ) (I J : EP) : recorded (nm f I) (nm f J) = (recorded I J).map (name f) := by
  have h : collide (nm f I) (nm f J) = (collide I J).map (Option.map (name f)) := by
    unfold collide
    simp only [nm_sphere, sp_sp_nm, sp_sy_nm, sy_sy_nm]
    split <;> split <;> rfl
  unfold recorded
  rw [h]
  cases collide I J <;> rfl

/-! ### the order of two bodies -/

theorem neg_sub' (a b : V3) : a - b = -(b - a) := by ext <;> simp
theorem neg_neg' (a : V3) : -(-a) = a := by ext <;> simp
theorem normSq_neg (a : V3) : (-a).normSq = a.normSq := by simp only [normSq, dot, neg_x, neg_y, neg_z]; ring
theorem norm_rev (a b : V3) : V3.norm (a - b) = V3.norm (b - a) := by
  rw [neg_sub' a b]
  unfold V3.norm
  rw [normSq_neg]
theorem normalized_neg (a : V3) : (-a).normalized = -a.normalized := by
  unfold V3.normalized V3.norm
  rw [normSq_neg]
  split_ifs <;> ext <;> simp
theorem normalized_rev (a b : V3) : (a - b).normalized = -(b - a).normalized := by rw [neg_sub' a b, normalized_neg]

theorem contact_rev (sep : ℝ) (I J : EP) (P Q : V3) : contact sep J I Q P = exchange (contact sep I J P Q) := by
  unfold contact exchange
  simp only [normalized_rev Q P, neg_neg']

theorem stress_rev (dI dJ cI cJ : V3) (hI hJ rI rJ rho : ℝ) (P Q : V3) :
    collideStress dJ dI cJ cI hJ hI rJ rI rho Q P = collideStress dI dJ cI cJ hI hJ rI rJ rho P Q := by
  unfold collideStress
  simp only [normalized_rev P Q, neg_neg']
  have e1 : (rJ = 0 ∨ rI = 0) = (rI = 0 ∨ rJ = 0) := propext or_comm
  simp only [e1]
  split_ifs with h1 h2 h3 h3
  · rfl
  · rfl
  · exact absurd h2 (by tauto)
  · exact absurd h3 (by tauto)
  · congr 1
    abel

theorem bind_rev (o : Option Mat3) (b : Block) : (o.bind fun s => some (some ((exchange b).setStress s))) =
    (o.bind fun s => some (some (b.setStress s))).map (Option.map exchange) := by
  cases o <;> rfl

theorem sp_sp_rev (I J : EP) : sp_sp J I = (sp_sp I J).map (Option.map exchange) := by
  unfold sp_sp
  simp only [norm_rev I.pos J.pos, stress_rev, contact_rev _ I J, Option.bind_eq_bind]
  rw [add_comm (J.lengthCollision * 0.5 + J.radiusCollision) (I.lengthCollision * 0.5 + I.radiusCollision),
    add_comm ((J.lengthCollision * 0.5 + J.radiusCollision) * J.colBuf) ((I.lengthCollision * 0.5 + I.radiusCollision) * I.colBuf)]
  exact if_map Iff.rfl (bind_rev _ _)

theorem sp_sy_rev (I J : EP) : sp_sy I J true = (sp_sy I J false).map (Option.map exchange) := by
  unfold sp_sy
  refine if_map Iff.rfl ?_
  simp only [Option.bind_eq_bind, if_true, Bool.false_eq_true, if_false]
  exact bind_rev _ _

theorem exchange_exchange (b : Block) : exchange (exchange b) = b := rfl

theorem map_exchange (o : Option (Option Block)) : (o.map (Option.map exchange)).map (Option.map exchange) = o := by
  rcases o with _ | _ | b <;> rfl

theorem sy_sy_rev (I J : EP) (h : Decided DCP.dblEps (I.pos - (0.5 * I.lengthCollision) • I.direction) (I.pos + (0.5 * I.lengthCollision) • I.direction)
      (J.pos - (0.5 * J.lengthCollision) • J.direction) (J.pos + (0.5 * J.lengthCollision) • J.direction)) : sy_sy J I = (sy_sy I J).map (Option.map exchange) := by
  unfold sy_sy
  simp only
  have hs := DCP.query_swap DCP.dblEps DCP.dblEps_pos _ _ _ _ h
  have hd1 : ∃ r, DCP.query DCP.dblEps (I.pos - (0.5 * I.lengthCollision) • I.direction) (I.pos + (0.5 * I.lengthCollision) • I.direction)
      (J.pos - (0.5 * J.lengthCollision) • J.direction) (J.pos + (0.5 * J.lengthCollision) • J.direction) = some r := by
    obtain ⟨w, hw, -⟩ := DCP.parameters_spec DCP.dblEps _ (coef_ok (I.pos - (0.5 * I.lengthCollision) • I.direction) (I.pos + (0.5 * I.lengthCollision) • I.direction)
      (J.pos - (0.5 * J.lengthCollision) • J.direction) (J.pos + (0.5 * J.lengthCollision) • J.direction))
    exact ⟨_, query_eq _ _ _ _ _ w hw⟩
  have hd2 : ∃ r, DCP.query DCP.dblEps (J.pos - (0.5 * J.lengthCollision) • J.direction) (J.pos + (0.5 * J.lengthCollision) • J.direction)
      (I.pos - (0.5 * I.lengthCollision) • I.direction) (I.pos + (0.5 * I.lengthCollision) • I.direction) = some r := by
    obtain ⟨w, hw, -⟩ := DCP.parameters_spec DCP.dblEps _ (coef_ok (J.pos - (0.5 * J.lengthCollision) • J.direction) (J.pos + (0.5 * J.lengthCollision) • J.direction)
      (I.pos - (0.5 * I.lengthCollision) • I.direction) (I.pos + (0.5 * I.lengthCollision) • I.direction))
    exact ⟨_, query_eq _ _ _ _ _ w hw⟩
  obtain ⟨r, hr⟩ := hd1
  obtain ⟨r', hr'⟩ := hd2
  obtain ⟨s1, s2, s3⟩ := hs r r' hr hr'
  rw [hr, hr']
  simp only [Option.bind_some, s1, s2, s3, stress_rev, contact_rev _ I J, Option.bind_eq_bind]
  rw [add_comm J.radiusCollision I.radiusCollision, add_comm (J.radiusCollision * J.colBuf) (I.radiusCollision * I.colBuf)]
  exact if_map Iff.rfl (bind_rev _ _)

/-- The two bodies are not both rods, or their closest points are decided. -/
def Plain (I J : EP) : Prop := isSphere I = false → isSphere J = false →
  Decided DCP.dblEps (I.pos - (0.5 * I.lengthCollision) • I.direction) (I.pos + (0.5 * I.lengthCollision) • I.direction)
    (J.pos - (0.5 * J.lengthCollision) • J.direction) (J.pos + (0.5 * J.lengthCollision) • J.direction)

theorem recorded_rev (I J : EP) (h : Plain I J) : recorded J I = (recorded I J).map exchange := by
  have h : collide J I = (collide I J).map (Option.map exchange) := by
    unfold collide
    cases hI : isSphere I <;> cases hJ : isSphere J <;> simp only [Bool.false_eq_true, if_false, if_true]
    · exact sy_sy_rev I J (h hI hJ)
    · rw [sp_sy_rev, map_exchange]
    · exact sp_sy_rev I J
    · exact sp_sp_rev I J
  unfold recorded
  rw [h]
  cases collide I J <;> rfl

/-- A contact of two bodies. -/
theorem recorded_facts {I J : EP} {b : Block} (h : recorded I J = some b) : b.gidI = I.gid ∧ b.gidJ = J.gid ∧ b.oneSide = false ∧ b.bilateral = false := by
  have key : ∀ (o : Option Mat3) (b0 b : Block), (o.bind fun s => some (some (b0.setStress s))) = some (some b) →
      b.gidI = b0.gidI ∧ b.gidJ = b0.gidJ ∧ b.oneSide = b0.oneSide ∧ b.bilateral = b0.bilateral := by
    intro o b0 b ho
    cases o with
    | none => cases ho
    | some s =>
      injection ho with ho
      injection ho with ho
      rw [← ho]
      exact ⟨rfl, rfl, rfl, rfl⟩
  have hc : collide I J = some (some b) := by
    unfold recorded at h
    revert h
    cases collide I J with
    | none => intro h; cases h
    | some o => intro h; exact congrArg some h
  unfold collide at hc
  split at hc <;> split at hc
  · unfold sp_sp at hc
    simp only [Option.bind_eq_bind] at hc
    split at hc
    · exact key _ _ _ hc
    · cases hc
  · unfold sp_sy at hc
    simp only [Option.bind_eq_bind] at hc
    split at hc
    · exact key _ _ _ hc
    · cases hc
  · unfold sp_sy at hc
    simp only [Option.bind_eq_bind] at hc
    split at hc
    · exact key _ _ _ hc
    · cases hc
  · unfold sy_sy at hc
    simp only [Option.bind_eq_bind] at hc
    revert hc
    cases DCP.query DCP.dblEps _ _ _ _ with
    | none => intro hc; cases hc
    | some q =>
      intro hc
      simp only [Option.bind_some] at hc
      split at hc
      · exact key _ _ _ hc
      · cases hc

/-! ### contacts of all bodies -/

/-- A body with another name. -/
def ren (f : ℤ → ℤ) (w : View) : View := ((f w.1.1, w.1.2), w.2)

theorem seen_named (f : ℤ → ℤ) (b : Sylinder) : seen (named f b) = ren f (seen b) := rfl

def flip (m : Idx) : Idx := ⟨-m.x, -m.y, -m.z⟩

theorem flip_flip (m : Idx) : flip (flip m) = m := by
  unfold flip
  ext <;> simp

/-- The key of a contact under other names. -/
def key (f : ℤ → ℤ) (k : ℤ × ℤ × Idx) : ℤ × ℤ × Idx := if f k.1 < f k.2.1 then (f k.1, f k.2.1, k.2.2) else (f k.2.1, f k.1, flip k.2.2)

theorem key_inj {f : ℤ → ℤ} (hf : Function.Injective f) {k k' : ℤ × ℤ × Idx} (hk : k.1 < k.2.1) (hk' : k'.1 < k'.2.1) (h : key f k = key f k') : k = k' := by
  obtain ⟨g, g', m⟩ := k
  obtain ⟨h1, h1', m'⟩ := k'
  unfold key at h
  simp only at h hk hk'
  split_ifs at h <;> simp only [Prod.mk.injEq] at h <;> obtain ⟨e1, e2, e3⟩ := h <;> have e1 := hf e1 <;> have e2 := hf e2
  · subst e1 e2 e3; rfl
  · omega
  · omega
  · have e3 := congrArg flip e3
    rw [flip_flip, flip_flip] at e3
    subst e1 e2 e3; rfl

theorem ep_ren (f : ℤ → ℤ) (c : Place.Cfg) (w : View) : ep c (ren f w) = nm f (ep c w) := rfl
theorem shift_nm (f : ℤ → ℤ) (d : Stats.Domain) (m : Idx) (e : EP) : shift d m (nm f e) = nm f (shift d m e) := rfl

theorem shift_flip (d : Stats.Domain) (m : Idx) (I J : EP) : shift d (flip m) I = tr (-per d m) I ∧ tr (-per d m) (shift d m J) = J := by
  have e1 : per d (flip m) = -per d m := by unfold per flip; ext <;> simp
  have e2 : ∀ p : V3, p + per d m + -per d m = p := by intro p; ext <;> simp
  constructor
  · rw [shift_per, e1]
  · rw [shift_per]
    unfold tr
    simp only [e2]

theorem flat_flip {d : Stats.Domain} {m : Idx} (h : Flat d m) : Flat d (flip m) :=
  ⟨fun k => by show -m.x = 0; rw [h.1 k]; rfl, fun k => by show -m.y = 0; rw [h.2.1 k]; rfl, fun k => by show -m.z = 0; rw [h.2.2 k]; rfl⟩

/-- The contact of the bodies in the other order. -/
theorem recorded_flip (d : Stats.Domain) (m : Idx) (I J : EP) (h : Plain I (shift d m J)) :
    recorded J (shift d (flip m) I) = (recorded I (shift d m J)).map fun b => trb (-per d m) (exchange b) := by
  obtain ⟨e1, e2⟩ := shift_flip d m I J
  have := recorded_tr (-per d m) (shift d m J) I
  rw [e2, ← e1] at this
  rw [this, recorded_rev I _ h, Option.map_map]
  rfl

/-- Bodies whose order is another one under the new names have decided closest points. -/
def ClearV (f : ℤ → ℤ) (c : Place.Cfg) (V : List View) : Prop :=
  ∀ v ∈ V, ∀ w ∈ V, v.1.1 < w.1.1 → f w.1.1 < f v.1.1 → ∀ m, Flat c.d m → Plain (ep c v) (shift c.d m (ep c w))

theorem bare_name (f : ℤ → ℤ) (b : Block) : bare (name f b) = name f (bare b) := rfl
theorem bare_exchange (b : Block) : bare (exchange b) = exchange (bare b) := rfl
theorem bare_under (f : ℤ → ℤ) (b : Block) : bare (under f b) = under f (bare b) := by
  unfold under
  by_cases h : b.oneSide = true ∨ b.bilateral = true ∨ f b.gidI < f b.gidJ
  · rw [if_pos h, if_pos (c := (bare b).oneSide = true ∨ (bare b).bilateral = true ∨ f (bare b).gidI < f (bare b).gidJ) h]; rfl
  · rw [if_neg h, if_neg (c := (bare b).oneSide = true ∨ (bare b).bilateral = true ∨ f (bare b).gidI < f (bare b).gidJ) h]; rfl

theorem ep_same {c c' : Place.Cfg} (hc : c'.diameterColRatio = c.diameterColRatio ∧ c'.lengthColRatio = c.lengthColRatio ∧ c'.colBuf = c.colBuf ∧ c'.d = c.d) (v : View) :
    ep c' v = ep c v := by
  unfold ep
  rw [hc.1, hc.2.1, hc.2.2.1]

theorem pair_name {f : ℤ → ℤ} (hf : Function.Injective f) {c c' : Place.Cfg} {V V' : List View}
    (hc : c'.diameterColRatio = c.diameterColRatio ∧ c'.lengthColRatio = c.lengthColRatio ∧ c'.colBuf = c.colBuf ∧ c'.d = c.d) (hcl : ClearV f c V)
    (hV : ∀ w ∈ V, ren f w ∈ V') (k : ℤ × ℤ × Idx) (b : Block) (h : PairOf c V k b) : ∃ b', PairOf c' V' (key f k) b' ∧ bare b' = bare (under f b) := by
  obtain ⟨g, g', m⟩ := k
  obtain ⟨x, hx, y, hy, e1, e2, e3, e4, e5⟩ := h
  simp only at e1 e2 e3 e4 e5
  subst e1 e2
  obtain ⟨i1, i2, i3, i4⟩ := recorded_facts e5
  have i1' : b.gidI = x.1.1 := i1
  have i2' : b.gidJ = y.1.1 := i2
  unfold key under
  by_cases hlt : f x.1.1 < f y.1.1
  · rw [if_pos hlt, if_pos (Or.inr (Or.inr (by rw [i1', i2']; exact hlt)))]
    refine ⟨name f b, ⟨ren f x, hV x hx, ren f y, hV y hy, rfl, rfl, hlt, by rw [hc.2.2.2]; exact e4, ?_⟩, rfl⟩
    rw [ep_same hc, ep_same hc, hc.2.2.2, ep_ren, ep_ren, shift_nm, recorded_nm, e5]
    rfl
  · have hgt : f y.1.1 < f x.1.1 := by
      rcases lt_trichotomy (f x.1.1) (f y.1.1) with h | h | h
      · exact absurd h hlt
      · exact absurd (hf h) (by omega)
      · exact h
    rw [if_neg hlt, if_neg (by rw [i1', i2', i3, i4]; simp; omega)]
    refine ⟨name f (trb (-per c.d m) (exchange b)), ⟨ren f y, hV y hy, ren f x, hV x hx, rfl, rfl, hgt, by rw [hc.2.2.2]; exact flat_flip e4, ?_⟩, rfl⟩
    rw [ep_same hc, ep_same hc, hc.2.2.2, ep_ren, ep_ren, shift_nm, recorded_nm]
    show (recorded (ep c y) (shift c.d (flip m) (ep c x))).map (name f) = _
    rw [recorded_flip c.d m (ep c x) (ep c y) (hcl x hx y hy e3 hgt m e4), e5]
    rfl

theorem pair_back {f : ℤ → ℤ} (hf : Function.Injective f) {c c' : Place.Cfg} {V V' : List View}
    (hc : c'.diameterColRatio = c.diameterColRatio ∧ c'.lengthColRatio = c.lengthColRatio ∧ c'.colBuf = c.colBuf ∧ c'.d = c.d) (hcl : ClearV f c V)
    (hV : ∀ w ∈ V', ∃ w₀ ∈ V, w = ren f w₀) (k : ℤ × ℤ × Idx) (b : Block) (h : PairOf c' V' k b) : ∃ k₀ b₀, PairOf c V k₀ b₀ ∧ key f k₀ = k := by
  obtain ⟨g, g', m⟩ := k
  obtain ⟨x', hx', y', hy', e1, e2, e3, e4, e5⟩ := h
  obtain ⟨x, hx, rfl⟩ := hV x' hx'
  obtain ⟨y, hy, rfl⟩ := hV y' hy'
  simp only at e1 e2 e3 e4 e5
  subst e1 e2
  have e3 : f x.1.1 < f y.1.1 := e3
  rw [hc.2.2.2] at e4
  rw [ep_same hc, ep_same hc, hc.2.2.2, ep_ren, ep_ren, shift_nm, recorded_nm] at e5
  obtain ⟨b0, hb0, -⟩ := Option.map_eq_some_iff.1 e5
  rcases lt_trichotomy x.1.1 y.1.1 with hlt | heq | hgt
  · refine ⟨(x.1.1, y.1.1, m), b0, ⟨x, hx, y, hy, rfl, rfl, hlt, e4, hb0⟩, ?_⟩
    unfold key
    rw [if_pos e3]
    rfl
  · rw [heq] at e3
    exact absurd e3 (lt_irrefl _)
  · have hfl := recorded_flip c.d (flip m) (ep c y) (ep c x) (hcl y hy x hx hgt e3 (flip m) (flat_flip e4))
    rw [flip_flip, hb0] at hfl
    obtain ⟨b1, hb1, -⟩ := Option.map_eq_some_iff.1 hfl.symm
    refine ⟨(y.1.1, x.1.1, flip m), b1, ⟨y, hy, x, hx, rfl, rfl, hgt, flat_flip e4, hb1⟩, ?_⟩
    unfold key
    rw [if_neg (not_lt.2 e3.le)]
    simp only [flip_flip]
    rfl

/-! ### links and boundaries -/

theorem link_name {f : ℤ → ℤ} {cfg : Links.Cfg} {c c' : Place.Cfg} {V V' : List View}
    (hc : c'.diameterColRatio = c.diameterColRatio ∧ c'.lengthColRatio = c.lengthColRatio ∧ c'.colBuf = c.colBuf ∧ c'.d = c.d) (hV : ∀ w ∈ V, ren f w ∈ V')
    (w : View) (g : ℤ) (b : Block) (h : LinkOf cfg c V (w, g) b) : LinkOf cfg c' V' (ren f w, f g) (name f b) ∧ b.bilateral = true := by
  obtain ⟨x, e, a, hx, ⟨y, hy, hg, he⟩, ⟨ctr, hct, hb⟩, rfl⟩ := h
  have hblock : Links.block cfg (named f x) (nm f e) ctr = some (name f a) ∧ a.bilateral = true := by
    unfold Links.block at hb ⊢
    obtain ⟨st, hst, hb⟩ := Option.map_eq_some_iff.1 hb
    constructor
    · refine Option.map_eq_some_iff.2 ⟨st, hst, ?_⟩
      rw [← hb]
      rfl
    · rw [← hb]; rfl
  refine ⟨⟨named f x, nm f e, name f a, ?_, ⟨ren f y, hV y hy, ?_, ?_⟩, ⟨ctr, hct, hblock.1⟩, rfl⟩, hblock.2⟩
  · rw [seen_named, hx]
  · show f y.1.1 = f g
    rw [show y.1.1 = g from hg]
  · rw [ep_same hc, ep_ren, ← he]
    rfl

theorem checkEnd_name (f : ℤ → ℤ) (b : BoundaryCol.Bound) (colBuf : ℝ) (x : Sylinder) (query : V3) (radius : ℝ) :
    BoundaryCol.checkEnd b colBuf (named f x) query radius = (BoundaryCol.checkEnd b colBuf x query radius).map (List.map (name f)) := by
  unfold BoundaryCol.checkEnd
  cases b.project query with
  | none => rfl
  | some pd =>
    simp only
    have e1 : (named f x).pos = x.pos := rfl
    have e2 : (named f x).radiusCollision = x.radiusCollision := rfl
    have e3 : ∀ d n p a c, BoundaryCol.oneSided (named f x) d n p a c = name f (BoundaryCol.oneSided x d n p a c) := fun _ _ _ _ _ => rfl
    rw [e1, e2]
    split_ifs <;> simp [e3]

theorem bodyBlocks_name (f : ℤ → ℤ) (b : BoundaryCol.Bound) (colBuf : ℝ) (x : Sylinder) :
    (BoundaryCol.bodyBlocks b colBuf (named f x)).getD [] = ((BoundaryCol.bodyBlocks b colBuf x).getD []).map (name f) := by
  have key : BoundaryCol.bodyBlocks b colBuf (named f x) = (BoundaryCol.bodyBlocks b colBuf x).map (List.map (name f)) := by
    unfold BoundaryCol.bodyBlocks
    simp only [checkEnd_name]
    have e0 : (named f x).isSphere true = x.isSphere true := rfl
    have e1 : (named f x).pos = x.pos := rfl
    have e2 : (named f x).radiusCollision = x.radiusCollision := rfl
    have e3 : (named f x).lengthCollision = x.lengthCollision := rfl
    have e4 : (named f x).orientation = x.orientation := rfl
    rw [e0, e1, e2, e3, e4]
    split
    · rfl
    · generalize BoundaryCol.checkEnd b colBuf x _ _ = o1
      generalize BoundaryCol.checkEnd b colBuf x _ _ = o2
      cases o1 <;> cases o2 <;> simp
  rw [key]
  cases BoundaryCol.bodyBlocks b colBuf x <;> rfl

theorem bodyBlocks_oneSide (b : BoundaryCol.Bound) (colBuf : ℝ) (x : Sylinder) : ∀ c ∈ (BoundaryCol.bodyBlocks b colBuf x).getD [], c.oneSide = true := by
  have hend : ∀ query radius l, BoundaryCol.checkEnd b colBuf x query radius = some l → ∀ c ∈ l, c.oneSide = true := by
    intro query radius l hl
    unfold BoundaryCol.checkEnd at hl
    revert hl
    cases b.project query with
    | none => intro hl; cases hl; simp
    | some pd =>
      simp only
      split_ifs <;> intro hl <;> cases hl <;> simp [BoundaryCol.oneSided]
  intro c hc
  revert hc
  cases hb : BoundaryCol.bodyBlocks b colBuf x with
  | none => intro hc; cases hc
  | some l =>
    intro hc
    unfold BoundaryCol.bodyBlocks at hb
    simp only at hb
    split at hb
    · exact hend _ _ _ hb c hc
    · obtain ⟨l1, h1, hb⟩ := Option.bind_eq_some_iff.1 hb
      obtain ⟨l2, h2, hb⟩ := Option.bind_eq_some_iff.1 hb
      cases hb
      rcases List.mem_append.1 hc with hc | hc
      · exact hend _ _ _ h1 c hc
      · exact hend _ _ _ h2 c hc

/-! ### motion -/

/-- A constraint as a step records it. -/
def Sorted (b : Block) : Prop := b.oneSide = true ∨ b.bilateral = true ∨ b.gidI < b.gidJ

theorem under_back {f g : ℤ → ℤ} (hg : Function.LeftInverse g f) {b : Block} (hb : Sorted b) : under g (under f b) = b := by
  have hn : name g (name f b) = b := by
    unfold name
    simp only [hg b.gidI, hg b.gidJ]
  by_cases h : b.oneSide = true ∨ b.bilateral = true ∨ f b.gidI < f b.gidJ
  · rw [under, under, if_pos h, if_pos, hn]
    rcases hb with hb | hb | hb
    · exact .inl hb
    · exact .inr (.inl hb)
    · refine .inr (.inr ?_)
      show g (f b.gidI) < g (f b.gidJ)
      rw [hg, hg]; exact hb
  · rw [under, under, if_neg h, if_neg]
    · show exchange (exchange (name g (name f b))) = b
      rw [hn]; rfl
    · push Not at h
      rcases hb with hb | hb | hb
      · exact absurd hb h.1
      · exact absurd hb h.2.1
      · rintro (h' | h' | h')
        · exact h.1 h'
        · exact h.2.1 h'
        · have h' : g (f b.gidJ) < g (f b.gidI) := h'
          rw [hg, hg] at h'
          omega

theorem add_comm' (a b : V3) : a + b = b + a := by ext <;> simp <;> ring

theorem under_cases (f : ℤ → ℤ) (b : Block) : under f b = name f b ∨ (b.oneSide = false ∧ under f b = exchange (name f b)) := by
  unfold under
  split_ifs with h
  · exact .inl rfl
  · refine .inr ⟨?_, rfl⟩
    push Not at h
    simpa using h.1

theorem gap_under (f : ℤ → ℤ) (U W : ℤ → V3) (b : Block) : gapOf U W (under f b) = gapOf (fun g => U (f g)) (fun g => W (f g)) b := by
  rcases under_cases f b with h | ⟨ho, h⟩
  · rw [h]; rfl
  · rw [h]
    unfold gapOf
    have e : (exchange (name f b)).oneSide = b.oneSide := rfl
    rw [e, ho]
    exact add_comm _ _

theorem force_under (f : ℤ → ℤ) (b : Block) (g : ℤ) : Spec.Collector.unitForce (under f b) g = Spec.Collector.unitForce b g ∧ Spec.Collector.unitTorque (under f b) g = Spec.Collector.unitTorque b g := by
  rcases under_cases f b with h | ⟨ho, h⟩
  · rw [h]; exact ⟨rfl, rfl⟩
  · rw [h]
    unfold Spec.Collector.unitForce Spec.Collector.unitTorque
    have e : (exchange (name f b)).oneSide = false := ho
    rw [e, ho]
    simp only [true_and]
    exact ⟨add_comm' _ _, add_comm' _ _⟩

theorem flags_under (f : ℤ → ℤ) (b : Block) : (under f b).bilateral = b.bilateral ∧ (under f b).kappa = b.kappa ∧ (under f b).delta0 = b.delta0 := by
  rcases under_cases f b with h | ⟨-, h⟩ <;> rw [h] <;> exact ⟨rfl, rfl, rfl⟩

end Verif.Rename
