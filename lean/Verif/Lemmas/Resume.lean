import Verif.Spec.Resume
import Verif.Lemmas.Sim
import Verif.Lemmas.Work
import Verif.Props.Snapshot
import Verif.Props.Grow
import Mathlib.Algebra.Order.ToIntervalMod
/-! Lemmas for runs that are stopped and resumed. -/
namespace Verif.Resume
open Domain Near Collector RunStep Mobility Sim Spec.Resume Spec.Snapshot Spec.Momentum

theorem all_onRoot {n : ℕ} (hn : 1 ≤ n) (l : List Sylinder) : all n (onRoot l) = l := by
  obtain ⟨m, rfl⟩ : ∃ m, n = m + 1 := ⟨n - 1, by omega⟩
  unfold all
  rw [List.range_succ_eq_map, List.flatMap_cons, List.flatMap_map]
  simp [onRoot]

theorem ranks_pos {c : Place.Cfg} {pbc : Fin 3 → Bool} {low high : Fin 3 → ℝ} (h : Place.Sound c pbc low high) : 1 ≤ c.g.n :=
  Nat.mul_pos (Nat.mul_pos h.nx h.ny) h.nz

/-- Bodies of the same kinds make as good a start. -/
theorem sound_onRoot {C : Sim.Cfg} {pbc : Fin 3 → Bool} {low high : Fin 3 → ℝ} {P : ℕ → List Sylinder} (h : Sound C pbc low high P) (l : List Sylinder)
    (hk : (l.map kind).Perm ((all C.place.g.n P).map kind)) (hu : ∀ b ∈ l, Spec.UnitQuat b.orientation) : Sound C pbc low high (onRoot l) := by
  have hn := ranks_pos h.place
  have hlike : ∀ x ∈ l, ∃ b ∈ all C.place.g.n P, Like C b (sized C x) := by
    intro x hx
    have h1 : kind x ∈ (all C.place.g.n P).map kind := hk.mem_iff.1 (List.mem_map_of_mem hx)
    obtain ⟨b, hb, he⟩ := List.mem_map.1 h1
    have he' := he
    simp only [kind, Prod.mk.injEq] at he'
    refine ⟨b, hb, he.symm, ?_, ?_, rfl⟩
    · show x.radius * _ = b.radius * _
      rw [he'.2.2.2.1]
    · show x.length * _ = b.length * _
      rw [he'.2.2.2.2]
  refine ⟨h.place, h.mono, ?_, h.viscosity, h.dt, ?_, ?_, ?_, ?_, ?_, h.linkBox⟩
  · have h1 := h.enough
    have h2 := hk.length_eq
    rw [List.length_map, List.length_map] at h2
    rw [Place.total_flatMap] at h1 ⊢
    change _ ≤ (all C.place.g.n (onRoot l)).length
    change _ ≤ (all C.place.g.n P).length at h1
    rw [all_onRoot hn]
    omega
  · intro x hx
    rw [all_onRoot hn] at hx
    obtain ⟨b, hb, hl⟩ := hlike x hx
    have h1 := h.valid b hb
    have h2 := hl.radius
    exact ⟨lt_of_lt_of_eq h1.radius h2.1.symm, le_of_le_of_eq h1.length h2.2.1.symm, hu x hx⟩
  · intro x hx
    rw [all_onRoot hn] at hx
    obtain ⟨b, hb, hl⟩ := hlike x hx
    exact hl.body (h.body b hb) (hu x hx)
  · refine ⟨h.fdps.leaf, h.fdps.group, h.fdps.threads, h.fdps.big, ?_⟩
    intro hp r hr x hx
    obtain ⟨x, hx', rfl⟩ := List.mem_map.1 hx
    have hxl : x ∈ l := by
      unfold onRoot at hx'
      split_ifs at hx'
      · exact hx'
      · simp at hx'
    obtain ⟨b, hb, hl⟩ := hlike x hxl
    obtain ⟨r', hr', hb'⟩ := List.mem_flatMap.1 hb
    rw [hl.search]
    exact h.fdps.short hp r' (by simpa using hr') _ (List.mem_map_of_mem hb')
  · obtain ⟨R, h1, h2⟩ := h.largest
    refine ⟨R, fun x hx => ?_, h2⟩
    rw [all_onRoot hn] at hx
    obtain ⟨b, hb, hl⟩ := hlike x hx
    rw [hl.rad]
    have := hl.radius.1
    exact ⟨(h1 b hb).1, by change x.radius = _ at this; rw [this]; exact (h1 b hb).2⟩
  · intro e he
    obtain ⟨b, hb, hg⟩ := h.links e he
    have h1 : kind b ∈ l.map kind := hk.mem_iff.2 (List.mem_map_of_mem hb)
    obtain ⟨x, hx, hxb⟩ := List.mem_map.1 h1
    refine ⟨x, by rw [all_onRoot hn]; exact hx, ?_⟩
    have := congrArg Prod.fst hxb
    exact this.trans hg

/-! ### the bodies read are those of the run -/

section
variable {C C₀ : Sim.Cfg} {pbc : Fin 3 → Bool} {low high : Fin 3 → ℝ} {P B : ℕ → List Sylinder} {fl : ℝ → ℝ} {s s' : Sim.State} {q : Place.Sys}
  {ranks : List RankIn} {out : Out} {pre : Bool}

/-- The bodies after the step are the bodies written, moved. -/
theorem after_eq (hs : Step C fl pre s q ranks out s') (h : Sound C pbc low high P) (hq : Sim.Prepared C P q) :
    all C.place.g.n s'.sys.P = (loaded out).map fun t => if C.mob.sylinderFixed then t else t.stepEuler C.mob.dt := by
  obtain ⟨h0, h1⟩ := step_bodies hs h hq
  unfold all loaded
  rw [List.map_flatMap, List.flatMap_def, List.flatMap_def]
  congr 1
  apply List.ext_getElem?
  intro r
  rw [List.getElem?_map, List.getElem?_map]
  by_cases hr : r < C.place.g.n
  · obtain ⟨so, h2, h3, h4, h5⟩ := h1 r hr
    have hP : s'.sys.P r = so.moved := by rw [hs.moved]; simp only [after, h2]; rfl
    rw [h2, List.getElem?_range hr, Option.map_some, Option.map_some, hP]
    congr 1
    apply List.ext_getElem?
    intro i
    rw [List.getElem?_map]
    rcases lt_or_ge i (numbered C.place.g.n q.P r).length with hi | hi
    · obtain ⟨t, u, k1, k2, -, -, -, -, k7⟩ := h5 i _ (List.getElem?_eq_getElem hi)
      rw [k1, k2, k7, Option.map_some]
    · rw [numbered_length _ _ _ hr] at hi
      rw [List.getElem?_eq_none (by omega), List.getElem?_eq_none (by omega)]
      rfl
  · rw [List.getElem?_eq_none (by simpa using hr), List.getElem?_eq_none (by omega)]
    rfl

theorem loaded_unit (hs : Step C fl pre s q ranks out s') (h : Sound C pbc low high P) (hq : Sim.Prepared C P q) : ∀ t ∈ loaded out, Spec.UnitQuat t.orientation := by
  obtain ⟨h0, h1⟩ := step_bodies hs h hq
  intro t ht
  obtain ⟨so, hso, ht⟩ := List.mem_flatMap.1 ht
  obtain ⟨r, hr, rfl⟩ := List.getElem_of_mem hso
  obtain ⟨so', h2, h3, h4, h5⟩ := h1 r (by omega)
  rw [List.getElem?_eq_getElem hr, Option.some.injEq] at h2
  subst h2
  obtain ⟨i, hi, rfl⟩ := List.getElem_of_mem ht
  have hi' : i < (numbered C.place.g.n q.P r).length := by rw [numbered_length _ _ _ (by omega)]; omega
  obtain ⟨t', u, k1, -, -, -, -, k6, -⟩ := h5 i _ (List.getElem?_eq_getElem hi')
  rw [List.getElem?_eq_getElem hi, Option.some.injEq] at k1
  rw [k1, k6]
  exact hq.unit' (by omega) (List.getElem_mem hi')

end

/-! ### the place of a body in the box -/

/-- The place in the box. -/
noncomputable def homeAt (pbc : Fin 3 → Bool) (low high : Fin 3 → ℝ) (k : Fin 3) (x : ℝ) : ℝ :=
  if h : pbc k = true ∧ low k < high k then toIcoMod (sub_pos.2 h.2) (low k) x else x

noncomputable def home (pbc : Fin 3 → Bool) (low high : Fin 3 → ℝ) (p : V3) : V3 :=
  ⟨homeAt pbc low high 0 p.x, homeAt pbc low high 1 p.y, homeAt pbc low high 2 p.z⟩

theorem homeAt_shift (pbc : Fin 3 → Bool) (low high : Fin 3 → ℝ) (k : Fin 3) (hk : pbc k = true) (x : ℝ) (m : ℤ) :
    homeAt pbc low high k (x + m * (high k - low k)) = homeAt pbc low high k x ∨ ¬ low k < high k := by
  by_cases hl : low k < high k
  · left
    unfold homeAt
    rw [dif_pos ⟨hk, hl⟩, dif_pos ⟨hk, hl⟩, ← zsmul_eq_mul, toIcoMod_add_zsmul]
  · exact Or.inr hl

theorem homeAt_mem (pbc : Fin 3 → Bool) (low high : Fin 3 → ℝ) (k : Fin 3) (x : ℝ) (hx : pbc k = true → low k ≤ x ∧ x < high k) : homeAt pbc low high k x = x := by
  unfold homeAt
  split_ifs with h
  · rw [toIcoMod_eq_self]
    have := hx h.1
    exact ⟨this.1, by linarith [this.2]⟩
  · rfl

/-- A body that has been displaced keeps its place in the box. -/
theorem home_same {c : Place.Cfg} {pbc : Fin 3 → Bool} {low high : Fin 3 → ℝ} (h : Place.Sound c pbc low high) {a b : Sylinder} (hab : Place.SameBody pbc low high a b)
    (ha : ∀ k, pbc k = false → |Near.comp a.pos k| < Stats.largeFloat) : home pbc low high b.pos = home pbc low high a.pos := by
  have key : ∀ k, homeAt pbc low high k (Near.comp b.pos k) = homeAt pbc low high k (Near.comp a.pos k) := by
    intro k
    cases hk : pbc k with
    | true =>
      obtain ⟨m, hm⟩ := (hab.2 k).1 hk
      rw [hm]
      exact (homeAt_shift pbc low high k hk _ m).resolve_right fun hn => hn (h.periodic k hk)
    | false => rw [(hab.2 k).2 hk (ha k hk)]
  unfold home
  exact V3.ext (by simpa [Near.comp] using key 0) (by simpa [Near.comp] using key 1) (by simpa [Near.comp] using key 2)

theorem bounded_same {pbc : Fin 3 → Bool} {low high : Fin 3 → ℝ} {a b : Sylinder} (hab : Place.SameBody pbc low high a b)
    (ha : ∀ k, pbc k = false → |Near.comp a.pos k| < Stats.largeFloat) : ∀ k, pbc k = false → |Near.comp b.pos k| < Stats.largeFloat := by
  intro k hk
  rw [(hab.2 k).2 hk (ha k hk)]
  exact ha k hk

theorem home_mem {c : Place.Cfg} {pbc : Fin 3 → Bool} {low high : Fin 3 → ℝ} (h : Place.Sound c pbc low high) {p : V3} (hp : Box.MemHalf p c.root) :
    home pbc low high p = p := by
  obtain ⟨-, -, h1, -⟩ := h.extent
  have key : ∀ k, homeAt pbc low high k (Near.comp p k) = Near.comp p k := by
    intro k
    refine homeAt_mem _ _ _ _ _ fun hk => ?_
    obtain ⟨e1, e2⟩ := h1 k hk
    rw [← e1, ← e2]
    fin_cases k
    · exact hp.1
    · exact hp.2.1
    · exact hp.2.2
  unfold home
  exact V3.ext (by simpa [Near.comp] using key 0) (by simpa [Near.comp] using key 1) (by simpa [Near.comp] using key 2)

/-- What of a body the next step depends on, with the place in the box. -/
noncomputable def seenHome (pbc : Fin 3 → Bool) (low high : Fin 3 → ℝ) (b : Sylinder) : (ℤ × ℤ × Bool × ℝ × ℝ) × V3 × V3 :=
  (kind b, home pbc low high b.pos, b.direction)

theorem seenHome_core (pbc : Fin 3 → Bool) (low high : Fin 3 → ℝ) (b : Sylinder) : seenHome pbc low high (Place.core b) = seenHome pbc low high b := rfl

/-- Bodies that are displaced and put into another order. -/
theorem seen_carry {c : Place.Cfg} {pbc : Fin 3 → Bool} {low high : Fin 3 → ℝ} (h : Place.Sound c pbc low high) {L W L' : List Sylinder}
    (h1 : List.Forall₂ (Place.SameBody pbc low high) L W) (h2 : (L'.map Place.core).Perm (W.map Place.core))
    (hL : ∀ a ∈ L, ∀ k, pbc k = false → |Near.comp a.pos k| < Stats.largeFloat) :
    (L'.map (seenHome pbc low high)).Perm (L.map (seenHome pbc low high)) ∧ ∀ b ∈ L', ∀ k, pbc k = false → |Near.comp b.pos k| < Stats.largeFloat := by
  have h3 := h2.map (seenHome pbc low high)
  rw [List.map_map, List.map_map] at h3
  have h4 : (seenHome pbc low high ∘ Place.core) = seenHome pbc low high := rfl
  rw [h4] at h3
  constructor
  · refine h3.trans (List.Perm.of_eq ?_)
    clear h2 h3
    induction h1 with
    | nil => rfl
    | @cons a b l l' hab _ ih =>
      rw [List.map_cons, List.map_cons, ih fun a ha => hL a (List.mem_cons_of_mem _ ha)]
      congr 1
      have e := home_same h hab (hL a (by simp))
      have e2 := hab.1
      unfold seenHome
      rw [e]
      have e3 : kind b = kind a := by rw [← e2]; rfl
      have e4 : b.direction = a.direction := by rw [← e2]; rfl
      rw [e3, e4]
  · intro b hb
    have hc : Place.core b ∈ W.map Place.core := h2.mem_iff.1 (List.mem_map_of_mem hb)
    obtain ⟨w, hw, hwb⟩ := List.mem_map.1 hc
    obtain ⟨i, hi, rfl⟩ := List.getElem_of_mem hw
    obtain ⟨hl, hg⟩ := List.forall₂_iff_get.1 h1
    have h5 := hg i (by omega) hi
    simp only [List.get_eq_getElem] at h5
    have := bounded_same h5 (hL _ (List.getElem_mem _))
    have e3 : b.pos = W[i].pos := by
      have : (Place.core W[i]).pos = (Place.core b).pos := by rw [hwb]
      exact this.symm
    rw [e3]
    exact this

end Verif.Resume
