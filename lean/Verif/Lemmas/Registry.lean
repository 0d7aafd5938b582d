import Verif.Model.Registry
import Verif.Spec.Registry
import Mathlib.Tactic.Linarith

namespace Verif.Registry

open Spec

/-- The map has every logger under its name, and the default logger. -/
structure Inv (r : Reg) : Prop where
  named : ∀ e ∈ r.loggers, ∃ g, r.heap[e.2]? = some g ∧ g.name = e.1
  nodup : (r.loggers.map (·.1)).Nodup
  dflt : ∀ d, r.default = some d → ∃ g, r.heap[d]? = some g ∧ (g.name, d) ∈ r.loggers

theorem name_setLevelOf (h : List Lg) (p : Nat) (l : Level) (q : Nat) : ((setLevelOf h p l)[q]?).map Lg.name = (h[q]?).map Lg.name := by
  unfold setLevelOf
  rw [List.getElem?_modify]
  split <;> cases h[q]? <;> simp

theorem length_setLevelOf (h : List Lg) (p : Nat) (l : Level) : (setLevelOf h p l).length = h.length := by simp [setLevelOf]

theorem level_setLevelOf (h : List Lg) (p : Nat) (l : Level) (q : Nat) :
    ((setLevelOf h p l)[q]?).map Lg.level = if q = p then (h[q]?).map (fun _ => l) else (h[q]?).map Lg.level := by
  unfold setLevelOf
  rw [List.getElem?_modify]
  by_cases e : q = p
  · subst e; cases h[q]? <;> simp
  · simp [e, Ne.symm e]

theorem name_fold (f : List Lg → String × Nat → List Lg) (hf : ∀ (h : List Lg) (e : String × Nat) (q : Nat), ((f h e)[q]?).map Lg.name = (h[q]?).map Lg.name) (m : List (String × Nat)) (h : List Lg) (q : Nat) :
    ((m.foldl f h)[q]?).map Lg.name = (h[q]?).map Lg.name := by
  induction m generalizing h with
  | nil => rfl
  | cons a m ih => rw [List.foldl_cons, ih, hf]

theorem level_fold (l : Level) (m : List (String × Nat)) (h : List Lg) (q : Nat) :
    ((m.foldl (fun h e => setLevelOf h e.2 l) h)[q]?).map Lg.level = if q ∈ m.map (·.2) then (h[q]?).map (fun _ => l) else (h[q]?).map Lg.level := by
  induction m generalizing h with
  | nil => simp
  | cons a m ih =>
    have hl := level_setLevelOf h a.2 l q
    have hn := name_setLevelOf h a.2 l q
    rw [List.foldl_cons, ih]
    by_cases e : q = a.2
    · subst e
      simp only [if_true] at hl
      simp only [List.map_cons, List.mem_cons, true_or, if_true]
      split
      · cases h1 : (setLevelOf h a.2 l)[a.2]? <;> cases h2 : h[a.2]? <;> simp_all
      · exact hl
    · simp only [e, if_false] at hl
      simp only [List.map_cons, List.mem_cons, e, false_or]
      split
      · cases h1 : (setLevelOf h a.2 l)[q]? <;> cases h2 : h[q]? <;> simp_all
      · exact hl

/-- Only the names on the heap matter. -/
theorem Inv.of_names {r s : Reg} (h : Inv r) (hn : ∀ q : Nat, (s.heap[q]?).map Lg.name = (r.heap[q]?).map Lg.name) (hl : s.loggers = r.loggers) (hd : s.default = r.default) : Inv s := by
  have key : ∀ (q : Nat) (n : String), (∃ g, r.heap[q]? = some g ∧ g.name = n) → ∃ g, s.heap[q]? = some g ∧ g.name = n := by
    rintro q n ⟨g, h1, h2⟩
    have := hn q
    rw [h1] at this
    cases h3 : s.heap[q]? with
    | none => simp [h3] at this
    | some g' => simp [h3] at this; exact ⟨g', rfl, by rw [this, h2]⟩
  refine ⟨fun e he => key _ _ (h.named e (hl ▸ he)), hl ▸ h.nodup, fun d hd' => ?_⟩
  obtain ⟨g, h1, h2⟩ := h.dflt d (hd ▸ hd')
  obtain ⟨g', h3, h4⟩ := key d g.name ⟨g, h1, rfl⟩
  exact ⟨g', h3, by rw [h4, hl]; exact h2⟩

theorem Inv.of_append {r s : Reg} (h : Inv r) (x : Lg) (hh : s.heap = r.heap ++ [x]) (hl : s.loggers = r.loggers) (hd : s.default = r.default) : Inv s := by
  have key : ∀ (q : Nat) (g : Lg), r.heap[q]? = some g → s.heap[q]? = some g := by
    intro q g hq
    rw [hh, List.getElem?_append_left (List.getElem?_eq_some_iff.1 hq).1, hq]
  refine ⟨fun e he => ?_, hl ▸ h.nodup, fun d hd' => ?_⟩
  · obtain ⟨g, h1, h2⟩ := h.named e (hl ▸ he)
    exact ⟨g, key _ _ h1, h2⟩
  · obtain ⟨g, h1, h2⟩ := h.dflt d (hd ▸ hd')
    exact ⟨g, key _ _ h1, hl ▸ h2⟩

theorem mem_erase (m : List (String × Nat)) (n : String) (e : String × Nat) : e ∈ erase m n ↔ e ∈ m ∧ e.1 ≠ n := by
  simp [erase]

theorem mem_insert (m : List (String × Nat)) (n : String) (p : Nat) (e : String × Nat) : e ∈ insert m n p ↔ (e ∈ m ∧ e.1 ≠ n) ∨ e = (n, p) := by
  simp [insert, mem_erase]

theorem nodup_erase {m : List (String × Nat)} (h : (m.map (·.1)).Nodup) (n : String) : ((erase m n).map (·.1)).Nodup :=
  h.sublist (List.Sublist.map _ List.filter_sublist)

theorem nodup_insert {m : List (String × Nat)} (h : (m.map (·.1)).Nodup) (n : String) (p : Nat) : ((insert m n p).map (·.1)).Nodup := by
  rw [insert, List.map_append, List.nodup_append]
  refine ⟨nodup_erase h n, by simp, ?_⟩
  intro a ha b hb
  simp only [List.map_cons, List.map_nil, List.mem_singleton] at hb
  obtain ⟨e, he, rfl⟩ := List.mem_map.1 ha
  rw [hb]
  exact ((mem_erase _ _ _).1 he).2

theorem find_iff {m : List (String × Nat)} (h : (m.map (·.1)).Nodup) (n : String) (p : Nat) : find m n = some p ↔ (n, p) ∈ m := by
  induction m with
  | nil => simp [find]
  | cons a m ih =>
    rw [List.map_cons, List.nodup_cons] at h
    have ih := ih h.2
    unfold find at ih ⊢
    rw [List.find?_cons]
    by_cases e : a.1 = n
    · simp only [e, beq_self_eq_true, Option.map_some, Option.some.injEq, List.mem_cons]
      constructor
      · rintro rfl; left; rw [← e]
      · rintro (h1 | h1)
        · rw [← h1]
        · exact absurd (List.mem_map.2 ⟨_, h1, rfl⟩) (e ▸ h.1)
    · have : (a.1 == n) = false := by simp [e]
      simp only [this, List.mem_cons]
      rw [ih]
      constructor
      · exact Or.inr
      · rintro (h1 | h1)
        · exact absurd (by rw [← h1]) e
        · exact h1

theorem inv_start : Inv start := by
  refine ⟨?_, by simp [start], ?_⟩
  · intro e he
    simp only [start, List.mem_singleton] at he
    subst he
    exact ⟨⟨"", info⟩, rfl, rfl⟩
  · intro d hd
    simp only [start, Option.some.injEq] at hd
    subst hd
    exact ⟨⟨"", info⟩, rfl, by simp [start]⟩

theorem inv_setLevel {r : Reg} (h : Inv r) (l : Level) : Inv (setLevel r l) :=
  h.of_names (fun q => name_fold _ (fun h e q => name_setLevelOf h e.2 l q) _ _ q) rfl rfl

theorem rest_spec {r : Reg} (h : Inv r) : ∃ m, rest r = some m ∧ (∀ e, e ∈ m ↔ e ∈ r.loggers ∧ r.default ≠ some e.2) ∧ (m.map (·.1)).Nodup := by
  unfold rest
  cases hd : r.default with
  | none => exact ⟨_, rfl, by simp, h.nodup⟩
  | some d =>
    obtain ⟨g, h1, h2⟩ := h.dflt d hd
    refine ⟨erase r.loggers g.name, by simp [h1], fun e => ?_, nodup_erase h.nodup _⟩
    rw [mem_erase]
    refine and_congr_right fun he => ?_
    rw [ne_eq, ne_eq, not_iff_not, Option.some.injEq]
    constructor
    · intro e1
      have h3 := (find_iff h.nodup g.name e.2).2 (by rw [← e1]; exact he)
      rw [(find_iff h.nodup g.name d).2 h2] at h3
      simpa using h3
    · intro e1
      obtain ⟨g', h3, h4⟩ := h.named e he
      rw [← e1, h1] at h3
      rw [← h4, ← Option.some.inj h3]

theorem setDefault_some {r : Reg} (h : Inv r) (p : Nat) (g : Lg) (hg : r.heap[p]? = some g) : ∃ m, rest r = some m ∧
    setDefault r (some p) = some { r with loggers := insert m g.name p, default := some p } := by
  obtain ⟨m, h1, h2⟩ := rest_spec h
  refine ⟨m, h1, ?_⟩
  unfold setDefault
  simp only [h1, hg, Option.bind_eq_bind, Option.bind_some]

theorem inv_setDefault {r s : Reg} (h : Inv r) (p : Option Nat) (hs : setDefault r p = some s) : Inv s := by
  obtain ⟨m, h1, h2, h3⟩ := rest_spec h
  cases p with
  | none =>
    unfold setDefault at hs
    rw [h1] at hs
    simp only [Option.bind_eq_bind, Option.bind_some, Option.some.injEq] at hs
    subst hs
    exact ⟨fun e he => h.named e ((h2 e).1 he).1, h3, by simp⟩
  | some p =>
    unfold setDefault at hs
    rw [h1] at hs
    cases hg : r.heap[p]? with
    | none => simp [hg] at hs
    | some g =>
      simp only [hg, Option.bind_eq_bind, Option.bind_some, Option.some.injEq] at hs
      subst hs
      refine ⟨fun e he => ?_, nodup_insert h3 _ _, fun d hd => ?_⟩
      · rcases (mem_insert _ _ _ _).1 he with he | rfl
        · exact h.named e ((h2 e).1 he.1).1
        · exact ⟨g, hg, rfl⟩
      · simp only [Option.some.injEq] at hd
        subst hd
        exact ⟨g, hg, (mem_insert _ _ _ _).2 (Or.inr rfl)⟩

theorem inv_register {r s : Reg} (h : Inv r) (p : Nat) (hs : register r p = some s) : Inv s := by
  unfold register at hs
  cases hg : r.heap[p]? with
  | none => simp [hg] at hs
  | some g =>
    simp only [hg, Option.bind_eq_bind, Option.bind_some] at hs
    split at hs
    · cases hs; exact h
    · rename_i hn
      cases hs
      have hn' : ∀ q, (g.name, q) ∉ r.loggers := fun q hq => hn (by rw [(find_iff h.nodup _ _).2 hq]; rfl)
      refine ⟨fun e he => ?_, nodup_insert h.nodup _ _, fun d hd => ?_⟩
      · rcases (mem_insert _ _ _ _).1 he with he | rfl
        · exact h.named e he.1
        · exact ⟨g, hg, rfl⟩
      · obtain ⟨g', h1, h2⟩ := h.dflt d hd
        refine ⟨g', h1, (mem_insert _ _ _ _).2 (Or.inl ⟨h2, ?_⟩)⟩
        intro e
        exact hn' d (by rw [← e]; exact h2)

theorem inv_step {rank : Nat} {r s : Reg} (h : Inv r) (op : Op) (hs : step rank r op = some s) : Inv s := by
  cases op with
  | create n => cases hs; exact h.of_append _ rfl rfl rfl
  | init p =>
    unfold step init at hs
    cases hg : r.heap[p]? with
    | none => simp [hg] at hs
    | some g =>
      simp only [hg, Option.bind_eq_bind, Option.bind_some] at hs
      have h1 : Inv { r with heap := setLevelOf r.heap p ((find r.levels g.name).getD r.global) } :=
        h.of_names (fun q => name_setLevelOf _ _ _ q) rfl rfl
      split at hs
      · exact inv_register h1 p hs
      · cases hs; exact h1
  | register p => exact inv_register h p hs
  | setDefault p => exact inv_setDefault h p hs
  | setLevel l => cases hs; exact inv_setLevel h l
  | setLevels ls g =>
    cases hs
    refine h.of_names (fun q => name_fold _ (fun h e q => ?_) _ _ q) rfl rfl
    split
    · exact name_setLevelOf _ _ _ _
    · exact name_setLevelOf _ _ _ _
    · rfl
  | drop n =>
    unfold step drop at hs
    cases hd : r.default with
    | none =>
      rw [hd] at hs
      cases hs
      exact ⟨fun e he => h.named e ((mem_erase _ _ _).1 he).1, nodup_erase h.nodup _, fun d hd' => by simp_all⟩
    | some d =>
      obtain ⟨g, h1, h2⟩ := h.dflt d hd
      simp only [hd, h1, Option.bind_eq_bind, Option.bind_some, Option.some.injEq] at hs
      subst hs
      refine ⟨fun e he => h.named e ((mem_erase _ _ _).1 he).1, nodup_erase h.nodup _, fun d' hd' => ?_⟩
      simp only at hd'
      split at hd'
      · cases hd'
      · rename_i hn
        cases hd'
        exact ⟨g, h1, (mem_erase _ _ _).2 ⟨h2, hn⟩⟩
  | dropAll => cases hs; exact ⟨by simp [dropAll], by simp [dropAll], by simp [dropAll]⟩
  | setAuto b => cases hs; exact ⟨h.named, h.nodup, h.dflt⟩
  | levelOf p l =>
    unfold step at hs
    simp only at hs
    split at hs
    · cases hs; exact h.of_names (fun q => name_setLevelOf _ _ _ q) rfl rfl
    · cases hs
  | setup l =>
    unfold step setup at hs
    simp only at hs
    cases hq : setDefault { r with heap := r.heap ++ [⟨rankName rank, info⟩] } (some r.heap.length) with
    | none => simp [hq] at hs
    | some r1 =>
      simp only [hq, Option.bind_eq_bind, Option.bind_some] at hs
      have h1 := inv_setDefault (h.of_append (s := { r with heap := r.heap ++ [⟨rankName rank, info⟩] }) _ rfl rfl rfl) _ hq
      unfold ownSetLevel at hs
      split at hs
      · cases hc : cast l with
        | none => simp [hc] at hs
        | some l' => simp only [hc, Option.bind_eq_bind, Option.bind_some, Option.some.injEq] at hs; rw [← hs]; exact inv_setLevel h1 _
      · cases hs; exact inv_setLevel h1 _
  | ownSetLevel l =>
    unfold step ownSetLevel at hs
    simp only at hs
    split at hs
    · cases hc : cast l with
      | none => simp [hc] at hs
      | some l' => simp only [hc, Option.bind_eq_bind, Option.bind_some, Option.some.injEq] at hs; rw [← hs]; exact inv_setLevel h _
    · cases hs; exact inv_setLevel h _
  | log lvl t =>
    unfold step log logTo at hs
    simp only at hs
    cases hd : r.default with
    | none => simp [hd] at hs
    | some d =>
      cases hg : r.heap[d]? with
      | none => simp [hd, hg] at hs
      | some g =>
        simp only [hd, hg, Option.bind_eq_bind, Option.bind_some] at hs
        split at hs <;> cases hs
        · exact ⟨h.named, h.nodup, fun d' e => h.dflt d' (by rw [hd]; exact e)⟩
        · exact h
  | logTo p lvl t =>
    unfold step logTo at hs
    simp only at hs
    cases hg : r.heap[p]? with
    | none => simp [hg] at hs
    | some g =>
      simp only [hg, Option.bind_eq_bind, Option.bind_some] at hs
      split at hs <;> cases hs
      · exact ⟨h.named, h.nodup, h.dflt⟩
      · exact h

theorem inv_run {rank : Nat} {r s : Reg} (h : Inv r) (prog : List Op) (hs : run rank r prog = some s) : Inv s := by
  induction prog generalizing r with
  | nil => simp [run] at hs; exact hs ▸ h
  | cons op prog ih =>
    unfold run at hs
    rw [List.foldlM_cons] at hs
    cases h1 : step rank r op with
    | none => simp [h1] at hs
    | some r1 =>
      simp only [h1, Option.bind_eq_bind, Option.bind_some] at hs
      exact ih (inv_step h op h1) hs

/-- `S` are loggers in the map that stay there when `setup` is called. -/
structure Reach (rank : Nat) (S : Nat → Prop) (r : Reg) : Prop where
  inv : Inv r
  others : ∀ p, S p → ∃ g, r.heap[p]? = some g ∧ (g.name, p) ∈ r.loggers ∧ r.default ≠ some p ∧ g.name ≠ rankName rank

/-- The default logger and those of `S` have level `c`. -/
def At (S : Nat → Prop) (c : Level) (r : Reg) : Prop :=
  ∀ p, r.default = some p ∨ S p → ∃ g, r.heap[p]? = some g ∧ g.level = c

theorem setLevel_heap (r : Reg) (l : Level) (q : Nat) (g : Lg) (hg : r.heap[q]? = some g) : ∃ g', (setLevel r l).heap[q]? = some g' ∧ g'.name = g.name ∧
    (q ∈ r.loggers.map (·.2) → g'.level = l) := by
  have hn := name_fold (fun h e => setLevelOf h e.2 l) (fun h e q => name_setLevelOf h e.2 l q) r.loggers r.heap q
  have hl := level_fold l r.loggers r.heap q
  change ∃ g', (r.loggers.foldl (fun h e => setLevelOf h e.2 l) r.heap)[q]? = some g' ∧ _
  rw [hg] at hn hl
  cases h : (r.loggers.foldl (fun h e => setLevelOf h e.2 l) r.heap)[q]? with
  | none => simp [h] at hn
  | some g' =>
    simp only [h, Option.map_some, Option.some.injEq] at hn
    refine ⟨g', rfl, hn, fun hq => ?_⟩
    rw [if_pos hq, h] at hl
    simpa using hl

theorem reach_setLevel {rank : Nat} {S : Nat → Prop} {r : Reg} (h : Reach rank S r) (l : Level) : Reach rank S (setLevel r l) ∧ At S l (setLevel r l) := by
  refine ⟨⟨inv_setLevel h.inv l, fun p hp => ?_⟩, fun p hp => ?_⟩
  · obtain ⟨g, h1, h2, h3, h4⟩ := h.others p hp
    obtain ⟨g', k1, k2, k3⟩ := setLevel_heap r l p g h1
    exact ⟨g', k1, k2 ▸ h2, h3, k2 ▸ h4⟩
  · have : ∃ g, r.heap[p]? = some g ∧ (g.name, p) ∈ r.loggers := by
      rcases hp with hp | hp
      · exact h.inv.dflt p hp
      · obtain ⟨g, h1, h2, -⟩ := h.others p hp
        exact ⟨g, h1, h2⟩
    obtain ⟨g, h1, h2⟩ := this
    obtain ⟨g', k1, k2, k3⟩ := setLevel_heap r l p g h1
    exact ⟨g', k1, k3 (List.mem_map.2 ⟨_, h2, rfl⟩)⟩

theorem cast_some {l : Int} (h : 0 ≤ l ∧ l ≤ 7) : ∃ c : Level, cast l = some c ∧ ((c : Nat) : Int) = l := by
  refine ⟨⟨l.toNat, by omega⟩, ?_, ?_⟩
  · unfold cast
    rw [dif_pos (by omega)]
  · simp only
    omega

theorem cast_none {l : Int} (h : ¬ (0 ≤ l ∧ l ≤ 7)) : cast l = none := by
  unfold cast
  rw [dif_neg (by omega)]

theorem ownSetLevel_none {rank : Nat} (r : Reg) {l : Int} (h0 : rank = 0) (h : ¬ (0 ≤ l ∧ l ≤ 7)) : ownSetLevel rank r l = none := by
  simp [ownSetLevel, h0, cast_none h]

theorem ownSetLevel_spec {rank : Nat} {S : Nat → Prop} {r : Reg} (h : Reach rank S r) (l : Int) (hl : rank = 0 → 0 ≤ l ∧ l ≤ 7) :
    ∃ s c, ownSetLevel rank r l = some s ∧ Reach rank S s ∧ At S c s ∧ ((c : Nat) : Int) = threshold rank l ∧ s.shown = r.shown ∧ s.default = r.default := by
  by_cases h0 : rank = 0
  · obtain ⟨c, h1, h2⟩ := cast_some (hl h0)
    refine ⟨setLevel r c, c, ?_, (reach_setLevel h c).1, (reach_setLevel h c).2, ?_, rfl, rfl⟩
    · simp only [ownSetLevel, if_pos h0, h1, Option.bind_eq_bind, Option.bind_some]
    · simp [threshold, h0, h2]
  · exact ⟨setLevel r err, err, by simp [ownSetLevel, h0], (reach_setLevel h err).1, (reach_setLevel h err).2, by rw [threshold, if_neg h0]; rfl, rfl, rfl⟩

theorem reach_setup {rank : Nat} {S : Nat → Prop} {r : Reg} (h : Reach rank S r) : ∃ s, Reach rank S s ∧ s.shown = r.shown ∧ s.default ≠ none ∧
    ∀ l, setup rank r l = ownSetLevel rank s l := by
  have hi : Inv { r with heap := r.heap ++ [⟨rankName rank, info⟩] } := h.inv.of_append _ rfl rfl rfl
  have hg : ({ r with heap := r.heap ++ [⟨rankName rank, info⟩] } : Reg).heap[r.heap.length]? = some ⟨rankName rank, info⟩ := by simp
  obtain ⟨m, h1, h2⟩ := setDefault_some hi r.heap.length _ hg
  obtain ⟨m', h3, h4, -⟩ := rest_spec hi
  rw [h1] at h3
  cases h3
  refine ⟨_, ⟨inv_setDefault hi _ h2, fun p hp => ?_⟩, rfl, by simp, fun l => ?_⟩
  · obtain ⟨g, k1, k2, k3, k4⟩ := h.others p hp
    have hlt := (List.getElem?_eq_some_iff.1 k1).1
    refine ⟨g, ?_, ?_, ?_, k4⟩
    · simp only
      rw [List.getElem?_append_left hlt, k1]
    · exact (mem_insert _ _ _ _).2 (Or.inl ⟨(h4 _).2 ⟨k2, k3⟩, k4⟩)
    · simp only [ne_eq, Option.some.injEq]
      omega
  · unfold setup
    rw [h2]
    rfl

theorem logTo_spec {rank : Nat} {S : Nat → Prop} {r : Reg} (h : Reach rank S r) {c : Level} (hc : At S c r) (p : Nat) (hp : r.default = some p ∨ S p) (lvl : Level) (t : String) :
    ∃ s, logTo r p lvl t = some s ∧ Reach rank S s ∧ At S c s ∧ s.default = r.default ∧
      s.shown.map (·.2) = r.shown.map (·.2) ++ (if ((c : Nat) : Int) ≤ (lvl : Nat) then [(lvl, t)] else []) := by
  obtain ⟨g, h1, h2⟩ := hc p hp
  unfold logTo
  simp only [h1, Option.bind_eq_bind, Option.bind_some, h2, ge_iff_le]
  have e : c ≤ lvl ↔ ((c : Nat) : Int) ≤ (lvl : Nat) := by
    rw [Fin.le_def, Int.ofNat_le]
  by_cases hl : c ≤ lvl
  · refine ⟨{ r with shown := r.shown ++ [(p, lvl, t)] }, by rw [if_pos hl], ⟨⟨h.inv.named, h.inv.nodup, h.inv.dflt⟩, h.others⟩, hc, rfl, ?_⟩
    rw [if_pos (e.1 hl)]
    simp
  · refine ⟨_, by rw [if_neg hl], h, hc, rfl, ?_⟩
    rw [if_neg (fun k => hl (e.2 k))]
    simp

theorem plain_run {rank : Nat} {S : Nat → Prop} (prog : List Op) (hp : Plain S prog) : ∀ (r : Reg) (c : Level), Reach rank S r → At S c r → r.default ≠ none →
    ((run rank r prog).isSome ↔ (rank = 0 → InRange prog)) ∧
    ∀ s, run rank r prog = some s → s.shown.map (·.2) = r.shown.map (·.2) ++ printed rank (c : Nat) prog := by
  induction prog with
  | nil => 
    intro r c h hc hd
    refine ⟨by simp [run, InRange], fun s hs => ?_⟩
    simp only [run, List.foldlM_nil, Option.pure_def, Option.some.injEq] at hs
    simp [printed, hs]
  | cons op prog ih =>
    intro r c h hc hd
    have er : run rank r (op :: prog) = (step rank r op).bind fun r1 => run rank r1 prog := by
      unfold run
      rw [List.foldlM_cons]
      rfl
    have hset : ∀ (r0 : Reg) (l : Int), (op = .setup l ∨ op = .ownSetLevel l) → Plain S prog → Reach rank S r0 → r0.default ≠ none → r0.shown = r.shown →
        step rank r op = ownSetLevel rank r0 l → ((run rank r (op :: prog)).isSome ↔ (rank = 0 → InRange (op :: prog))) ∧
        ∀ s, run rank r (op :: prog) = some s → s.shown.map (·.2) = r.shown.map (·.2) ++ printed rank (threshold rank l) prog := by
      intro r0 l ho hpl h0 hd0 hs0 hst
      have hin : InRange (op :: prog) ↔ (0 ≤ l ∧ l ≤ 7) ∧ InRange prog := by
        unfold InRange
        constructor
        · intro k
          refine ⟨k l ?_, fun l' hl' => k l' ?_⟩
          · rcases ho with rfl | rfl <;> simp
          · rcases hl' with hl' | hl' <;> simp [hl']
        · rintro ⟨k1, k2⟩ l' hl'
          rcases ho with rfl | rfl <;> simp only [List.mem_cons, Op.setup.injEq, Op.ownSetLevel.injEq, reduceCtorEq, false_or] at hl'
          · rcases hl' with (rfl | hl') | hl'
            · exact k1
            · exact k2 _ (Or.inl hl')
            · exact k2 _ (Or.inr hl')
          · rcases hl' with hl' | (rfl | hl')
            · exact k2 _ (Or.inl hl')
            · exact k1
            · exact k2 _ (Or.inr hl')
      rw [er, hst]
      by_cases hl : rank = 0 → 0 ≤ l ∧ l ≤ 7
      · obtain ⟨s, c', k1, k2, k3, k4, k5, k6⟩ := ownSetLevel_spec h0 l hl
        rw [k1, Option.bind_some]
        obtain ⟨i1, i2⟩ := ih hpl s c' k2 k3 (by rw [k6]; exact hd0)
        refine ⟨?_, fun s' hs' => ?_⟩
        · rw [i1, hin]
          constructor
          · intro a b; exact ⟨hl b, a b⟩
          · intro a b; exact (a b).2
        · rw [i2 s' hs', k5, hs0, k4]
      · have hr : rank = 0 := by
          by_contra k
          exact hl fun k' => absurd k' k
        rw [ownSetLevel_none r0 hr (fun k => hl fun _ => k)]
        refine ⟨?_, by simp⟩
        simp only [Option.bind_none, Option.isSome_none, Bool.false_eq_true, false_iff]
        exact fun k => hl fun _ => (hin.1 (k hr)).1
    have hlog : ∀ p lvl t, (op = .log lvl t ∨ op = .logTo p lvl t) → Plain S prog → (r.default = some p ∨ S p) → step rank r op = logTo r p lvl t →
        ((run rank r (op :: prog)).isSome ↔ (rank = 0 → InRange (op :: prog))) ∧
        ∀ s, run rank r (op :: prog) = some s → s.shown.map (·.2) = r.shown.map (·.2) ++
          (if ((c : Nat) : Int) ≤ (lvl : Nat) then (lvl, t) :: printed rank (c : Nat) prog else printed rank (c : Nat) prog) := by
      intro p lvl t ho hpl hpd hst
      have hin : InRange (op :: prog) ↔ InRange prog := by
        unfold InRange
        rcases ho with rfl | rfl <;> simp
      obtain ⟨s, k1, k2, k3, k4, k5⟩ := logTo_spec h hc p hpd lvl t
      obtain ⟨i1, i2⟩ := ih hpl s c k2 k3 (by rw [k4]; exact hd)
      rw [er, hst, k1, Option.bind_some, hin]
      refine ⟨i1, fun s' hs' => ?_⟩
      rw [i2 s' hs', k5]
      split <;> simp
    cases op with
    | setup l =>
      obtain ⟨r0, k1, k2, k3, k4⟩ := reach_setup h
      exact hset r0 l (Or.inl rfl) hp k1 k3 k2 (k4 l)
    | ownSetLevel l => exact hset r l (Or.inr rfl) hp h hd rfl rfl
    | log lvl t =>
      obtain ⟨d, hd'⟩ := Option.ne_none_iff_exists'.1 hd
      refine hlog d lvl t (Or.inl rfl) hp (Or.inl hd') ?_
      change log r lvl t = _
      unfold log
      rw [hd']
      rfl
    | logTo p lvl t => exact hlog p lvl t (Or.inr rfl) hp.2 (Or.inr hp.1) rfl
    | create _ => exact hp.elim
    | init _ => exact hp.elim
    | register _ => exact hp.elim
    | setDefault _ => exact hp.elim
    | setLevel _ => exact hp.elim
    | setLevels _ _ => exact hp.elim
    | drop _ => exact hp.elim
    | dropAll => exact hp.elim
    | setAuto _ => exact hp.elim
    | levelOf _ _ => exact hp.elim

theorem headed_run {rank : Nat} {S : Nat → Prop} {r : Reg} (h : Reach rank S r) (op : Op) (l : Int) (prog : List Op) (hp : Plain S prog)
    (ho : op = .setup l ∨ op = .ownSetLevel l ∧ r.default ≠ none) :
    ((run rank r (op :: prog)).isSome ↔ (rank = 0 → InRange (op :: prog))) ∧
    ∀ s, run rank r (op :: prog) = some s → s.shown.map (·.2) = r.shown.map (·.2) ++ printed rank (threshold rank l) prog := by
  have er : run rank r (op :: prog) = (step rank r op).bind fun r1 => run rank r1 prog := by
    unfold run
    rw [List.foldlM_cons]
    rfl
  have hin : InRange (op :: prog) ↔ (0 ≤ l ∧ l ≤ 7) ∧ InRange prog := by
    have ho : op = .setup l ∨ op = .ownSetLevel l := ho.imp id fun k => k.1
    unfold InRange
    constructor
    · intro k
      refine ⟨k l ?_, fun l' hl' => k l' ?_⟩
      · rcases ho with rfl | rfl <;> simp
      · rcases hl' with hl' | hl' <;> simp [hl']
    · rintro ⟨k1, k2⟩ l' hl'
      rcases ho with rfl | rfl <;> simp only [List.mem_cons, Op.setup.injEq, Op.ownSetLevel.injEq, reduceCtorEq, false_or] at hl'
      · rcases hl' with (rfl | hl') | hl'
        · exact k1
        · exact k2 _ (Or.inl hl')
        · exact k2 _ (Or.inr hl')
      · rcases hl' with hl' | (rfl | hl')
        · exact k2 _ (Or.inl hl')
        · exact k1
        · exact k2 _ (Or.inr hl')
  obtain ⟨r0, h0, hd0, hs0, hst⟩ : ∃ r0, Reach rank S r0 ∧ r0.default ≠ none ∧ r0.shown = r.shown ∧ step rank r op = ownSetLevel rank r0 l := by
    rcases ho with rfl | ⟨rfl, hd⟩
    · obtain ⟨r0, k1, k2, k3, k4⟩ := reach_setup h
      exact ⟨r0, k1, k3, k2, k4 l⟩
    · exact ⟨r, h, hd, rfl, rfl⟩
  rw [er, hst]
  by_cases hl : rank = 0 → 0 ≤ l ∧ l ≤ 7
  · obtain ⟨s, c', k1, k2, k3, k4, k5, k6⟩ := ownSetLevel_spec h0 l hl
    rw [k1, Option.bind_some]
    obtain ⟨i1, i2⟩ := plain_run prog hp s c' k2 k3 (by rw [k6]; exact hd0)
    refine ⟨?_, fun s' hs' => ?_⟩
    · rw [i1, hin]
      constructor
      · intro a b; exact ⟨hl b, a b⟩
      · intro a b; exact (a b).2
    · rw [i2 s' hs', k5, hs0, k4]
  · have hr : rank = 0 := by
      by_contra k
      exact hl fun k' => absurd k' k
    rw [ownSetLevel_none r0 hr (fun k => hl fun _ => k)]
    refine ⟨?_, by simp⟩
    simp only [Option.bind_none, Option.isSome_none, Bool.false_eq_true, false_iff]
    exact fun k => hl fun _ => (hin.1 (k hr)).1

end Verif.Registry
