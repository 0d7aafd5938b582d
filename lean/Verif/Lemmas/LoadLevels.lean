import Verif.Model.LoadLevels
import Verif.Spec.LoadLevels
import Verif.Lemmas.Registry
import Verif.Lemmas.Text
import Mathlib.Data.List.DropRight
import Mathlib.Data.List.Nodup
import Mathlib.Tactic.Tauto
import Mathlib.Tactic.SplitIfs

namespace Verif.LoadLevels

open Text (Str)
open Registry (Reg Level)
open Spec

theorem contains_spaces (c : Char) : spaces.contains c = true ↔ Blank [c] := by
  simp [spaces, Blank]

theorem blank_all {s : Str} : Blank s ↔ ∀ c ∈ s, spaces.contains c = true := by
  simp [spaces, Blank]

theorem dropWhile_blank {a : Str} (ha : Blank a) (s : Str) : (a ++ s).dropWhile (spaces.contains ·) = s.dropWhile (spaces.contains ·) := by
  have h := blank_all.1 ha
  induction a with
  | nil => rfl
  | cons c a ih =>
    rw [List.cons_append, List.dropWhile_cons_of_pos (h c (by simp))]
    exact ih (fun d hd => ha d (List.mem_cons_of_mem _ hd)) (fun d hd => h d (List.mem_cons_of_mem _ hd))

theorem dropWhile_stop {w : Str} (h : ∀ c u, w = c :: u → ¬Blank [c]) : w.dropWhile (spaces.contains ·) = w := by
  cases w with
  | nil => rfl
  | cons c u =>
    rw [List.dropWhile_cons_of_neg]
    exact fun hc => h c u rfl ((contains_spaces c).1 hc)

theorem blank_reverse {s : Str} (h : Blank s) : Blank s.reverse := fun c hc => h c (List.mem_reverse.1 hc)

theorem trim_unique {s w : Str} (h : Padded s w) : trim s = w := by
  obtain ⟨a, b, rfl, ha, hb, h1, h2⟩ := h
  unfold trim
  simp only [List.reverse_append]
  rw [dropWhile_blank (blank_reverse hb)]
  cases w with
  | nil =>
    simp only [List.reverse_nil, List.nil_append]
    have : a.reverse.dropWhile (spaces.contains ·) = [] := by
      have := dropWhile_blank (blank_reverse ha) []
      rwa [List.append_nil, List.dropWhile_nil] at this
    rw [this]; rfl
  | cons c u =>
    have h3 : ((c :: u).reverse ++ a.reverse).dropWhile (spaces.contains ·) = (c :: u).reverse ++ a.reverse := by
      rcases List.eq_nil_or_concat (c :: u) with h | ⟨v, d, h⟩
      · cases h
      · rw [h, List.concat_eq_append, List.reverse_append]
        rw [List.reverse_singleton, List.singleton_append, List.cons_append, List.dropWhile_cons_of_neg]
        exact fun hd => h2 d v (by rw [h, List.concat_eq_append]) ((contains_spaces d).1 hd)
    rw [h3, List.reverse_append, List.reverse_reverse, List.reverse_reverse, dropWhile_blank ha, dropWhile_stop h1]

theorem padded_exists (s : Str) : ∃ w, Padded s w := by
  -- blanks are taken off on the left, then on the right
  have hl : ∀ s : Str, ∃ a u, s = a ++ u ∧ Blank a ∧ ∀ c v, u = c :: v → ¬Blank [c] := by
    intro s
    refine ⟨s.takeWhile (spaces.contains ·), s.dropWhile (spaces.contains ·), (List.takeWhile_append_dropWhile).symm,
      blank_all.2 fun c hc => List.mem_takeWhile_imp hc, ?_⟩
    intro c v h hc
    have h1 := List.head?_dropWhile_not (fun c => spaces.contains c) s
    rw [h] at h1
    simp only [List.head?_cons] at h1
    rw [(contains_spaces c).2 hc] at h1
    cases h1
  obtain ⟨a, u, rfl, ha, hu⟩ := hl s
  obtain ⟨b, v, hv, hb, hv'⟩ := hl u.reverse
  have hur : u = v.reverse ++ b.reverse := by rw [← List.reverse_append, ← hv, List.reverse_reverse]
  refine ⟨v.reverse, a, b.reverse, by rw [hur, List.append_assoc], ha, blank_reverse hb, ?_, ?_⟩
  · intro c w hw
    exact hu c (w ++ b.reverse) (by rw [hur, hw]; rfl)
  · intro c w hw
    exact hv' c w.reverse (by have := congrArg List.reverse hw; simpa using this)

theorem lower_upper : ∀ n < 91, 65 ≤ n → lower (Char.ofNat n) = (Char.ofNat n).toLower := by
  decide +kernel

theorem lower_eq (c : Char) : lower c = c.toLower := by
  have hA : ('A' ≤ c ∧ c ≤ 'Z') ↔ (c.val ≥ 'A'.val ∧ c.val ≤ 'Z'.val) := Iff.rfl
  by_cases h : 'A' ≤ c ∧ c ≤ 'Z'
  · obtain ⟨h1, h2⟩ := hA.1 h
    have h3 : 65 ≤ c.toNat := UInt32.le_iff_toNat_le.1 h1
    have h4 : c.toNat ≤ 90 := UInt32.le_iff_toNat_le.1 h2
    have := lower_upper c.toNat (by omega) h3
    rwa [Char.ofNat_toNat] at this
  · unfold lower Char.toLower
    rw [if_neg h, dif_neg (fun k => h (hA.2 k))]

/-- What `load_levels` makes of the text of a level. -/
def recognised (w : Str) : Option Level :=
  if fromStr (w.map lower) = Registry.off ∧ w.map lower ≠ "off".toList then none else some (fromStr (w.map lower))

theorem recognised_spec {w : Str} {l : Option Level} (h : Level? w l) : recognised w = l := by
  have hm : w.map lower = w.map Char.toLower := List.map_congr_left fun c _ => lower_eq c
  unfold recognised
  rw [hm]
  unfold Level? Means at h
  cases l with
  | some l =>
    obtain ⟨word, h1, h2⟩ := h
    rw [h2]
    simp only [words, List.mem_cons, Prod.mk.injEq, List.not_mem_nil, or_false] at h1
    rcases h1 with ⟨rfl, rfl⟩ | ⟨rfl, rfl⟩ | ⟨rfl, rfl⟩ | ⟨rfl, rfl⟩ | ⟨rfl, rfl⟩ | ⟨rfl, rfl⟩ | ⟨rfl, rfl⟩ | ⟨rfl, rfl⟩ | ⟨rfl, rfl⟩ <;>
      decide +kernel
  | none =>
    have key : ∀ word l, (word, l) ∈ words → w.map Char.toLower ≠ word.toList := fun word l h1 h2 => h l ⟨word, h1, h2⟩
    have h0 := key "trace" 0 (by decide +kernel)
    have h1 := key "debug" 1 (by decide +kernel)
    have h2 := key "info" 2 (by decide +kernel)
    have h3 := key "warning" 3 (by decide +kernel)
    have h3' := key "warn" 3 (by decide +kernel)
    have h4 := key "error" 4 (by decide +kernel)
    have h4' := key "err" 4 (by decide +kernel)
    have h5 := key "critical" 5 (by decide +kernel)
    have h6 := key "off" 6 (by decide +kernel)
    have hc : levelNames.contains (w.map Char.toLower) = false := by
      rw [Bool.eq_false_iff]
      intro hc
      rw [List.contains_iff_mem] at hc
      unfold levelNames at hc
      rcases List.mem_cons.1 hc with e | hc
      · exact h0 e
      rcases List.mem_cons.1 hc with e | hc
      · exact h1 e
      rcases List.mem_cons.1 hc with e | hc
      · exact h2 e
      rcases List.mem_cons.1 hc with e | hc
      · exact h3 e
      rcases List.mem_cons.1 hc with e | hc
      · exact h4 e
      rcases List.mem_cons.1 hc with e | hc
      · exact h5 e
      rcases List.mem_cons.1 hc with e | hc
      · exact h6 e
      · cases hc
    have : fromStr (w.map Char.toLower) = Registry.off := by
      unfold fromStr
      rw [if_neg (by rw [hc]; simp), if_neg h3', if_neg h4']
    rw [if_pos ⟨this, h6⟩]

theorem level_exists (w : Str) : ∃ l, Level? w l := by
  by_cases h : ∃ l, Means w l
  · obtain ⟨l, hl⟩ := h
    exact ⟨some l, hl⟩
  · exact ⟨none, fun l hl => h ⟨l, hl⟩⟩

theorem extractKv_spec {item name : Str} {l : Option Level} (h : Reads item name l) :
    ∃ w, extractKv '=' item = (name, w) ∧ recognised w = l := by
  obtain ⟨w, hl, ⟨k, v, rfl, hk, h1, h2⟩ | ⟨hi, rfl, h2⟩⟩ := h
  · refine ⟨w, ?_, recognised_spec hl⟩
    have hs := Text.takeWhile_append_stop (p := (· != '=')) k ('=' :: v) (fun c hc => by
      simp only [bne_iff_ne]; rintro rfl; exact hk hc) (fun c t e => by injection e with e _; subst e; rfl)
    unfold extractKv
    rw [if_pos (by simp), hs.1, hs.2, List.drop_one, List.tail_cons, trim_unique h1, trim_unique h2]
  · refine ⟨w, ?_, recognised_spec hl⟩
    unfold extractKv
    rw [if_neg (by simpa using hi), trim_unique h2]
    rfl

theorem reads_exists (item : Str) : ∃ name l, Reads item name l := by
  by_cases h : '=' ∈ item
  · obtain ⟨k, v, rfl, hk⟩ := List.eq_append_cons_of_mem h
    obtain ⟨n, hn⟩ := padded_exists k
    obtain ⟨w, hw⟩ := padded_exists v
    obtain ⟨l, hl⟩ := level_exists w
    exact ⟨n, l, w, hl, .inl ⟨k, v, rfl, hk, hn, hw⟩⟩
  · obtain ⟨w, hw⟩ := padded_exists item
    obtain ⟨l, hl⟩ := level_exists w
    exact ⟨[], l, w, hl, .inr ⟨h, rfl, hw⟩⟩

/-- One item. -/
def putItem (rv : List (Str × Str)) (t : Str) : List (Str × Str) := put rv (extractKv '=' t).1 (extractKv '=' t).2

theorem keyVals_spec (items : List Str) (hi : ∀ t ∈ items, ',' ∉ t) (n : ℕ) (rv : List (Str × Str))
    (hn : (List.intercalate [','] items).length ≤ n) :
    keyVals n (List.intercalate [','] items) rv = (items.filter (· ≠ [])).foldl putItem rv := by
  induction items generalizing n rv with
  | nil => cases n <;> simp [keyVals]
  | cons t ts ih =>
    have ht : ∀ c ∈ t, (c != ',') = true := fun c hc => by
      simp only [bne_iff_ne]; rintro rfl; exact hi t (by simp) hc
    cases ts with
    | nil =>
      have e : List.intercalate [','] [t] = t := by simp
      rw [e] at hn ⊢
      cases n with
      | zero =>
        have : t = [] := List.eq_nil_of_length_eq_zero (by omega)
        subst this; rfl
      | succ n =>
        by_cases h0 : t = []
        · subst h0; simp [keyVals]
        · have hs := Text.takeWhile_append_stop (p := (· != ',')) t [] ht (fun c u e => by cases e)
          rw [List.append_nil] at hs
          unfold keyVals
          rw [if_neg h0]
          simp only [hs.1, hs.2]
          rw [if_neg h0]
          have : (List.filter (fun x => decide (x ≠ [])) [t]) = [t] := by simp [h0]
          rw [this]
          cases n <;> simp [keyVals, putItem]
    | cons u us =>
      have e : List.intercalate [','] (t :: u :: us) = t ++ ',' :: List.intercalate [','] (u :: us) := by
        simp [List.intercalate]
      rw [e] at hn ⊢
      cases n with
      | zero => simp at hn
      | succ n =>
        have hs := Text.takeWhile_append_stop (p := (· != ',')) t (',' :: List.intercalate [','] (u :: us)) ht
          (fun c v e => by injection e with e _; subst e; rfl)
        have ih' := fun rv => ih (fun t ht => hi t (List.mem_cons_of_mem _ ht)) n rv (by simp at hn; omega)
        unfold keyVals
        rw [if_neg (by simp)]
        simp only [hs.1, hs.2, List.drop_one, List.tail_cons]
        by_cases h0 : t = []
        · rw [if_pos h0, ih']
          simp [h0]
        · have hf : (t :: u :: us).filter (· ≠ []) = t :: (u :: us).filter (· ≠ []) := List.filter_cons_of_pos (by simpa using h0)
          rw [if_neg h0, ih', hf, List.foldl_cons]
          rfl

/-- The value of a key. -/
def lookup {β : Type} (m : List (Str × β)) (k : Str) : Option β := (m.find? fun e => e.1 == k).map (·.2)

theorem lookup_put {β : Type} (m : List (Str × β)) (k : Str) (v : β) (k' : Str) :
    lookup (put m k v) k' = if k' = k then some v else lookup m k' := by
  unfold lookup put
  rw [List.find?_append]
  by_cases h : k' = k
  · subst h
    rw [if_pos rfl]
    have : List.find? (fun e => e.1 == k') (List.filter (fun e => !(e.1 == k')) m) = none := by
      rw [List.find?_eq_none]
      intro e he
      have := (List.mem_filter.1 he).2
      simpa using this
    rw [this]
    simp
  · rw [if_neg h, List.find?_filter]
    have : (fun a : Str × β => decide ((!a.1 == k) = true ∧ (a.1 == k') = true)) = fun a => a.1 == k' := by
      funext a
      by_cases ha : a.1 = k'
      · rw [ha]; simp [h]
      · simp [ha]
    rw [this]
    simp [Ne.symm h]

theorem keys_put {β : Type} (m : List (Str × β)) (k : Str) (v : β) (h : (m.map (·.1)).Nodup) : ((put m k v).map (·.1)).Nodup := by
  unfold put
  rw [List.map_append, List.nodup_append]
  refine ⟨h.sublist (List.Sublist.map _ List.filter_sublist), by simp, ?_⟩
  intro a ha b hb
  obtain ⟨e, he, rfl⟩ := List.mem_map.1 ha
  have := (List.mem_filter.1 he).2
  simp at this hb
  rw [hb]
  exact this

theorem lookup_fold (items : List Str) (es : List (Str × Option Level)) (h : List.Forall₂ (fun t e => Reads t e.1 e.2) items es)
    (rv : List (Str × Str)) (hk : (rv.map (·.1)).Nodup) :
    ((items.foldl putItem rv).map (·.1)).Nodup ∧
    ∀ k, (lookup (items.foldl putItem rv) k).bind recognised =
      match es.reverse.find? (fun e => e.1 == k) with
      | some e => e.2
      | none => (lookup rv k).bind recognised := by
  induction h generalizing rv with
  | nil => exact ⟨hk, fun k => rfl⟩
  | @cons t e ts es h1 h2 ih =>
    rw [List.foldl_cons]
    obtain ⟨w, hw, hl⟩ := extractKv_spec h1
    have hp : putItem rv t = put rv e.1 w := by unfold putItem; rw [hw]
    rw [hp]
    obtain ⟨i1, i2⟩ := ih _ (keys_put rv e.1 w hk)
    refine ⟨i1, fun k => ?_⟩
    rw [i2, List.reverse_cons, List.find?_append]
    cases hf : es.reverse.find? (fun e => e.1 == k) with
    | some x => simp
    | none =>
      simp only [Option.none_or, lookup_put]
      by_cases hk : k = e.1
      · subst hk; simp [hl]
      · simp [hk, Ne.symm hk]

theorem lookup_iff {β : Type} {m : List (Str × β)} (h : (m.map (·.1)).Nodup) (k : Str) (v : β) : lookup m k = some v ↔ (k, v) ∈ m := by
  induction m with
  | nil => simp [lookup]
  | cons a m ih =>
    rw [List.map_cons, List.nodup_cons] at h
    have ih := ih h.2
    unfold lookup at ih ⊢
    rw [List.find?_cons]
    by_cases e : a.1 = k
    · simp only [e, beq_self_eq_true, Option.map_some, Option.some.injEq, List.mem_cons]
      constructor
      · rintro rfl; left; rw [← e]
      · rintro (h1 | h1)
        · rw [← h1]
        · exact absurd (List.mem_map.2 ⟨_, h1, rfl⟩) (e ▸ h.1)
    · have : (a.1 == k) = false := by simp [e]
      simp only [this, List.mem_cons]
      rw [ih]
      constructor
      · exact Or.inr
      · rintro (h1 | h1)
        · exact absurd (by rw [← h1]) e
        · exact h1

theorem lookup_perm {β : Type} {m m' : List (Str × β)} (hp : m.Perm m') (h : (m'.map (·.1)).Nodup) (k : Str) : lookup m k = lookup m' k := by
  have h' : (m.map (·.1)).Nodup := (hp.map _).nodup_iff.2 h
  apply Option.ext
  intro v
  rw [lookup_iff h, lookup_iff h', hp.mem_iff]

theorem lookup_none {β : Type} {m : List (Str × β)} {k : Str} (h : k ∉ m.map (·.1)) : lookup m k = none := by
  unfold lookup
  rw [List.find?_eq_none.2]
  · rfl
  · intro e he hk
    exact h (List.mem_map.2 ⟨e, he, by simpa using hk⟩)

theorem collect_spec (m : List (Str × Str)) (h : (m.map (·.1)).Nodup) (acc : List (Str × Level) × Option Level) :
    (∀ k, k ≠ [] → lookup (collect m acc).1 k = ((lookup m k).bind recognised).or (lookup acc.1 k)) ∧
    lookup (collect m acc).1 [] = lookup acc.1 [] ∧ (collect m acc).2 = ((lookup m []).bind recognised).or acc.2 := by
  induction m generalizing acc with
  | nil => simp [collect, lookup]
  | cons e m ih =>
    rw [List.map_cons, List.nodup_cons] at h
    have hcons : ∀ k, lookup (e :: m) k = if e.1 = k then some e.2 else lookup m k := by
      intro k
      unfold lookup
      rw [List.find?_cons]
      by_cases hk : e.1 = k
      · simp [hk]
      · have : (e.1 == k) = false := by simp [hk]
        simp [this, hk]
    have hself := lookup_none h.1
    unfold collect
    by_cases hr : fromStr (e.2.map lower) = Registry.off ∧ e.2.map lower ≠ "off".toList
    · have hrec : recognised e.2 = none := by unfold recognised; rw [if_pos hr]
      simp only []
      rw [if_pos hr]
      obtain ⟨i1, i2, i3⟩ := ih h.2 acc
      refine ⟨fun k hk => ?_, i2, ?_⟩
      · rw [i1 k hk, hcons]
        by_cases hek : e.1 = k
        · rw [if_pos hek, ← hek, hself]; simp [hrec]
        · rw [if_neg hek]
      · rw [i3, hcons]
        by_cases hek : e.1 = []
        · rw [if_pos hek, ← hek, hself]; simp [hrec]
        · rw [if_neg hek]
    · have hrec : recognised e.2 = some (fromStr (e.2.map lower)) := by unfold recognised; rw [if_neg hr]
      simp only []
      rw [if_neg hr]
      by_cases h0 : e.1 = []
      · rw [if_pos h0]
        obtain ⟨i1, i2, i3⟩ := ih h.2 (acc.1, some (fromStr (e.2.map lower)))
        refine ⟨fun k hk => ?_, i2, ?_⟩
        · rw [i1 k hk, hcons, if_neg (by rw [h0]; exact Ne.symm hk)]
        · rw [i3, hcons, if_pos h0, ← h0, hself]; simp [hrec]
      · rw [if_neg h0]
        obtain ⟨i1, i2, i3⟩ := ih h.2 (put acc.1 e.1 (fromStr (e.2.map lower)), acc.2)
        refine ⟨fun k hk => ?_, ?_, ?_⟩
        · rw [i1 k hk, hcons, lookup_put]
          by_cases hek : e.1 = k
          · rw [if_pos hek, if_pos hek.symm, ← hek, hself]; simp [hrec]
          · rw [if_neg hek, if_neg (Ne.symm hek)]
        · rw [i2, lookup_put, if_neg (Ne.symm h0)]
        · rw [i3, hcons, if_neg h0]

theorem find_map (m : List (Str × Level)) (n : String) :
    Registry.find (m.map fun e => (String.ofList e.1, e.2)) n = lookup m n.toList := by
  unfold Registry.find lookup
  rw [List.find?_map, Option.map_map]
  have : ((fun e : String × Level => e.1 == n) ∘ fun e : Str × Level => (String.ofList e.1, e.2)) = fun e => e.1 == n.toList := by
    funext e
    simp only [Function.comp]
    rw [Bool.eq_iff_iff]
    simp only [beq_iff_eq]
    constructor
    · rintro rfl; simp
    · intro h; rw [h]; simp
  rw [this]
  rfl

/-- What `set_levels` does to one logger. -/
def setOne (levels : List (String × Level)) (global : Option Level) (h : List Registry.Lg) (e : String × ℕ) : List Registry.Lg :=
  match Registry.find levels e.1, global with
  | some l, _ => Registry.setLevelOf h e.2 l
  | none, some l => Registry.setLevelOf h e.2 l
  | none, none => h

theorem setLevels_heap (r : Reg) (levels : List (String × Level)) (global : Option Level) :
    (Registry.setLevels r levels global).heap = r.loggers.foldl (setOne levels global) r.heap := rfl

theorem setLevels_fold (levels : List (String × Level)) (global : Option Level) (m : List (String × ℕ)) (h : List Registry.Lg)
    (q : ℕ) :
    ((m.foldl (setOne levels global) h)[q]?).map Registry.Lg.name = (h[q]?).map Registry.Lg.name ∧
    (q ∉ m.map (·.2) → (m.foldl (setOne levels global) h)[q]? = h[q]?) ∧
    (∀ n, (∀ e ∈ m, e.2 = q → e.1 = n) → q ∈ m.map (·.2) → ((m.foldl (setOne levels global) h)[q]?).map Registry.Lg.level =
        (h[q]?).map fun g => ((Registry.find levels n).or global).getD g.level) := by
  induction m generalizing h with
  | nil => simp
  | cons a m ih =>
    have hstep : ∃ h' : List Registry.Lg, setOne levels global h a = h' ∧ (h'[q]?).map Registry.Lg.name = (h[q]?).map Registry.Lg.name ∧
        (q ≠ a.2 → h'[q]? = h[q]?) ∧
        (q = a.2 → (h'[q]?).map Registry.Lg.level = (h[q]?).map fun g => ((Registry.find levels a.1).or global).getD g.level) := by
      have hset : ∀ l, ((Registry.setLevelOf h a.2 l)[q]?).map Registry.Lg.name = (h[q]?).map Registry.Lg.name ∧
          (q ≠ a.2 → (Registry.setLevelOf h a.2 l)[q]? = h[q]?) ∧
          (q = a.2 → ((Registry.setLevelOf h a.2 l)[q]?).map Registry.Lg.level = (h[q]?).map fun _ => l) := by
        intro l
        refine ⟨Registry.name_setLevelOf h a.2 l q, fun hq => ?_, fun hq => ?_⟩
        · unfold Registry.setLevelOf
          rw [List.getElem?_modify]
          simp [Ne.symm hq]
        · have := Registry.level_setLevelOf h a.2 l q
          rwa [if_pos hq] at this
      unfold setOne
      cases hf : Registry.find levels a.1 with
      | some l => exact ⟨_, rfl, by simpa using hset l⟩
      | none =>
        cases global with
        | some l => exact ⟨_, rfl, by simpa using hset l⟩
        | none => exact ⟨_, rfl, rfl, fun _ => rfl, fun _ => by simp⟩
    obtain ⟨h', e, s1, s2, s3⟩ := hstep
    obtain ⟨i1, i2, i3⟩ := ih h'
    rw [List.foldl_cons, e]
    refine ⟨by rw [i1, s1], fun hq => ?_, fun n hn hq => ?_⟩
    · simp only [List.map_cons, List.mem_cons, not_or] at hq
      rw [i2 hq.2, s2 hq.1]
    · by_cases hqm : q ∈ m.map (·.2)
      · rw [i3 n (fun e he => hn e (List.mem_cons_of_mem _ he)) hqm]
        by_cases hqa : q = a.2
        · have h1 := s3 hqa
          rw [hn a (by simp) hqa.symm] at h1
          cases hh : h[q]? with
          | none => cases hh' : h'[q]? <;> simp [hh, hh'] at h1 ⊢
          | some g =>
            cases hh' : h'[q]? with
            | none => simp [hh, hh'] at h1
            | some g' =>
              simp only [hh, hh', Option.map_some, Option.some.injEq] at h1 ⊢
              rw [h1]
              cases (Registry.find levels n).or global <;> simp
        · rw [s2 hqa]
      · have hqa : q = a.2 := by
          simp only [List.map_cons, List.mem_cons] at hq
          tauto
        rw [i2 hqm, s3 hqa, hn a (by simp) hqa.symm]

/-- What `load_levels` hands to the registry. -/
theorem load_spec (order : List (Str × Str) → List (Str × Str)) (ho : ∀ m, (order m).Perm m) (input : Str)
    (es : List (Str × Option Level)) (hin : Asks input es) (h0 : input ≠ []) (hl : input.length ≤ 512) (r : Reg) :
    ∃ levels, loadLevels order input r = Registry.setLevels r levels (levelOf es []) ∧
      ∀ n : String, (Registry.find levels n).or (levelOf es []) = (levelOf es n.toList).or (levelOf es []) := by
  obtain ⟨items, hc, rfl, hr⟩ := hin
  have hk := keyVals_spec items hc _ [] le_rfl
  obtain ⟨hnd, hlk⟩ := lookup_fold _ es hr [] (by simp)
  have hp := ho (((items.filter (· ≠ [])).foldl putItem []))
  obtain ⟨c1, c2, c3⟩ := collect_spec _ ((hp.map _).nodup_iff.2 hnd) ([], none)
  have hval : ∀ k, (lookup (order ((items.filter (· ≠ [])).foldl putItem [])) k).bind recognised = levelOf es k := by
    intro k
    rw [lookup_perm hp hnd, hlk]
    unfold levelOf
    cases es.reverse.find? (fun e => e.1 == k) <;> rfl
  rw [hval, Option.or_none] at c3
  refine ⟨(collect (order ((items.filter (· ≠ [])).foldl putItem [])) ([], none)).1.map fun e => (String.ofList e.1, e.2), ?_, fun n => ?_⟩
  · unfold loadLevels
    rw [if_neg (by push Not; exact ⟨h0, hl⟩), hk]
    simp only []
    rw [c3]
  · rw [find_map]
    by_cases hn : n.toList = []
    · rw [hn, c2]
      simp [lookup]
    · rw [c1 _ hn, hval]
      simp [lookup]

/-- Every text asks for something. -/
theorem asks_exists (input : Str) : ∃ es, Asks input es := by
  have hsplit : ∃ items : List Str, (∀ t ∈ items, ',' ∉ t) ∧ input = List.intercalate [','] items := by
    induction input with
    | nil => exact ⟨[], by simp, rfl⟩
    | cons c s ih =>
      obtain ⟨items, h1, h2⟩ := ih
      by_cases hc : c = ','
      · cases items with
        | nil =>
          subst h2 hc
          exact ⟨[[], []], by simp, rfl⟩
        | cons t ts =>
          refine ⟨[] :: t :: ts, ?_, ?_⟩
          · intro u hu
            rcases List.mem_cons.1 hu with rfl | hu
            · simp
            · exact h1 u hu
          · rw [h2, hc]; simp [List.intercalate]
      · cases items with
        | nil =>
          subst h2
          exact ⟨[[c]], by simpa using Ne.symm hc, rfl⟩
        | cons t ts =>
          refine ⟨(c :: t) :: ts, ?_, ?_⟩
          · intro u hu
            rcases List.mem_cons.1 hu with rfl | hu
            · simp only [List.mem_cons, not_or]
              exact ⟨Ne.symm hc, h1 t (by simp)⟩
            · exact h1 u (List.mem_cons_of_mem _ hu)
          · rw [h2]; cases ts <;> simp [List.intercalate]
  obtain ⟨items, h1, h2⟩ := hsplit
  have hes : ∀ l : List Str, ∃ es, List.Forall₂ (fun t (e : Str × Option Level) => Reads t e.1 e.2) l es := by
    intro l
    induction l with
    | nil => exact ⟨[], .nil⟩
    | cons t l ih =>
      obtain ⟨es, h⟩ := ih
      obtain ⟨n, lv, hr⟩ := reads_exists t
      exact ⟨(n, lv) :: es, .cons hr h⟩
  obtain ⟨es, h3⟩ := hes (items.filter (· ≠ []))
  exact ⟨es, items, h1, h2, h3⟩

end Verif.LoadLevels
