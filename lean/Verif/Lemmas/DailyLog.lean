import Verif.Spec.DailyLog
import Mathlib.Tactic.Ring
import Mathlib.Tactic.NormNum
import Mathlib.Tactic.SplitIfs
import Mathlib.Tactic.Tauto
import Mathlib.Data.List.Basic
import Mathlib.Data.List.Induction
namespace Verif.DailyLog
open Text (Str)
open Spec.DailyLog

/-- The number of the span. -/
def span (c : Conf) (t : ℤ) : ℤ := (t + c.offset - timeOfDay c) / dayLen

theorem inSpan_iff (c : Conf) (p t : ℤ) : InSpan c p t ↔ p = span c t := by
  unfold InSpan span dayLen
  norm_num
  omega

theorem sameSpan_iff (c : Conf) (t u : ℤ) : SameSpan c t u ↔ span c t = span c u := by
  unfold SameSpan
  simp only [inSpan_iff]
  constructor
  · rintro ⟨p, rfl, h⟩; exact h
  · intro h; exact ⟨_, rfl, h⟩

theorem onDay_iff (c : Conf) (d t : ℤ) : OnDay c d t ↔ d = day c t := by
  unfold OnDay day dayLen
  norm_num
  omega

theorem span_mono (c : Conf) {t u : ℤ} (h : t ≤ u) : span c t ≤ span c u := by
  unfold span dayLen
  norm_num
  omega

theorem day_mono (c : Conf) {t u : ℤ} (h : t ≤ u) : day c t ≤ day c u := by
  unfold day dayLen
  norm_num
  omega

/-- The next change of the file is at the end of the span. -/
theorem rotation_span (c : Conf) (hv : Valid c) (now t : ℤ) : t ≥ nextRotation c now ↔ span c now < span c t := by
  obtain ⟨h1, h2, h3, h4⟩ := hv
  unfold nextRotation span day dayLen timeOfDay
  norm_num
  split_ifs <;> omega

theorem span_day (c : Conf) (h : c.hour = 0 ∧ c.minute = 0) (t : ℤ) : span c t = day c t := by
  unfold span day timeOfDay
  rw [h.1, h.2]
  norm_num

/-- The earliest of the times in the span of `t`. -/
def home (c : Conf) (ts : List ℤ) (t : ℤ) : ℤ := (ts.find? fun x => span c x == span c t).getD t

theorem home_append (c : Conf) (ts : List ℤ) (x t : ℤ) (h : ∃ y ∈ ts, span c y = span c t) : home c (ts ++ [x]) t = home c ts t := by
  unfold home
  rw [List.find?_append]
  obtain ⟨y, hy, e⟩ := h
  cases hf : ts.find? fun x => span c x == span c t with
  | none => exact absurd (List.find?_eq_none.1 hf y hy) (by simp [e])
  | some z => rfl

theorem home_new (c : Conf) (ts : List ℤ) (x : ℤ) (h : ∀ y ∈ ts, span c y ≠ span c x) : home c (ts ++ [x]) x = x := by
  unfold home
  rw [List.find?_append, List.find?_eq_none.2 (fun y hy => by simpa using h y hy)]
  simp

theorem home_congr (c : Conf) (ts : List ℤ) (t u : ℤ) (hu : ∃ y ∈ ts, span c y = span c u) (h : span c t = span c u) : home c ts t = home c ts u := by
  unfold home
  rw [h]
  obtain ⟨y, hy, e⟩ := hu
  cases hf : ts.find? fun x => span c x == span c u with
  | none => exact absurd (List.find?_eq_none.1 hf y hy) (by simp [e])
  | some z => rfl

theorem home_spec (c : Conf) (ts : List ℤ) (t : ℤ) (ht : t ∈ ts) : home c ts t ∈ ts ∧ span c (home c ts t) = span c t := by
  unfold home
  cases hf : ts.find? fun x => span c x == span c t with
  | none => exact absurd (List.find?_eq_none.1 hf t ht) (by simp)
  | some z => exact ⟨List.mem_of_find?_eq_some hf, by simpa using List.find?_some hf⟩

theorem home_least (c : Conf) (ts : List ℤ) (hs : ts.Pairwise (· ≤ ·)) (t : ℤ) (y : ℤ) (hy : y ∈ ts) (he : span c y = span c t) : home c ts t ≤ y := by
  unfold home
  cases hf : ts.find? fun x => span c x == span c t with
  | none => exact absurd (List.find?_eq_none.1 hf y hy) (by simp [he])
  | some z =>
    simp only [Option.getD_some]
    obtain ⟨-, l1, l2, rfl, hl⟩ := List.find?_eq_some_iff_append.1 hf
    rcases List.mem_append.1 hy with h | h
    · exact absurd (by simpa using he) (by simpa using hl y h)
    · rcases List.mem_cons.1 h with rfl | h
      · exact le_refl _
      · exact (List.pairwise_cons.1 (List.pairwise_append.1 hs).2.1).1 y h

theorem fileOf_iff (c : Conf) (ts : List ℤ) (hs : ts.Pairwise (· ≤ ·)) (t : ℤ) (ht : t ∈ ts) (d : ℤ) : FileOf c ts t d ↔ day c (home c ts t) = d := by
  unfold FileOf
  simp only [sameSpan_iff, onDay_iff]
  obtain ⟨h1, h2⟩ := home_spec c ts t ht
  constructor
  · rintro ⟨x, hx, he, hl, rfl⟩
    have := le_antisymm (home_least c ts hs t x hx he) (hl _ h1 h2)
    rw [this]
  · rintro rfl
    exact ⟨_, h1, h2, fun y hy he => home_least c ts hs t y hy he, rfl⟩

/-- The texts of the messages of the file `d`. -/
def textsOf (c : Conf) (ts : List ℤ) (msgs : List Msg) (d : ℤ) : List Str := (msgs.filter fun m => day c (home c ts m.time) == d).map Msg.text

theorem last_le (start : ℤ) (ms : List Msg) (hs : (start :: ms.map Msg.time).Pairwise (· ≤ ·)) (y : ℤ) (hy : y ∈ start :: ms.map Msg.time) :
    y ≤ (start :: ms.map Msg.time).getLast (by simp) := by
  rcases List.eq_nil_or_concat (start :: ms.map Msg.time) with h | ⟨l, x, h⟩
  · simp at h
  · simp only [h, List.concat_eq_append] at hs hy ⊢
    rw [List.getLast_append_singleton]
    rcases List.mem_append.1 hy with h | h
    · exact (List.pairwise_append.1 hs).2.2 y h x (by simp)
    · simp at h; omega

/-- What is true after the constructor and some messages if files are not removed. -/
structure Inv (c : Conf) (files : ℤ → Option (List Str)) (start : ℤ) (ms : List Msg) (s : St) : Prop where
  linked : s.linked = true
  rot : ∀ t, t ≥ s.rotation ↔ span c ((start :: ms.map Msg.time).getLast (by simp)) < span c t
  cur : s.cur = day c (home c (start :: ms.map Msg.time) ((start :: ms.map Msg.time).getLast (by simp)))
  files : ∀ d, s.files d = open Classical in if ∃ t ∈ start :: ms.map Msg.time, day c (home c (start :: ms.map Msg.time) t) = d then
    some ((if c.truncate then [] else (files d).getD []) ++ textsOf c (start :: ms.map Msg.time) ms d) else files d

theorem step_inv (c : Conf) (hv : Valid c) (hmax : c.maxFiles = 0) (htr : c.truncate = false ∨ (c.hour = 0 ∧ c.minute = 0)) (files : ℤ → Option (List Str)) (start : ℤ)
    (ms : List Msg) (m : Msg) (ho : InOrder c start (ms ++ [m])) (s : St) (h : Inv c files start ms s) : Inv c files start (ms ++ [m]) (sinkIt c s m) := by
  classical
  obtain ⟨hord, hnow⟩ := ho
  have hts : start :: (ms ++ [m]).map Msg.time = (start :: ms.map Msg.time) ++ [m.time] := by simp
  rw [hts] at hord
  have hord' := (List.pairwise_append.1 hord).1
  have hle : ∀ y ∈ start :: ms.map Msg.time, y ≤ m.time := fun y hy => (List.pairwise_append.1 hord).2.2 y hy m.time (by simp)
  have hsn : span c m.time = span c m.now := (sameSpan_iff c _ _).1 (hnow m (by simp)).2
  have hlast : ((start :: (ms ++ [m]).map Msg.time)).getLast (by simp) = m.time := by
    simp only [hts, List.getLast_append_singleton]
  set ts := start :: ms.map Msg.time with hdef
  have hmem : ∀ x ∈ ms, x.time ∈ ts := fun x hx => List.mem_cons_of_mem _ (List.mem_map_of_mem hx)
  have hTmem : ts.getLast (by simp [hdef]) ∈ ts := List.getLast_mem _
  have hTle : ∀ y ∈ ts, y ≤ ts.getLast (by simp [hdef]) := last_le start ms hord'
  have htexts : ∀ d, textsOf c (ts ++ [m.time]) (ms ++ [m]) d = textsOf c ts ms d ++ (if day c (home c (ts ++ [m.time]) m.time) = d then [m.text] else []) := by
    intro d
    unfold textsOf
    rw [List.filter_append, List.map_append]
    congr 1
    · congr 1
      apply List.filter_congr
      intro x hx
      rw [home_append c ts _ _ ⟨_, hmem x hx, rfl⟩]
    · by_cases hd : day c (home c (ts ++ [m.time]) m.time) = d
      · simp [hd]
      · simp [hd]
  have hex : ∀ d, (∃ t ∈ ts ++ [m.time], day c (home c (ts ++ [m.time]) t) = d) ↔
      (∃ t ∈ ts, day c (home c ts t) = d) ∨ day c (home c (ts ++ [m.time]) m.time) = d := by
    intro d
    constructor
    · rintro ⟨t, ht, e⟩
      rcases List.mem_append.1 ht with h | h
      · left; exact ⟨t, h, by rw [← home_append c ts m.time t ⟨t, h, rfl⟩]; exact e⟩
      · right; rw [List.mem_singleton] at h; rw [← h]; rw [h]; rw [h] at e; exact e
    · rintro (⟨t, ht, e⟩ | e)
      · exact ⟨t, List.mem_append_left _ ht, by rw [home_append c ts m.time t ⟨t, ht, rfl⟩]; exact e⟩
      · exact ⟨m.time, by simp, e⟩
  have hF : ∀ d, s.files d = if ∃ t ∈ ts, day c (home c ts t) = d then some ((if c.truncate then [] else (files d).getD []) ++ textsOf c ts ms d) else files d := by
    intro d
    rw [h.files d]
  have hnil : ∀ d, (¬ ∃ t ∈ ts, day c (home c ts t) = d) → textsOf c ts ms d = [] := by
    intro d he
    unfold textsOf
    rw [List.filter_eq_nil_iff.2]
    · rfl
    · intro x hx
      simp only [beq_iff_eq]
      exact fun e => he ⟨_, hmem x hx, e⟩
  by_cases hrot : m.time ≥ s.rotation
  · -- the file is changed
    have hlt := (h.rot m.time).1 hrot
    simp only [← hdef] at hlt
    have hne : ∀ y ∈ ts, span c y ≠ span c m.time := fun y hy e => by
      have := span_mono c (hTle y hy)
      omega
    have hhome := home_new c ts m.time hne
    have hs' : sinkIt c s m = { s with
        files := Function.update s.files (day c m.time) (some ((if c.truncate then [] else (s.files (day c m.time)).getD []) ++ [m.text])),
        cur := day c m.time, linked := true, rotation := nextRotation c m.now } := by
      unfold sinkIt
      simp [hrot, hmax, openFile, write]
    refine ⟨by rw [hs'], ?_, ?_, ?_⟩
    · intro t
      rw [hs', hlast, hsn]
      exact rotation_span c hv _ _
    · rw [hs', hlast]
      simp only [hts]
      rw [hhome]
    · intro d
      rw [hs']
      simp only [hts, hex, htexts, hhome]
      by_cases hd : d = day c m.time
      · subst hd
        rw [Function.update_self, if_pos (Or.inr rfl), if_pos rfl]
        congr 1
        by_cases he : ∃ t ∈ ts, day c (home c ts t) = day c m.time
        · rw [hF, if_pos he]
          rcases htr with htr | hmid
          · simp [htr]
          · obtain ⟨t, htm, e⟩ := he
            exfalso
            obtain ⟨g1, g2⟩ := home_spec c ts t htm
            rw [← span_day c hmid, ← span_day c hmid] at e
            exact hne _ g1 e
        · rw [hF, if_neg he, hnil _ he]
          rfl
      · rw [Function.update_of_ne hd, hF, if_neg (c := day c m.time = d) (fun e => hd e.symm), List.append_nil]
        have : ((∃ t ∈ ts, day c (home c ts t) = d) ∨ day c m.time = d) ↔ (∃ t ∈ ts, day c (home c ts t) = d) := by
          constructor
          · rintro (h | h)
            · exact h
            · exact absurd h.symm hd
          · exact Or.inl
        simp only [this]
  · have hspan : span c (ts.getLast (by simp [hdef])) = span c m.time := by
      have h1 := mt (h.rot m.time).2 hrot
      have h2 := span_mono c (hle _ hTmem)
      simp only [← hdef] at h1
      omega
    have hhome : home c (ts ++ [m.time]) m.time = home c ts (ts.getLast (by simp [hdef])) := by
      rw [home_append c ts _ _ ⟨_, hTmem, hspan⟩]
      exact home_congr c ts _ _ ⟨_, hTmem, rfl⟩ hspan.symm
    have hcur : s.cur = day c (home c (ts ++ [m.time]) m.time) := by rw [hhome]; exact h.cur
    have hs' : sinkIt c s m = { s with files := Function.update s.files s.cur (some ((s.files s.cur).getD [] ++ [m.text])) } := by
      unfold sinkIt
      simp [hrot, write, h.linked]
    refine ⟨by rw [hs']; exact h.linked, ?_, ?_, ?_⟩
    · intro t
      rw [hs', hlast, ← hspan]
      exact h.rot t
    · rw [hs', hlast]
      simp only [hts]
      exact hcur
    · intro d
      rw [hs']
      simp only [hts, hex, htexts]
      by_cases hd : d = s.cur
      · subst hd
        rw [Function.update_self, if_pos (Or.inr hcur.symm), if_pos hcur.symm, hF, if_pos ⟨_, hTmem, h.cur.symm⟩]
        simp
      · rw [Function.update_of_ne hd, hF, if_neg (c := day c (home c (ts ++ [m.time]) m.time) = d) (fun e => hd (by rw [hcur, e])), List.append_nil]
        have : ((∃ t ∈ ts, day c (home c ts t) = d) ∨ day c (home c (ts ++ [m.time]) m.time) = d) ↔ (∃ t ∈ ts, day c (home c ts t) = d) := by
          constructor
          · rintro (h | h)
            · exact h
            · exact absurd (by rw [hcur, h]) hd
          · exact Or.inl
        simp only [this]

theorem create_inv (c : Conf) (hv : Valid c) (hmax : c.maxFiles = 0) (files : ℤ → Option (List Str)) (start : ℤ) :
    ∃ s, create c files start = some s ∧ Inv c files start [] s := by
  classical
  have hv' := hv
  obtain ⟨h1, h2, h3, h4⟩ := hv
  have hc : create c files start =
      some ⟨Function.update files (day c start) (some (if c.truncate then [] else (files (day c start)).getD [])), day c start, true, nextRotation c start, []⟩ := by
    unfold create
    rw [if_neg (by omega)]
    simp [hmax, openFile]
  have hh : home c [start] start = start := by unfold home; simp
  refine ⟨_, hc, rfl, ?_, ?_, ?_⟩
  · intro t; simpa using rotation_span c hv' start t
  · simp [hh]
  · intro d
    simp only [List.map_nil, List.mem_singleton, exists_eq_left, hh]
    by_cases hd : day c start = d
    · subst hd; simp [textsOf]
    · rw [Function.update_of_ne (fun e => hd e.symm), if_neg hd]

theorem inOrder_init {c : Conf} {start : ℤ} {ms : List Msg} {m : Msg} (h : InOrder c start (ms ++ [m])) : InOrder c start ms := by
  refine ⟨?_, fun x hx => h.2 x (List.mem_append_left _ hx)⟩
  have := h.1
  rw [List.map_append, ← List.cons_append] at this
  exact (List.pairwise_append.1 this).1

theorem run_inv (c : Conf) (hv : Valid c) (hmax : c.maxFiles = 0) (htr : c.truncate = false ∨ (c.hour = 0 ∧ c.minute = 0)) (files : ℤ → Option (List Str)) (start : ℤ)
    (ms : List Msg) (ho : InOrder c start ms) : ∃ s, run c files start ms = some s ∧ Inv c files start ms s := by
  unfold run
  induction ms using List.reverseRecOn with
  | nil =>
    obtain ⟨s, h1, h2⟩ := create_inv c hv hmax files start
    exact ⟨s, by rw [h1]; rfl, h2⟩
  | append_singleton ms m ih =>
    obtain ⟨s, h1, h2⟩ := ih (inOrder_init ho)
    refine ⟨sinkIt c s m, ?_, step_inv c hv hmax htr files start ms m ho s h2⟩
    cases hc : create c files start with
    | none => rw [hc] at h1; simp at h1
    | some s0 =>
      rw [hc] at h1
      simp only [Option.map_some, Option.some.injEq] at h1 ⊢
      rw [List.foldl_append, h1]
      rfl

end Verif.DailyLog
