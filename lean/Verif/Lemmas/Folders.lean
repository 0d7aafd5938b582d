import Verif.Spec.Folders
import Verif.Lemmas.Text
/-! Path resolution, and what the actions of the ranks do. -/
namespace Verif.Folders
open Text Spec.Folders

theorem comps_ne (s : Str) : comps s ≠ [] := by
  cases s with
  | nil => simp [comps]
  | cons c s =>
    unfold comps
    split_ifs
    · simp
    · split <;> simp

theorem comps_append (a b : Str) : comps (a ++ '/' :: b) = comps a ++ comps b := by
  induction a with
  | nil => simp [comps]
  | cons c a ih =>
    rw [List.cons_append]
    by_cases hc : c = '/'
    · simp only [comps, hc, if_true, ih, List.cons_append]
    · simp only [comps, if_neg hc, ih]
      cases h : comps a with
      | nil => exact absurd h (comps_ne a)
      | cons x t => simp

theorem comps_plain {a : Str} (h : '/' ∉ a) : comps a = [a] := by
  induction a with
  | nil => rfl
  | cons c a ih =>
    rw [List.mem_cons, not_or] at h
    simp only [comps, if_neg (Ne.symm h.1), ih h.2]

/-- A name without slashes that does not begin with a dot. -/
def Plain (f : Str) : Prop := '/' ∉ f ∧ ∃ c t, f = c :: t ∧ c ≠ '.'

theorem Plain.ne {f : Str} (h : Plain f) : f ≠ [] ∧ f ≠ ['.'] ∧ f ≠ ['.', '.'] := by
  obtain ⟨-, c, t, rfl, hc⟩ := h
  refine ⟨by simp, fun e => hc ?_, fun e => hc ?_⟩
  · exact (List.cons.inj e).1
  · exact (List.cons.inj e).1

theorem slash_not_mem_dec (n : ℕ) : '/' ∉ dec n := fun h => absurd (dec_digit n _ h) (by decide)

theorem plain_append {a b : Str} (ha : Plain a) (hb : '/' ∉ b) : Plain (a ++ b) := by
  obtain ⟨h, c, t, rfl, hc⟩ := ha
  exact ⟨by simp only [List.mem_append, not_or]; exact ⟨h, hb⟩, c, t ++ b, rfl, hc⟩

theorem folderName_plain (low high : ℕ) : Plain (folderName low high) := by
  refine plain_append (plain_append (plain_append ⟨by decide, _, _, rfl, by decide⟩ (slash_not_mem_dec _)) (by decide)) (slash_not_mem_dec _)

theorem name_plain {a c : Str} {n : ℕ} (ha : Plain a) (hc : '/' ∉ c) : Plain (a ++ dec n ++ c) := plain_append (plain_append ha (slash_not_mem_dec _)) hc

theorem name_plain' {a b c : Str} {r n : ℕ} (ha : Plain a) (hb : '/' ∉ b) (hc : '/' ∉ c) : Plain (a ++ dec r ++ b ++ dec n ++ c) :=
  plain_append (plain_append (plain_append (plain_append ha (slash_not_mem_dec _)) hb) (slash_not_mem_dec _)) hc

/-- The path of a folder of snapshots. -/
def basePath (F : Str) : Str := "./result/".toList ++ F ++ "/".toList

theorem comps_base {F : Str} (hF : Plain F) (s : Str) : comps (basePath F ++ s) = [['.'], "result".toList, F] ++ comps s := by
  have e : basePath F ++ s = ['.'] ++ '/' :: ("result".toList ++ '/' :: (F ++ '/' :: s)) := by
    have h1 : "./result/".toList = ['.'] ++ '/' :: ("result".toList ++ ['/']) := by decide
    have h2 : "/".toList = ['/'] := by decide
    unfold basePath
    rw [h1, h2]
    generalize "result".toList = R
    simp only [List.append_assoc, List.cons_append, List.nil_append]
  rw [e, comps_append, comps_append, comps_append, comps_plain hF.1, comps_plain (by decide), comps_plain (by decide)]
  rfl

theorem walk_result {d : Disk} (h : d ["result".toList] = some .dir) (cs : List Str) : walk d [] (['.'] :: "result".toList :: cs) = walk d ["result".toList] cs := by
  rw [walk, if_pos rfl, walk, if_neg (by decide), if_neg (by decide)]
  simp only [List.nil_append, h, if_true]

theorem walk_base {d : Disk} {F : Str} (hF : Plain F) (h : d ["result".toList] = some .dir) (h' : d ["result".toList, F] = some .dir) (cs : List Str) :
    walk d [] (['.'] :: "result".toList :: F :: cs) = walk d ["result".toList, F] cs := by
  rw [walk_result h, walk, if_neg hF.ne.2.1, if_neg hF.ne.2.2]
  rw [if_pos (by exact h')]
  rfl

theorem locate_result (d : Disk) : locate d "./result".toList = some ["result".toList] := by
  have : comps "./result".toList = [['.'], "result".toList] := by decide
  unfold locate
  rw [this]
  rfl

theorem locate_box {d : Disk} (h : d ["result".toList] = some .dir) : locate d "./result/simBox.vtk".toList = some ["result".toList, "simBox.vtk".toList] := by
  have : comps "./result/simBox.vtk".toList = [['.'], "result".toList, "simBox.vtk".toList] := by decide
  unfold locate
  rw [this]
  have e : (List.filter (fun c => decide (c ≠ [])) [['.'], "result".toList, "simBox.vtk".toList]).reverse = ["simBox.vtk".toList, "result".toList, ['.']] := by decide
  rw [e]
  simp only
  rw [if_neg (by decide)]
  have e2 : (["result".toList, ['.']] : List Str).reverse = [['.'], "result".toList] := rfl
  rw [e2, walk_result h]
  rfl

theorem locate_folder {d : Disk} {F : Str} (hF : Plain F) (h : d ["result".toList] = some .dir) : locate d (basePath F) = some ["result".toList, F] := by
  have e := comps_base hF []
  rw [List.append_nil] at e
  unfold locate
  rw [e]
  have e1 : (List.filter (fun c => decide (c ≠ [])) ([['.'], "result".toList, F] ++ comps [])).reverse = [F, "result".toList, ['.']] := by
    simp only [comps, List.cons_append, List.nil_append]
    rw [List.filter_cons_of_pos (by decide), List.filter_cons_of_pos (by decide), List.filter_cons_of_pos (by simpa using hF.ne.1), List.filter_cons_of_neg (by decide)]
    rfl
  rw [e1]
  simp only
  rw [if_neg (by simp only [not_or]; exact hF.ne.2)]
  have e2 : (["result".toList, ['.']] : List Str).reverse = [['.'], "result".toList] := rfl
  rw [e2, walk_result h]
  rfl

theorem locate_file {d : Disk} {F f : Str} (hF : Plain F) (hf : Plain f) (h : d ["result".toList] = some .dir) (h' : d ["result".toList, F] = some .dir) (s : Str)
    (hs : s = f ∨ s = '/' :: f) : locate d (basePath F ++ s) = some ["result".toList, F, f] := by
  have hc : (List.filter (fun c => decide (c ≠ [])) (comps (basePath F ++ s))).reverse = [f, F, "result".toList, ['.']] := by
    rw [comps_base hF]
    have e : List.filter (fun c => decide (c ≠ [])) (comps s) = [f] := by
      rcases hs with rfl | rfl
      · rw [comps_plain hf.1, List.filter_cons_of_pos (by simpa using hf.ne.1)]; rfl
      · have := comps_append [] f
        rw [List.nil_append] at this
        rw [this, comps_plain hf.1, List.filter_append, List.filter_cons_of_pos (by simpa using hf.ne.1)]
        rfl
    rw [List.filter_append, e, List.filter_cons_of_pos (by decide), List.filter_cons_of_pos (by decide), List.filter_cons_of_pos (by simpa using hF.ne.1)]
    rfl
  unfold locate
  rw [hc]
  simp only
  rw [if_neg (by simp only [not_or]; exact hf.ne.2)]
  have e2 : ([F, "result".toList, ['.']] : List Str).reverse = [['.'], "result".toList, F] := rfl
  rw [e2, walk_base hF h h']
  rfl

theorem locate_info {d : Disk} {F : Str} (hF : Plain F) (h : d ["result".toList] = some .dir) (h' : d ["result".toList, F] = some .dir) :
    locate d (basePath F ++ "../../TimeStepInfo.txt".toList) = some ["TimeStepInfo.txt".toList] := by
  have hc : (List.filter (fun c => decide (c ≠ [])) (comps (basePath F ++ "../../TimeStepInfo.txt".toList))).reverse =
      ["TimeStepInfo.txt".toList, ['.', '.'], ['.', '.'], F, "result".toList, ['.']] := by
    rw [comps_base hF]
    have e : List.filter (fun c => decide (c ≠ [])) (comps "../../TimeStepInfo.txt".toList) = [['.', '.'], ['.', '.'], "TimeStepInfo.txt".toList] := by decide
    rw [List.filter_append, e, List.filter_cons_of_pos (by decide), List.filter_cons_of_pos (by decide), List.filter_cons_of_pos (by simpa using hF.ne.1)]
    rfl
  unfold locate
  rw [hc]
  simp only
  rw [if_neg (by decide)]
  have e2 : ([['.', '.'], ['.', '.'], F, "result".toList, ['.']] : List Str).reverse = ['.'] :: "result".toList :: F :: [['.', '.'], ['.', '.']] := rfl
  rw [e2, walk_base hF h h']
  rfl

/-- `d'` has at least the entries of `d`. -/
def Le (d d' : Disk) : Prop := ∀ q k, d q = some k → d' q = some k

theorem Le.refl (d : Disk) : Le d d := fun _ _ h => h

theorem walk_mono {d d' : Disk} (h : Le d d') : ∀ cs cur q, walk d cur cs = some q → walk d' cur cs = some q := by
  intro cs
  induction cs with
  | nil => intro cur q e; exact e
  | cons c cs ih =>
    intro cur q e
    unfold walk at e ⊢
    split_ifs at e with h1 h2 h3 h4
    · rw [if_pos h1]; exact ih _ _ e
    · rw [if_neg h1, if_pos h2, if_neg h3]; exact ih _ _ e
    · rw [if_neg h1, if_neg h2, if_pos (h _ _ h4)]; exact ih _ _ e

theorem locate_mono {d d' : Disk} (h : Le d d') {p : Str} {q : List Str} (e : locate d p = some q) : locate d' p = some q := by
  unfold locate at e ⊢
  split at e
  · simp at e
  · next c cs he =>
    split_ifs at e ⊢
    obtain ⟨w, hw, rfl⟩ := Option.map_eq_some_iff.mp e
    rw [walk_mono h _ _ _ hw]
    rfl

/-- The action has been done. -/
def Done (d : Disk) : Act → Prop
  | .folder p => ∃ q, locate d p = some q ∧ d q = some .dir
  | .fopen p => ∃ q, locate d p = some q ∧ d q = some .file
  | .stream p => ∃ q, locate d p = some q ∧ d q = some .file

theorem Done.mono {d d' : Disk} (h : Le d d') {a : Act} (ha : Done d a) : Done d' a := by
  cases a <;> (obtain ⟨q, h1, h2⟩ := ha; exact ⟨q, locate_mono h h1, h _ _ h2⟩)

/-- The action will succeed. -/
def Fine (d : Disk) : Act → Prop
  | .folder p => ∃ q, locate d p = some q ∧ d q ≠ some .file ∧ (q = ["result".toList] ∨ ∃ low high, q = ["result".toList, folderName low high])
  | .fopen p => ∃ q, locate d p = some q ∧ d q ≠ some .dir ∧ (q = ["result".toList, "simBox.vtk".toList] ∨ q = ["TimeStepInfo.txt".toList] ∨ ∃ f g, q = ["result".toList, f, g])
  | .stream p => ∃ q, locate d p = some q ∧ d q ≠ some .dir ∧ ∃ f g, q = ["result".toList, f, g]

theorem le_update {d : Disk} {q : List Str} {k : Kind} (h : d q = none ∨ d q = some k) : Le d (Function.update d q (some k)) := by
  intro q' k' e
  rw [Function.update_apply]
  split_ifs with hq
  · subst hq
    rcases h with h | h <;> rw [h] at e
    · simp at e
    · exact e
  · exact e

theorem kind_cases {d : Disk} {q : List Str} : (d q ≠ some .file → d q = none ∨ d q = some .dir) ∧ (d q ≠ some .dir → d q = none ∨ d q = some .file) := by
  rcases h : d q with _ | k
  · simp
  · cases k <;> simp

theorem folderName_ne (low high : ℕ) : folderName low high ≠ "simBox.vtk".toList := by
  intro e
  have h1 : (folderName low high).head? = some 'r' := rfl
  rw [e] at h1
  exact absurd h1 (by decide)

theorem clear_dir {d : Disk} (h : Clear d) {q : List Str} (hq : q = ["result".toList] ∨ ∃ low high, q = ["result".toList, folderName low high]) :
    Clear (Function.update d q (some .dir)) := by
  have hlen : q.length = 1 ∨ q.length = 2 := by rcases hq with rfl | ⟨_, _, rfl⟩ <;> simp
  refine ⟨?_, fun low high => ?_, ?_, ?_, fun f g => ?_⟩
  · rw [Function.update_apply]; split_ifs; · simp
    · exact h.result
  · rw [Function.update_apply]; split_ifs; · simp
    · exact h.folders low high
  · rw [Function.update_apply, if_neg]; · exact h.box
    rcases hq with rfl | ⟨low, high, rfl⟩
    · decide
    · intro e
      exact folderName_ne low high (List.cons.inj (List.cons.inj e).2).1.symm
  · rw [Function.update_apply, if_neg]; · exact h.info
    rcases hq with rfl | ⟨low, high, rfl⟩
    · decide
    · intro e; simp at e
  · rw [Function.update_apply, if_neg]; · exact h.files f g
    rintro rfl
    simp at hlen

theorem clear_file {d : Disk} (h : Clear d) {q : List Str} (hq : q = ["result".toList, "simBox.vtk".toList] ∨ q = ["TimeStepInfo.txt".toList] ∨ ∃ f g, q = ["result".toList, f, g]) :
    Clear (Function.update d q (some .file)) := by
  refine ⟨?_, fun low high => ?_, ?_, ?_, fun f g => ?_⟩
  · rw [Function.update_apply, if_neg]; · exact h.result
    rcases hq with rfl | rfl | ⟨f, g, rfl⟩
    · decide
    · decide
    · intro e; simp at e
  · rw [Function.update_apply, if_neg]; · exact h.folders low high
    rcases hq with rfl | rfl | ⟨f, g, rfl⟩
    · intro e
      exact folderName_ne low high (List.cons.inj (List.cons.inj e).2).1
    · intro e; simp at e
    · intro e; simp at e
  · rw [Function.update_apply]; split_ifs; · simp
    · exact h.box
  · rw [Function.update_apply]; split_ifs; · simp
    · exact h.info
  · rw [Function.update_apply]; split_ifs; · simp
    · exact h.files f g

theorem act_fine (st : State) (r : ℕ) (a : Act) (hc : Clear st.disk) (h : Fine st.disk a) :
    Le st.disk (st.act r a).disk ∧ Clear (st.act r a).disk ∧ Done (st.act r a).disk a ∧ (st.act r a).dead = st.dead ∧ (st.act r a).lost = st.lost ∧
      (st.act r a).phase = st.phase ∧ (st.act r a).done = Function.update st.done r (st.done r + 1) := by
  cases a with
  | folder p =>
    obtain ⟨q, e, hk, hq⟩ := h
    have e0 : makeSubFolder (st.errno r) st.disk p = some (if st.disk q = none then (st.errno r, Function.update st.disk q (some .dir)) else (.eexist, st.disk)) := by
      unfold makeSubFolder mkdir
      rw [e]
      by_cases hn : st.disk q = none
      · simp only [hn, if_true]
        split_ifs with h1 h2
        · rfl
        · exact absurd rfl h2
        · rfl
      · simp only [if_neg hn, if_true]
    have e1 : (st.act r (.folder p)) = { st with done := Function.update st.done r (st.done r + 1), errno := (st.act r (.folder p)).errno, disk := if st.disk q = none then Function.update st.disk q (some .dir) else st.disk } := by
      unfold State.act
      simp only [e0]
      by_cases hn : st.disk q = none
      · simp only [hn, if_true]
      · simp only [if_neg hn]
    rw [e1]
    simp only
    by_cases hn : st.disk q = none
    · simp only [hn, if_true]
      have hle : Le st.disk (Function.update st.disk q (some .dir)) := le_update (Or.inl hn)
      exact ⟨hle, clear_dir hc hq, ⟨q, locate_mono hle e, by simp⟩, by simp⟩
    · simp only [if_neg hn]
      exact ⟨Le.refl _, hc, ⟨q, e, (kind_cases.1 hk).resolve_left hn⟩, by simp⟩
  | fopen p =>
    obtain ⟨q, e, hk, hq⟩ := h
    have e0 : create st.disk p = some (Function.update st.disk q (some .file)) := by
      unfold create; rw [e]; simp only [if_neg hk]
    have hle : Le st.disk (Function.update st.disk q (some .file)) := le_update (kind_cases.2 hk)
    unfold State.act
    simp only [e0]
    exact ⟨hle, clear_file hc hq, ⟨q, locate_mono hle e, by simp⟩, by simp⟩
  | stream p =>
    obtain ⟨q, e, hk, hq⟩ := h
    have e0 : create st.disk p = some (Function.update st.disk q (some .file)) := by
      unfold create; rw [e]; simp only [if_neg hk]
    have hle : Le st.disk (Function.update st.disk q (some .file)) := le_update (kind_cases.2 hk)
    unfold State.act
    simp only [e0]
    exact ⟨hle, clear_file hc (Or.inr (Or.inr hq)), ⟨q, locate_mono hle e, by simp⟩, by simp⟩

end Verif.Folders
