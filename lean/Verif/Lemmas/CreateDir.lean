import Verif.Model.CreateDir
import Verif.Spec.CreateDir
import Verif.Lemmas.Folders
import Verif.Lemmas.Text
import Mathlib.Tactic.Tauto
import Mathlib.Tactic.SplitIfs
namespace Verif.CreateDir
open Text Folders Spec.CreateDir

theorem path_cons (a b : Str) (l : List Str) : path (a :: b :: l) = a ++ '/' :: path (b :: l) := by
  simp [path, List.intercalate]

theorem path_one (a : Str) : path [a] = a := by simp [path]

theorem path_concat (l : List Str) (hl : l ≠ []) (c : Str) : path (l ++ [c]) = path l ++ '/' :: c := by
  induction l with
  | nil => exact absurd rfl hl
  | cons a l ih =>
    cases l with
    | nil => simp [path_one, path_cons]
    | cons b l =>
      have := ih (by simp)
      rw [List.cons_append, List.cons_append, path_cons, ← List.cons_append, this, path_cons]
      simp

theorem comps_path (l : List Str) (hl : l ≠ []) (h : ∀ c ∈ l, Name c) : comps (path l) = l := by
  induction l with
  | nil => exact absurd rfl hl
  | cons a l ih =>
    cases l with
    | nil => rw [path_one, comps_plain (h a (by simp)).2.1]
    | cons b l =>
      rw [path_cons, comps_append, comps_plain (h a (by simp)).2.1, ih (by simp) (fun c hc => h c (List.mem_cons_of_mem _ hc))]
      rfl

theorem path_ne (l : List Str) (hl : l ≠ []) (h : ∀ c ∈ l, Name c) : path l ≠ [] := by
  cases l with
  | nil => exact absurd rfl hl
  | cons a l =>
    cases l with
    | nil => rw [path_one]; exact (h a (by simp)).1
    | cons b l => rw [path_cons]; simp

theorem path_last (l : List Str) (h : ∀ c ∈ l, Name c) : (path l).getLast? ≠ some '/' := by
  rcases List.eq_nil_or_concat l with rfl | ⟨m, c, rfl⟩
  · simp [path]
  · rw [List.concat_eq_append] at h ⊢
    have hc := h c (by simp)
    have hlast : ∀ u : Str, (u ++ c).getLast? ≠ some '/' := by
      intro u e
      rw [List.getLast?_append] at e
      cases hcl : c.getLast? with
      | none => exact hc.1 (List.getLast?_eq_none_iff.1 hcl)
      | some x =>
        rw [hcl] at e
        simp only [Option.some_or, Option.some.injEq] at e
        subst e
        exact hc.2.1 (List.mem_of_getLast? hcl)
    cases m with
    | nil => simpa [path_one] using hlast []
    | cons a m =>
      rw [path_concat _ (by simp)]
      have := hlast (path (a :: m) ++ ['/'])
      simpa using this

theorem filter_names (l : List Str) (h : ∀ c ∈ l, Name c) : l.filter (fun c => c ≠ []) = l :=
  List.filter_eq_self.2 fun c hc => by simpa using (h c hc).1

/-- Following names that are all folders, and the first that is not. -/
theorem walk_names (d : Disk) (l cur : List Str) (h : ∀ c ∈ l, Name c) :
    (walk d cur l = some (cur ++ l) ∧ ∀ k, 0 < k → k ≤ l.length → d (cur ++ l.take k) = some .dir) ∨
    (walk d cur l = none ∧ ∃ k, 0 < k ∧ k ≤ l.length ∧ d (cur ++ l.take k) ≠ some .dir) := by
  induction l generalizing cur with
  | nil => left; exact ⟨by simp [walk], fun k h0 hk => by simp at hk; omega⟩
  | cons c l ih =>
    have hc := h c (by simp)
    unfold walk
    rw [if_neg hc.2.2.1, if_neg hc.2.2.2]
    by_cases hd : d (cur ++ [c]) = some .dir
    · rw [if_pos hd]
      rcases ih (cur ++ [c]) (fun x hx => h x (List.mem_cons_of_mem _ hx)) with ⟨h1, h2⟩ | ⟨h1, k, h0, hk, h2⟩
      · left
        refine ⟨by rw [h1]; simp, fun k h0 hk => ?_⟩
        obtain ⟨k, rfl⟩ : ∃ j, k = j + 1 := ⟨k - 1, by omega⟩
        cases k with
        | zero => simpa using hd
        | succ k =>
          have := h2 (k + 1) (by omega) (by simpa using hk)
          simpa using this
      · right
        exact ⟨h1, k + 1, by omega, by simpa using hk, by simpa using h2⟩
    · rw [if_neg hd]
      right
      exact ⟨rfl, 1, by omega, by simp, by simpa using hd⟩

theorem walk_some (d : Disk) (l : List Str) (h : ∀ c ∈ l, Name c) (hd : ∀ k, 0 < k → k ≤ l.length → d (l.take k) = some .dir) : walk d [] l = some l := by
  rcases walk_names d l [] h with ⟨h1, -⟩ | ⟨-, k, h0, hk, h2⟩
  · simpa using h1
  · exact absurd (by simpa using hd k h0 hk) h2

theorem walk_none (d : Disk) (l : List Str) (h : ∀ c ∈ l, Name c) (k : ℕ) (h0 : 0 < k) (hk : k ≤ l.length) (hd : d (l.take k) ≠ some .dir) : walk d [] l = none := by
  rcases walk_names d l [] h with ⟨-, h1⟩ | ⟨h1, -⟩
  · exact absurd (by simpa using h1 k h0 hk) hd
  · exact h1

theorem stat_names (d : Disk) (l : List Str) (c : Str) (h : ∀ x ∈ l ++ [c], Name x) :
    stat d (path (l ++ [c])) = (walk d [] l).bind fun cur => d (cur ++ [c]) := by
  have hc := h c (by simp)
  unfold stat
  rw [if_neg (path_ne _ (by simp) h), comps_path _ (by simp) h, filter_names _ h, List.reverse_append]
  simp only [List.reverse_singleton, List.singleton_append, List.reverse_reverse]
  congr 1
  funext cur
  rw [if_neg hc.2.2.1, if_neg hc.2.2.2, if_neg (fun k => path_last _ h k.1)]

theorem locate_names (d : Disk) (l : List Str) (c : Str) (h : ∀ x ∈ l ++ [c], Name x) :
    locate d (path (l ++ [c])) = (walk d [] l).map (· ++ [c]) := by
  have hc := h c (by simp)
  unfold locate
  rw [comps_path _ (by simp) h, filter_names _ h, List.reverse_append]
  simp only [List.reverse_singleton, List.singleton_append, List.reverse_reverse]
  rw [if_neg (by rintro (e | e); exacts [hc.2.2.1 e, hc.2.2.2 e])]

theorem withFolders_nil (d : Disk) : withFolders d [] = d := by
  funext q
  unfold withFolders
  rw [if_neg]
  rintro ⟨h1, h2⟩
  exact h1 (List.prefix_nil.1 h2)

theorem withFolders_concat (d : Disk) (l : List Str) (c : Str) :
    withFolders d (l ++ [c]) = Function.update (withFolders d l) (l ++ [c]) (some .dir) := by
  funext q
  unfold withFolders Function.update
  by_cases hq : q = l ++ [c]
  · subst hq; simp
  · rw [dif_neg hq]
    have : q <+: l ++ [c] ↔ q <+: l := by
      rw [List.prefix_concat_iff]
      tauto
    simp only [this]

theorem withFolders_take (d : Disk) (l : List Str) (k : ℕ) (h0 : 0 < k) (hk : k ≤ l.length) : withFolders d l (l.take k) = some .dir := by
  unfold withFolders
  rw [if_pos]
  refine ⟨fun e => ?_, List.take_prefix _ _⟩
  have := congrArg List.length e
  simp at this
  rcases this with h | h
  · omega
  · subst h; simp at hk; omega

theorem withFolders_next (d : Disk) (l : List Str) (c : Str) : withFolders d l (l ++ [c]) = d (l ++ [c]) := by
  unfold withFolders
  rw [if_neg]
  rintro ⟨-, h⟩
  have := h.length_le
  simp at this

/-- The text before the next name. -/
def frontOf (done : List Str) : Str := if done = [] then [] else path done ++ ['/']

theorem front_name (done : List Str) (c : Str) : frontOf done ++ c = path (done ++ [c]) := by
  unfold frontOf
  by_cases h : done = []
  · subst h; simp [path_one]
  · rw [if_neg h, path_concat _ h]; simp

theorem front_next (done : List Str) (c : Str) : path (done ++ [c]) ++ ['/'] = frontOf (done ++ [c]) := by
  unfold frontOf
  rw [if_neg (by simp)]

/-- One round of the loop. -/
theorem loop_step (n : ℕ) (d : Disk) (done : List Str) (t : Str) (ts : List Str) (h : ∀ c ∈ done ++ t :: ts, Name c) :
    loop (n + 1) d (frontOf done) (path (t :: ts)) =
      match ensure d (path (done ++ [t])) with
      | none => (false, d)
      | some d' => if ts = [] then (true, d') else loop n d' (frontOf (done ++ [t])) (path ts) := by
  have ht := h t (by simp)
  have h1 : (path (t :: ts)).takeWhile (· != '/') = t ∧ ((path (t :: ts)).dropWhile (· != '/')).drop 1 = path ts := by
    have hw : ∀ c ∈ t, (c != '/') = true := fun c hc => by simp only [bne_iff_ne]; rintro rfl; exact ht.2.1 hc
    cases ts with
    | nil =>
      have := takeWhile_append_stop (p := (· != '/')) t [] hw (fun c u e => by cases e)
      rw [List.append_nil] at this
      rw [path_one, this.1, this.2]
      exact ⟨rfl, rfl⟩
    | cons u us =>
      have := takeWhile_append_stop (p := (· != '/')) t ('/' :: path (u :: us)) hw (fun c v e => by injection e with e _; subst e; rfl)
      rw [path_cons, this.1, this.2]
      exact ⟨rfl, rfl⟩
  have hts : path ts = [] ↔ ts = [] := by
    constructor
    · intro e
      by_contra hn
      exact path_ne ts hn (fun c hc => h c (by simp [hc])) e
    · rintro rfl; rfl
  rw [loop]
  simp only [h1.1, h1.2, front_name, front_next, hts]
  rfl

theorem ensure_names (d : Disk) (l : List Str) (c : Str) (h : ∀ x ∈ l ++ [c], Name x) :
    ensure d (path (l ++ [c])) = (walk d [] l).bind fun q => if d (q ++ [c]) = none then some (Function.update d (q ++ [c]) (some .dir)) else some d := by
  unfold ensure mkdir
  rw [stat_names d l c h, locate_names d l c h]
  cases hw : walk d [] l with
  | none => simp [path_ne _ (by simp) h]
  | some q =>
    by_cases hq : d (q ++ [c]) = none
    · simp [path_ne _ (by simp) h, hq]
    · simp [hq]

/-- Without a file on the way, the loop makes the folders. -/
theorem loop_makes (d : Disk) (ts : List Str) : ∀ (n : ℕ) (done : List Str), ts ≠ [] → ts.length ≤ n → (∀ c ∈ done ++ ts, Name c) →
    (∀ q, q ≠ [] → q <+: done ++ ts → d q ≠ some .file) → loop n (withFolders d done) (frontOf done) (path ts) = (true, withFolders d (done ++ ts)) := by
  induction ts with
  | nil => intro n done h; exact absurd rfl h
  | cons t ts ih =>
    intro n done _ hn hname hf
    obtain ⟨n, rfl⟩ : ∃ j, n = j + 1 := ⟨n - 1, by simp at hn; omega⟩
    have hname' : ∀ c ∈ (done ++ [t]) ++ ts, Name c := by simpa using hname
    have hens : ensure (withFolders d done) (path (done ++ [t])) = some (withFolders d (done ++ [t])) := by
      rw [ensure_names _ _ _ (fun c hc => hname' c (List.mem_append_left _ hc)),
        walk_some _ _ (fun c hc => hname c (List.mem_append_left _ hc)) (fun k h0 hk => withFolders_take d done k h0 hk), Option.bind_some, withFolders_next,
        withFolders_concat]
      split_ifs with h0
      · rfl
      · have hdir : d (done ++ [t]) = some .dir := by
          have := hf (done ++ [t]) (by simp) ⟨ts, by simp⟩
          cases hk : d (done ++ [t]) with
          | none => exact absurd hk h0
          | some k => cases k with
            | dir => rfl
            | file => exact absurd hk this
        rw [← hdir, ← withFolders_next d done t, Function.update_eq_self]
    rw [loop_step n _ done t ts hname, hens]
    simp only
    split_ifs with he
    · subst he; rfl
    · have := ih n (done ++ [t]) he (by simpa using hn) hname' (by simpa using hf)
      simpa using this

/-- With a file on the way, nothing is made. -/
theorem loop_stops (d : Disk) (k : ℕ) (h0 : 0 < k) (ts : List Str) : ∀ (n : ℕ) (done : List Str), ts.length ≤ n → (∀ c ∈ done ++ ts, Name c) → done.length ≤ k →
    k < (done ++ ts).length → (∀ j, 0 < j → j < k → d ((done ++ ts).take j) = some .dir) → d ((done ++ ts).take k) = some .file →
    loop n d (frontOf done) (path ts) = (false, d) := by
  induction ts with
  | nil => intro n done _ _ h1 h2; simp at h2; omega
  | cons t ts ih =>
    intro n done hn hname hle hlt hdir hfile
    obtain ⟨n, rfl⟩ : ∃ j, n = j + 1 := ⟨n - 1, by simp at hn; omega⟩
    have hname' : ∀ c ∈ (done ++ [t]) ++ ts, Name c := by simpa using hname
    have hd : ∀ c ∈ done, Name c := fun c hc => hname c (List.mem_append_left _ hc)
    rw [loop_step n _ done t ts hname, ensure_names _ _ _ (fun c hc => hname' c (List.mem_append_left _ hc))]
    by_cases he : done.length = k
    · have hk : (done ++ t :: ts).take k = done.take k := by rw [List.take_append_of_le_length (by omega)]
      rw [walk_none d done hd k h0 (by omega) (by rw [← hk, hfile]; simp)]
      rfl
    · have hw : walk d [] done = some done := walk_some d done hd (fun j hj hjl => by
        have := hdir j hj (by omega)
        rwa [List.take_append_of_le_length hjl] at this)
      have hsome : d (done ++ [t]) ≠ none := by
        have ht : (done ++ t :: ts).take (done.length + 1) = done ++ [t] := by
          rw [List.take_append]; simp
        by_cases hl : done.length + 1 = k
        · rw [← ht, hl, hfile]; simp
        · rw [← ht, hdir _ (by omega) (by omega)]; simp
      rw [hw, Option.bind_some, if_neg hsome]
      simp only
      have hts : ts ≠ [] := by
        rintro rfl
        simp at hlt
        omega
      rw [if_neg hts]
      exact ih n (done ++ [t]) (by simpa using hn) hname' (by simp; omega) (by simpa using hlt) (by simpa using hdir) (by simpa using hfile)

/-- What is around something is a folder. -/
theorem tree_take {d : Disk} (hd : Tree d) (l : List Str) (j : ℕ) (h0 : 0 < j) : ∀ m, j + m + 1 ≤ l.length → d (l.take (j + m + 1)) ≠ none → d (l.take j) = some .dir := by
  have hne : ∀ i, 0 < i → i ≤ l.length → l.take i ≠ [] := by
    intro i hi hil e
    have := congrArg List.length e
    simp at this
    rcases this with h | h
    · omega
    · subst h; simp at hil; omega
  intro m
  induction m with
  | zero =>
    intro hl hs
    rw [Nat.add_zero, List.take_add_one, List.getElem?_eq_getElem (by omega)] at hs
    exact hd _ _ hs (hne j h0 (by omega))
  | succ m ih =>
    intro hl hs
    rw [List.take_add_one, List.getElem?_eq_getElem (by omega)] at hs
    have := hd _ _ hs (hne _ (by omega) (by omega))
    exact ih (by omega) (by rw [show j + m + 1 = j + (m + 1) by omega, this]; simp)

theorem length_path (l : List Str) (h : ∀ c ∈ l, Name c) : l.length ≤ (path l).length := by
  induction l with
  | nil => simp
  | cons a l ih =>
    have ha : 0 < a.length := List.length_pos_iff.2 (h a (by simp)).1
    have := ih (fun c hc => h c (List.mem_cons_of_mem _ hc))
    cases l with
    | nil => rw [path_one]; simp; omega
    | cons b l => rw [path_cons]; simp at this ⊢; omega

theorem stat_some {d : Disk} (l : List Str) (hl : l ≠ []) (h : ∀ c ∈ l, Name c) (hs : stat d (path l) ≠ none) :
    stat d (path l) = d l ∧ ∀ j, 0 < j → j < l.length → d (l.take j) = some .dir := by
  rcases List.eq_nil_or_concat l with rfl | ⟨m, c, rfl⟩
  · exact absurd rfl hl
  · rw [List.concat_eq_append] at h hs ⊢
    rw [stat_names d m c h] at hs ⊢
    rcases walk_names d m [] (fun x hx => h x (List.mem_append_left _ hx)) with ⟨h1, h2⟩ | ⟨h1, -⟩
    · rw [h1]
      refine ⟨by simp, fun j h0 hj => ?_⟩
      rw [List.take_append_of_le_length (by simp at hj; omega)]
      simpa using h2 j h0 (by simp at hj; omega)
    · rw [h1] at hs; simp at hs

theorem withFolders_self (d : Disk) (l : List Str) (h : ∀ j, 0 < j → j ≤ l.length → d (l.take j) = some .dir) : withFolders d l = d := by
  funext q
  unfold withFolders
  split_ifs with hq
  · have := h q.length (List.length_pos_iff.2 hq.1) hq.2.length_le
    rw [← List.prefix_iff_eq_take.1 hq.2] at this
    exact this.symm
  · rfl

theorem createDir_makes (d : Disk) (l : List Str) (hl : l ≠ []) (h : ∀ c ∈ l, Name c) (hf : ∀ q, q ≠ [] → q <+: l → d q ≠ some .file) :
    createDir d (path l) = (true, withFolders d l) := by
  unfold createDir
  split_ifs with hs he
  · obtain ⟨h1, h2⟩ := stat_some l hl h hs
    rw [withFolders_self d l]
    intro j h0 hj
    rcases Nat.lt_or_ge j l.length with hlt | hge
    · exact h2 j h0 hlt
    · rw [List.take_of_length_le hge]
      rw [h1] at hs
      cases hk : d l with
      | none => exact absurd hk hs
      | some k => cases k with
        | dir => rfl
        | file => exact absurd hk (hf l hl (List.prefix_refl l))
  · exact absurd he (path_ne l hl h)
  · have := loop_makes d l (path l).length [] hl (length_path l h) (by simpa using h) (by simpa using hf)
    rw [withFolders_nil] at this
    simpa [frontOf] using this

theorem createDir_stops {d : Disk} (hd : Tree d) (l : List Str) (h : ∀ c ∈ l, Name c) (k : ℕ) (h0 : 0 < k) (hk : k < l.length) (hf : d (l.take k) = some .file) :
    createDir d (path l) = (false, d) := by
  have hl : l ≠ [] := by rintro rfl; simp at hk
  unfold createDir
  split_ifs with hs he
  · have := (stat_some l hl h hs).2 k h0 hk
    rw [hf] at this
    simp at this
  · rfl
  · have := loop_stops d k h0 l (path l).length [] (length_path l h) (by simpa using h) (by simp) (by simpa using hk) (fun j hj hjk => by
      simpa using tree_take hd l j hj (k - j - 1) (by omega) (by rw [show j + (k - j - 1) + 1 = k by omega, hf]; simp)) (by simpa using hf)
    simpa [frontOf] using this

theorem dirName_path (l : List Str) (c : Str) (hc : Name c) : dirName (path (l ++ [c])) = path l := by
  unfold dirName
  by_cases hl : l = []
  · subst hl
    rw [List.nil_append, path_one, if_neg hc.2.1]
    rfl
  · rw [path_concat l hl, if_pos (by simp)]
    have hw : ∀ x ∈ c.reverse, (x != '/') = true := fun x hx => by simp only [bne_iff_ne]; rintro rfl; exact hc.2.1 (by simpa using hx)
    have := takeWhile_append_stop (p := (· != '/')) c.reverse ('/' :: (path l).reverse) hw (fun x v e => by injection e with e _; subst e; rfl)
    have e : (path l ++ '/' :: c).reverse = c.reverse ++ '/' :: (path l).reverse := by simp
    rw [e, this.2]
    simp

theorem create_names (d : Disk) (l : List Str) (c : Str) (h : ∀ x ∈ l ++ [c], Name x) :
    create d (path (l ++ [c])) = (walk d [] l).bind fun q => if d (q ++ [c]) = some .dir then none else some (Function.update d (q ++ [c]) (some .file)) := by
  unfold create
  rw [locate_names d l c h]
  cases walk d [] l <;> rfl


theorem createDir_nil (d : Disk) : createDir d (path []) = (false, d) := by
  have : path [] = [] := rfl
  rw [this]
  unfold createDir stat
  simp

theorem createDir_file {d : Disk} (hd : Tree d) (l : List Str) (hl : l ≠ []) (h : ∀ c ∈ l, Name c) (hf : d l = some .file) : createDir d (path l) = (true, d) := by
  have : stat d (path l) ≠ none := by
    rcases List.eq_nil_or_concat l with rfl | ⟨m, c, rfl⟩
    · exact absurd rfl hl
    · rw [List.concat_eq_append] at h hf ⊢
      rw [stat_names d m c h, walk_some d m (fun x hx => h x (List.mem_append_left _ hx)), Option.bind_some, hf]
      · simp
      · intro k h0 hk
        have := tree_take hd (m ++ [c]) k h0 (m.length - k) (by simp; omega) (by
          rw [show k + (m.length - k) + 1 = (m ++ [c]).length by simp; omega, List.take_length, hf]; simp)
        rwa [List.take_append_of_le_length hk] at this
  unfold createDir
  rw [if_pos this]

/-- If nothing is made and the file cannot be opened, all tries fail. -/
theorem openTries_fails (tr : Bool) (d : Disk) (p : Str) (h1 : (createDir d (dirName p)).2 = d) (h2 : create d p = none) : ∀ n, openTries tr n d p = none := by
  intro n
  induction n with
  | zero => rfl
  | succ n ih =>
    unfold openTries
    rw [h1]
    cases tr <;> simp [h2, ih]

theorem createDir_all (d : Disk) (l : List Str) (h : ∀ c ∈ l, Name c) (hf : ∀ q, q ≠ [] → q <+: l → d q ≠ some .file) :
    (createDir d (path l)).2 = withFolders d l := by
  by_cases hl : l = []
  · subst hl; rw [createDir_nil, withFolders_nil]
  · rw [createDir_makes d l hl h hf]

theorem opens (tr : Bool) (n : ℕ) (d : Disk) (l : List Str) (c : Str) (h : ∀ x ∈ l ++ [c], Name x) (hf : ∀ q, q ≠ [] → q <+: l → d q ≠ some .file)
    (hc : d (l ++ [c]) ≠ some .dir) : openTries tr (n + 1) d (path (l ++ [c])) = some (Function.update (withFolders d l) (l ++ [c]) (some .file)) := by
  have hl : ∀ x ∈ l, Name x := fun x hx => h x (List.mem_append_left _ hx)
  have hcr : ∀ e : Disk, (∀ k, 0 < k → k ≤ l.length → e (l.take k) = some .dir) → e (l ++ [c]) ≠ some .dir →
      create e (path (l ++ [c])) = some (Function.update e (l ++ [c]) (some .file)) := by
    intro e he hn
    rw [create_names e l c h, walk_some e l hl he, Option.bind_some, if_neg hn]
  have h1 := hcr (withFolders d l) (withFolders_take d l) (by rw [withFolders_next]; exact hc)
  have h2 := hcr (Function.update (withFolders d l) (l ++ [c]) (some .file)) (fun k h0 hk => by
      rw [Function.update_of_ne, withFolders_take d l k h0 hk]
      intro e
      have := congrArg List.length e
      simp at this
      omega) (by simp)
  rw [Function.update_idem] at h2
  unfold openTries
  rw [dirName_path l c (h c (by simp)), createDir_all d l hl hf]
  cases tr <;> simp [h1, h2]

theorem not_opens (tr : Bool) (n : ℕ) {d : Disk} (hd : Tree d) (l : List Str) (c : Str) (h : ∀ x ∈ l ++ [c], Name x)
    (hbad : (∃ q, q ≠ [] ∧ q <+: l ∧ d q = some .file) ∨ d (l ++ [c]) = some .dir) : openTries tr n d (path (l ++ [c])) = none := by
  have hl : ∀ x ∈ l, Name x := fun x hx => h x (List.mem_append_left _ hx)
  rcases hbad with ⟨q, hq, hp, hf⟩ | hdir
  · have hlen := hp.length_le
    have hpos := List.length_pos_iff.2 hq
    have ht := List.prefix_iff_eq_take.1 hp
    rw [ht] at hf
    have hne : l ≠ [] := by rintro rfl; simp at hlen; exact hq hlen
    apply openTries_fails
    · rw [dirName_path l c (h c (by simp))]
      rcases Nat.lt_or_ge q.length l.length with hlt | hge
      · rw [createDir_stops hd l hl q.length hpos hlt hf]
      · rw [List.take_of_length_le hge] at hf
        rw [createDir_file hd l hne hl hf]
    · rw [create_names d l c h, walk_none d l hl q.length hpos hlen (by rw [hf]; simp)]
      rfl
  · have hall : ∀ k, 0 < k → k ≤ l.length → d (l.take k) = some .dir := by
      intro k h0 hk
      have := tree_take hd (l ++ [c]) k h0 (l.length - k) (by simp; omega) (by
        rw [show k + (l.length - k) + 1 = (l ++ [c]).length by simp; omega, List.take_length, hdir]; simp)
      rwa [List.take_append_of_le_length hk] at this
    apply openTries_fails
    · rw [dirName_path l c (h c (by simp)), createDir_all d l hl, withFolders_self d l hall]
      intro q hq hp
      have := hall q.length (List.length_pos_iff.2 hq) hp.length_le
      rw [← List.prefix_iff_eq_take.1 hp] at this
      rw [this]; simp
    · rw [create_names d l c h, walk_some d l hl hall, Option.bind_some, if_pos hdir]

end Verif.CreateDir
