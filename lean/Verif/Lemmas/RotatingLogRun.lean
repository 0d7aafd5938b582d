import Verif.Lemmas.RotatingLog

namespace Verif.RotatingLog

open Text (Str dec)
open Spec.RotatingLog (folder size History)

/-! ### Whatever fails -/

/-- What opening the file, or rotating, leaves behind. -/
structure After (c : Conf) (s s' : Sink) (ok : Bool) : Prop where
  others : ∀ p, (∀ j ≤ c.maxFiles, p ≠ c.name j) → s'.files p = s.files p
  contents : ∀ j ≤ c.maxFiles, ∀ t, s'.files (c.name j) = some t → t = [] ∨ ∃ i ≤ c.maxFiles, s.files (c.name i) = some t
  good : ok = true → s'.isOpen = true ∧ s'.files (c.name 0) = some [] ∧ s'.size = s.size
  bad : ok = false → (s'.isOpen = true ∧ s'.files (c.name 0) = some [] ∧ s'.size = 0) ∨ (s'.isOpen = false ∧ s'.size = s.size)

theorem open_after (c : Conf) (s : Sink) : After c s (openFile c true s).2 (openFile c true s).1 := by
  have upd : ∀ j ≤ c.maxFiles, ∀ t, Function.update s.files (c.name 0) (some ([] : Str)) (c.name j) = some t →
      t = [] ∨ ∃ i ≤ c.maxFiles, s.files (c.name i) = some t := by
    intro j hj t ht
    by_cases h0 : c.name j = c.name 0
    · rw [h0, Function.update_self] at ht
      exact Or.inl (Option.some.inj ht).symm
    · rw [Function.update_of_ne h0] at ht
      exact Or.inr ⟨j, hj, ht⟩
  unfold openFile
  dsimp only
  cases s.opens.headD .opened with
  | opened =>
    refine ⟨fun p hp => Function.update_of_ne (hp 0 (Nat.zero_le _)) _ _, upd, fun _ => ⟨rfl, ?_, rfl⟩, nofun⟩
    exact Function.update_self _ _ _
  | refused => exact ⟨fun _ _ => rfl, fun j hj t ht => Or.inr ⟨j, hj, ht⟩, nofun, fun _ => Or.inr ⟨rfl, rfl⟩⟩
  | emptied =>
    exact ⟨fun p hp => Function.update_of_ne (hp 0 (Nat.zero_le _)) _ _, upd, nofun, fun _ => Or.inr ⟨rfl, rfl⟩⟩

theorem rotate_after (c : Conf) (s : Sink) : After c s (rotate c s).2 (rotate c s).1 := by
  have hk := loop_keeps c c.maxFiles { s with isOpen := false }
  have ha := open_after c (rotateLoop c c.maxFiles { s with isOpen := false }).2
  have ho : ∀ p, (∀ j ≤ c.maxFiles, p ≠ c.name j) →
      (openFile c true (rotateLoop c c.maxFiles { s with isOpen := false }).2).2.files p = s.files p :=
    fun p hp => (ha.others p hp).trans (hk.others p hp)
  have hc : ∀ j ≤ c.maxFiles, ∀ t,
      (openFile c true (rotateLoop c c.maxFiles { s with isOpen := false }).2).2.files (c.name j) = some t →
        t = [] ∨ ∃ i ≤ c.maxFiles, s.files (c.name i) = some t := by
    intro j hj t ht
    rcases ha.contents j hj t ht with h | ⟨i, hi, e⟩
    · exact Or.inl h
    · exact Or.inr (hk.contents i hi t e)
  unfold rotate
  dsimp only
  split_ifs with h1 h2
  · refine ⟨ho, hc, fun h => ?_, fun h => ?_⟩
    · obtain ⟨a, b, d⟩ := ha.good h
      exact ⟨a, b, d.trans hk.size⟩
    · rcases ha.bad h with h' | ⟨a, b⟩
      · exact Or.inl h'
      · exact Or.inr ⟨a, b.trans hk.size⟩
  · obtain ⟨a, b, d⟩ := ha.good h2
    exact ⟨ho, hc, nofun, fun _ => Or.inl ⟨a, b, rfl⟩⟩
  · refine ⟨ho, hc, nofun, fun _ => ?_⟩
    rcases ha.bad (by simpa using h2) with h' | ⟨a, b⟩
    · exact Or.inl h'
    · exact Or.inr ⟨a, b.trans hk.size⟩

/-- The invariant of a run: `rest` characters are still to come, and every file is as `G` says. -/
structure Inv (c : Conf) (G : Str → Prop) (rest : ℕ) (s : Sink) : Prop where
  isOpen : s.isOpen = true → ∃ t, s.files (c.name 0) = some t ∧ t.length ≤ s.size
  closed : s.isOpen = false → c.maxSize < s.size
  room : s.size + rest < 2 ^ 64
  good : ∀ j ≤ c.maxFiles, ∀ t, s.files (c.name j) = some t → G t

theorem Inv.sinkIt {c : Conf} {G : Str → Prop} {rest : ℕ} {s : Sink} {msg : Str} (h : Inv c G (msg.length + rest) s)
    (hsmall : ∀ t : Str, t.length ≤ c.maxSize → G t) (hmsg : G msg) :
    ∃ r, sinkIt c msg s = some r ∧ Inv c G rest r.2 ∧
      (∀ p, (∀ j ≤ c.maxFiles, p ≠ c.name j) → r.2.files p = s.files p) := by
  have hsz : sizeT (s.size + msg.length) = s.size + msg.length := Nat.mod_eq_of_lt (by have := h.room; omega)
  have hroom := h.room
  have wr : ∀ s' : Sink, ∀ u : Str, s'.isOpen = true → s'.files (c.name 0) = some u → (u ++ msg).length ≤ s'.size → G (u ++ msg) →
      s'.size + rest < 2 ^ 64 → (∀ j ≤ c.maxFiles, ∀ t, s'.files (c.name j) = some t → G t) →
      (∀ p, (∀ j ≤ c.maxFiles, p ≠ c.name j) → s'.files p = s.files p) →
      Inv c G rest { s' with files := Function.update s'.files (c.name 0) (some ((s'.files (c.name 0)).getD [] ++ msg)) } ∧
      (∀ p, (∀ j ≤ c.maxFiles, p ≠ c.name j) →
        Function.update s'.files (c.name 0) (some ((s'.files (c.name 0)).getD [] ++ msg)) p = s.files p) := by
    intro s' u ho hu hl hG hr hg hoth
    refine ⟨⟨fun _ => ⟨u ++ msg, ?_, hl⟩, fun hf => ?_, hr, fun j hj t ht => ?_⟩, fun p hp => ?_⟩
    · show Function.update _ _ _ _ = _
      rw [Function.update_self, hu]; rfl
    · exact absurd (ho.symm.trans hf) (by decide)
    · change Function.update _ _ _ _ = _ at ht
      by_cases h0 : c.name j = c.name 0
      · rw [h0, Function.update_self, hu] at ht
        rw [← Option.some.inj ht]; exact hG
      · rw [Function.update_of_ne h0] at ht
        exact hg j hj t ht
    · rw [Function.update_of_ne (hp 0 (Nat.zero_le _))]; exact hoth p hp
  unfold RotatingLog.sinkIt
  simp only [hsz]
  by_cases hbig : s.size + msg.length > c.maxSize
  · rw [if_pos hbig]
    have ha := rotate_after c { s with size := s.size + msg.length }
    have hg : ∀ j ≤ c.maxFiles, ∀ t, (rotate c { s with size := s.size + msg.length }).2.files (c.name j) = some t → G t := by
      intro j hj t ht
      rcases ha.contents j hj t ht with rfl | ⟨i, hi, e⟩
      · exact hsmall [] (Nat.zero_le _)
      · exact h.good i hi t e
    cases hok : (rotate c { s with size := s.size + msg.length }).1 with
    | true =>
      obtain ⟨a, b, d⟩ := ha.good hok
      simp only [if_true]
      rw [if_pos a]
      have := wr { (rotate c { s with size := s.size + msg.length }).2 with size := msg.length } [] a b (by simp)
        (by simpa using hmsg) (by show msg.length + rest < _; omega) hg ha.others
      exact ⟨_, rfl, this.1, this.2⟩
    | false =>
      simp only [Bool.false_eq_true, if_false]
      refine ⟨_, rfl, ⟨fun ho => ?_, fun hc => ?_, ?_, hg⟩, ha.others⟩
      · rcases ha.bad hok with ⟨_, b, d⟩ | ⟨a, _⟩
        · exact ⟨[], b, Nat.zero_le _⟩
        · exact absurd (a.symm.trans ho) (by decide)
      · rcases ha.bad hok with ⟨a, _, _⟩ | ⟨_, d⟩
        · exact absurd (a.symm.trans hc) (by decide)
        · dsimp only at d ⊢; rw [d]; exact hbig
      · rcases ha.bad hok with ⟨_, _, d⟩ | ⟨_, d⟩
        · dsimp only at d ⊢; omega
        · dsimp only at d ⊢; omega
  · rw [if_neg hbig]
    have ho : s.isOpen = true := by
      by_contra hc
      have := h.closed (by simpa using hc)
      omega
    obtain ⟨t, ht, hl⟩ := h.isOpen ho
    simp only [if_true]
    rw [if_pos ho]
    have := wr { s with size := s.size + msg.length } t ho ht (by simp only [List.length_append]; omega)
      (hsmall _ (by simp only [List.length_append]; omega)) (by show s.size + msg.length + rest < _; omega) h.good (fun _ _ => rfl)
    exact ⟨_, rfl, this.1, this.2⟩

theorem Inv.sinkAll {c : Conf} {G : Str → Prop} {msgs : List Str} {s : Sink} (h : Inv c G msgs.flatten.length s)
    (hsmall : ∀ t : Str, t.length ≤ c.maxSize → G t) (hmsg : ∀ m ∈ msgs, G m) :
    ∃ s', sinkAll c msgs s = some s' ∧ Inv c G 0 s' ∧
      (∀ p, (∀ j ≤ c.maxFiles, p ≠ c.name j) → s'.files p = s.files p) := by
  induction msgs generalizing s with
  | nil => exact ⟨s, rfl, h, fun _ _ => rfl⟩
  | cons m l ih =>
    rw [List.flatten_cons, List.length_append] at h
    obtain ⟨r, hr, hi, ho⟩ := h.sinkIt hsmall (hmsg m (by simp))
    obtain ⟨s', hs, hi', ho'⟩ := ih hi fun m hm => hmsg m (by simp [hm])
    refine ⟨s', ?_, hi', fun p hp => (ho' p hp).trans (ho p hp)⟩
    show (RotatingLog.sinkIt c m s).bind _ = _
    rw [hr]; exact hs

theorem create_inv {c : Conf} {ro : Bool} {files : Files} {rn : List Bool} {op : List Opened} {s : Sink} {n : ℕ}
    (h : create c ro files rn op = some s) (hroom : ((files (c.name 0)).getD []).length + n < 2 ^ 64) :
    Inv c (fun t => t = [] ∨ ∃ i ≤ c.maxFiles, files (c.name i) = some t) n s ∧
      (∀ p, (∀ j ≤ c.maxFiles, p ≠ c.name j) → s.files p = files p) := by
  unfold create openFile at h
  dsimp only at h
  cases hh : op.headD .opened with
  | refused => simp only [hh, Bool.false_eq_true, if_false, reduceCtorEq] at h
  | emptied => simp only [hh, Bool.false_eq_true, if_false, reduceCtorEq] at h
  | opened =>
    simp only [hh, if_true, Bool.false_eq_true, if_false, Function.update_self, Option.getD_some] at h
    have hc : ∀ j ≤ c.maxFiles, ∀ t,
        Function.update files (c.name 0) (some ((files (c.name 0)).getD [])) (c.name j) = some t →
          t = [] ∨ ∃ i ≤ c.maxFiles, files (c.name i) = some t := by
      intro j hj t ht
      by_cases h0 : c.name j = c.name 0
      · rw [h0, Function.update_self] at ht
        cases hf : files (c.name 0) with
        | none => rw [hf] at ht; exact Or.inl (Option.some.inj ht).symm
        | some u => rw [hf] at ht; exact Or.inr ⟨0, Nat.zero_le _, by rw [hf]; exact ht⟩
      · rw [Function.update_of_ne h0] at ht
        exact Or.inr ⟨j, hj, ht⟩
    have ho : ∀ p, (∀ j ≤ c.maxFiles, p ≠ c.name j) →
        Function.update files (c.name 0) (some ((files (c.name 0)).getD [])) p = files p :=
      fun p hp => Function.update_of_ne (hp 0 (Nat.zero_le _)) _ _
    split_ifs at h with h1 h2
    · have ha := rotate_after c
        { files := Function.update files (c.name 0) (some ((files (c.name 0)).getD [])), isOpen := true,
          size := ((files (c.name 0)).getD []).length, renames := rn, opens := op.tail }
      obtain ⟨a, b, d⟩ := ha.good h2
      have e := Option.some.inj h
      rw [e] at a b d ha
      refine ⟨⟨fun _ => ⟨[], b, Nat.zero_le _⟩, fun hf => absurd (a.symm.trans hf) (by decide), by rw [d]; exact hroom, ?_⟩,
        fun p hp => (ha.others p hp).trans (ho p hp)⟩
      intro j hj t ht
      rcases ha.contents j hj t ht with h' | ⟨i, hi, e⟩
      · exact Or.inl h'
      · exact hc i hi t e
    · obtain rfl := Option.some.inj h
      exact ⟨⟨fun _ => ⟨_, Function.update_self _ _ _, le_rfl⟩, nofun, hroom, hc⟩, ho⟩

/-! ### When nothing fails -/

/-- The files hold the newest chunks of `H`. -/
structure Rel (c : Conf) (n : ℕ) (H : List (List Str)) (s : Sink) : Prop where
  isOpen : s.isOpen = true
  renames : s.renames = []
  opens : s.opens = []
  size : s.size = n
  files : ∀ j ≤ c.maxFiles, s.files (c.name j) = (H[j]?).map List.flatten

theorem Rel.rotate {c : Conf} {n : ℕ} {H : List (List Str)} {s : Sink} (h : Rel c n H s) :
    (rotate c s).1 = true ∧ Rel c n ([] :: H) (rotate c s).2 := by
  have hL : ∀ j, (H.map List.flatten)[j]? = (H[j]?).map List.flatten := fun j => List.getElem?_map ..
  obtain ⟨a, b, d⟩ := loop_shift c (H.map List.flatten) c.maxFiles { s with isOpen := false } h.renames
    (fun j hj => by rw [hL]; exact h.files j hj.le)
    (fun hl => by
      show s.files _ = none
      rw [h.files _ le_rfl, ← hL, List.getElem?_eq_none_iff.2 hl.le])
  have hk := loop_keeps c c.maxFiles { s with isOpen := false }
  have hop : (rotateLoop c c.maxFiles { s with isOpen := false }).2.opens = [] := hk.opens.trans h.opens
  unfold RotatingLog.rotate
  dsimp only
  rw [if_pos a]
  unfold openFile
  simp only [hop, List.headD_nil, if_true]
  refine ⟨trivial, rfl, b, rfl, hk.size.trans h.size, fun j hj => ?_⟩
  show Function.update _ _ _ _ = _
  cases j with
  | zero => rw [Function.update_self]; rfl
  | succ j =>
    rw [Function.update_of_ne (name_ne c (by omega)), d j (by omega), hL]
    rfl

/-- A message goes into the newest chunk, or into a new one. -/
def absStep (max : ℕ) (m : Str) (n : ℕ) (a : List Str) (T : List (List Str)) : ℕ × List Str × List (List Str) :=
  if max < n + m.length then (m.length, [m], a :: T) else (n + m.length, a ++ [m], T)

theorem Rel.sinkIt {c : Conf} {n : ℕ} {a : List Str} {T : List (List Str)} {s : Sink} {m : Str} (h : Rel c n (a :: T) s)
    (hroom : n + m.length < 2 ^ 64) :
    ∃ r, sinkIt c m s = some (true, r) ∧
      Rel c (absStep c.maxSize m n a T).1 ((absStep c.maxSize m n a T).2.1 :: (absStep c.maxSize m n a T).2.2) r := by
  have hsz : sizeT (s.size + m.length) = n + m.length := by rw [h.size]; exact Nat.mod_eq_of_lt hroom
  have wr : ∀ (s' : Sink) (k : ℕ) (b : List Str) (U : List (List Str)), Rel c k (b :: U) s' →
      Rel c k ((b ++ [m]) :: U)
        { s' with files := Function.update s'.files (c.name 0) (some ((s'.files (c.name 0)).getD [] ++ m)) } := by
    intro s' k b U hr
    refine ⟨hr.isOpen, hr.renames, hr.opens, hr.size, fun j hj => ?_⟩
    show Function.update _ _ _ _ = _
    cases j with
    | zero => rw [Function.update_self, hr.files 0 (Nat.zero_le _)]; simp
    | succ j =>
      rw [Function.update_of_ne (name_ne c (by omega)), hr.files _ hj]
      rfl
  unfold RotatingLog.sinkIt absStep
  simp only [hsz]
  by_cases hbig : c.maxSize < n + m.length
  · have hr : Rel c (n + m.length) (a :: T) { s with size := n + m.length } :=
      ⟨h.isOpen, h.renames, h.opens, rfl, h.files⟩
    obtain ⟨ok, hrel⟩ := hr.rotate
    rw [if_pos hbig, if_pos hbig]
    simp only [ok, if_true]
    rw [if_pos hrel.isOpen]
    refine ⟨_, rfl, ?_⟩
    have := wr { (RotatingLog.rotate c { s with size := n + m.length }).2 with size := m.length } m.length [] (a :: T)
      ⟨hrel.isOpen, hrel.renames, hrel.opens, rfl, hrel.files⟩
    exact this
  · rw [if_neg hbig, if_neg hbig]
    simp only [if_true]
    rw [if_pos h.isOpen]
    exact ⟨_, rfl, wr { s with size := n + m.length } (n + m.length) a T ⟨h.isOpen, h.renames, h.opens, rfl, h.files⟩⟩

/-- What is known about the chunks: `P` are the files of the beginning, and `k` chunks are at the end that say nothing about full
files; `exact` if the count of characters is right. -/
structure Chunks (max : ℕ) (P : List (List Str)) (k : ℕ) (exact : Bool) (done : List Str) (n : ℕ) (a : List Str)
    (T : List (List Str)) : Prop where
  history : History max P (a :: T) done
  count : size a ≤ n
  counted : exact = true → n = size a
  long : k ≤ T.length + 1
  full : exact = true → ∀ j b d, j + k < T.length + 1 → (a :: T)[j]? = some b → (a :: T)[j + 1]? = some d → max < size b + size d

theorem size_snoc (a : List Str) (m : Str) : size (a ++ [m]) = size a + m.length := by simp [size]

theorem Chunks.step {max : ℕ} {P : List (List Str)} {k : ℕ} {e : Bool} {done : List Str} {n : ℕ} {a : List Str} {T : List (List Str)}
    (h : Chunks max P k e done n a T) (m : Str) :
    Chunks max P k e (done ++ [m]) (absStep max m n a T).1 (absStep max m n a T).2.1 (absStep max m n a T).2.2 := by
  have hc := h.history.complete
  have hcnt := h.count
  have sm : size [m] = m.length := by simp [size]
  unfold absStep
  split_ifs with hbig
  · refine ⟨⟨?_, ?_⟩, ?_, ?_, ?_, ?_⟩
    · rw [List.reverse_cons, List.flatten_append, hc]; simp
    · intro b hb
      rcases List.mem_cons.1 hb with rfl | hb
      · exact Or.inr (Or.inl (by simp))
      · exact h.history.small b hb
    · exact sm.le
    · exact fun _ => sm.symm
    · have := h.long
      simp only [List.length_cons]; omega
    · intro he j b d hj hb hd
      cases j with
      | zero =>
        obtain rfl : [m] = b := by simpa using hb
        obtain rfl : a = d := by simpa using hd
        have := h.counted he
        rw [sm]; omega
      | succ j =>
        refine h.full he j b d ?_ (by simpa using hb) (by simpa using hd)
        simp only [List.length_cons] at hj; omega
  · refine ⟨⟨?_, ?_⟩, ?_, ?_, h.long, ?_⟩
    · have : (a :: T).reverse.flatten = T.reverse.flatten ++ a := by simp
      rw [this] at hc
      simp only [List.reverse_cons, List.flatten_append, List.flatten_cons, List.flatten_nil, List.append_nil]
      rw [← List.append_assoc, hc, List.append_assoc]
    · intro b hb
      rcases List.mem_cons.1 hb with rfl | hb
      · left; rw [size_snoc]; omega
      · exact h.history.small b (by simp [hb])
    · rw [size_snoc]; dsimp only; omega
    · intro he
      have := h.counted he
      rw [size_snoc]; dsimp only; omega
    · intro he j b d hj hb hd
      cases j with
      | zero =>
        have := h.full he 0 a d hj (by simp) (by simpa using hd)
        obtain rfl : a ++ [m] = b := by simpa using hb
        rw [size_snoc]; omega
      | succ j => exact h.full he (j + 1) b d hj (by simpa using hb) (by simpa using hd)

theorem Chunks.run {c : Conf} {P : List (List Str)} {k : ℕ} {e : Bool} {msgs done : List Str} {n : ℕ} {a : List Str}
    {T : List (List Str)} {s : Sink} (h : Chunks c.maxSize P k e done n a T) (hr : Rel c n (a :: T) s)
    (hroom : n + msgs.flatten.length < 2 ^ 64) :
    ∃ s' n' a' T', sinkAll c msgs s = some s' ∧ Rel c n' (a' :: T') s' ∧ Chunks c.maxSize P k e (done ++ msgs) n' a' T' := by
  induction msgs generalizing done n a T s with
  | nil => exact ⟨s, n, a, T, rfl, hr, by simpa using h⟩
  | cons m l ih =>
    rw [List.flatten_cons, List.length_append] at hroom
    obtain ⟨r, he, hrel⟩ := hr.sinkIt (m := m) (by omega)
    obtain ⟨s', n', a', T', h1, h2, h3⟩ := ih (h.step m) hrel (by unfold absStep; split_ifs <;> dsimp only <;> omega)
    refine ⟨s', n', a', T', ?_, h2, by simpa using h3⟩
    show (RotatingLog.sinkIt c m s).bind _ = _
    rw [he]; exact h1

/-- The constructor. -/
theorem create_rel (c : Conf) (ro : Bool) (files : Files) (P : List (List Str))
    (hP : ∀ j ≤ c.maxFiles, files (c.name j) = (P[j]?).map List.flatten) :
    ∃ s a T, create c ro files [] [] = some s ∧ Rel c ((files (c.name 0)).getD []).length (a :: T) s ∧
      Chunks c.maxSize P (max 1 P.length) (!ro) [] ((files (c.name 0)).getD []).length a T := by
  obtain ⟨a, T, haT, hhead, hslots, hrev, hmem, hlen⟩ : ∃ a T, (P = [] ∧ a = [] ∧ T = [] ∨ P = a :: T) ∧
      a.flatten = (files (c.name 0)).getD [] ∧
      (∀ j, j ≠ 0 → (a :: T)[j]? = P[j]?) ∧ (a :: T).reverse.flatten = P.reverse.flatten ∧
      (∀ b ∈ a :: T, size b ≤ c.maxSize ∨ b.length ≤ 1 ∨ b ∈ P) ∧ T.length + 1 = max 1 P.length := by
    have h0 := hP 0 (Nat.zero_le _)
    cases P with
    | nil =>
      refine ⟨[], [], Or.inl ⟨rfl, rfl, rfl⟩, by rw [h0]; rfl, fun j hj => ?_, rfl, fun b hb => ?_, rfl⟩
      · cases j with
        | zero => exact absurd rfl hj
        | succ j => rfl
      · obtain rfl : b = [] := by simpa using hb
        exact Or.inr (Or.inl (by simp))
    | cons a T =>
      refine ⟨a, T, Or.inr rfl, by rw [h0]; rfl, fun _ _ => rfl, rfl, fun b hb => Or.inr (Or.inr hb), ?_⟩
      simp only [List.length_cons]; omega
  have hs : size a = ((files (c.name 0)).getD []).length := by unfold size; rw [hhead]
  have hrel : Rel c ((files (c.name 0)).getD []).length (a :: T)
      { files := Function.update files (c.name 0) (some ((files (c.name 0)).getD [])), isOpen := true,
        size := ((files (c.name 0)).getD []).length, renames := [], opens := [] } := by
    refine ⟨rfl, rfl, rfl, rfl, fun j hj => ?_⟩
    show Function.update _ _ _ _ = _
    cases j with
    | zero => rw [Function.update_self, ← hhead]; rfl
    | succ j => rw [Function.update_of_ne (name_ne c (by omega)), hP _ hj, hslots _ (by omega)]
  unfold create openFile
  simp only [List.headD_nil, List.tail_nil, if_true, Bool.false_eq_true, if_false, Function.update_self, Option.getD_some]
  by_cases hro : ro = true ∧ ((files (c.name 0)).getD []).length > 0
  · obtain ⟨ok, hr⟩ := hrel.rotate
    rw [if_pos hro, if_pos ok]
    refine ⟨_, [], a :: T, rfl, hr, ⟨?_, ?_⟩, Nat.zero_le _, ?_, ?_, ?_⟩
    · rw [List.append_nil, ← hrev]; simp
    · intro b hb
      rcases List.mem_cons.1 hb with rfl | hb
      · exact Or.inr (Or.inl (by simp))
      · exact hmem b hb
    · rw [hro.1]; nofun
    · simp only [List.length_cons]; omega
    · rw [hro.1]; nofun
  · rw [if_neg hro]
    refine ⟨_, a, T, rfl, hrel, ⟨by rw [List.append_nil, hrev], hmem⟩, hs.le, fun _ => hs.symm, hlen.ge, fun _ j b d hj _ _ => ?_⟩
    omega

end Verif.RotatingLog
