import Verif.Spec.Walk
import Verif.Lemmas.Moment
import Verif.Lemmas.TreeLink
/-! Lemmas about walks through the tree. -/
namespace Verif.Tree
open Classical

variable {α β : Type}

/-- The facts about a built tree that the walks need. -/
structure Good (big : ℝ) (keys : List (BitVec 64)) (T : MTree α) : Prop where
  linked : Linked T.r keys T.limit
  limit : 1 ≤ T.limit
  len : T.eps.length = keys.length
  mom : MomOk big T.r keys T.limit T.eps T.mom 0

theorem Built.good {big : ℝ} {keys : List (BitVec 64)} {T : MTree α} (h : Built big keys T) : Good big keys T := by
  obtain ⟨order, order', part, m, mom, h1, h2, h3, h4, h5, h6, h7⟩ := h
  obtain ⟨r, R, e1, e2⟩ := linkCell_final keys h3 T.limit h4 order h1 part m
  rw [h6] at e1
  obtain rfl := Option.some.inj e1
  have hL := linked_of_final keys T.limit R T.r e2
  obtain ⟨mom', f1, f2⟩ := calcMoment_eq big T.r keys T.limit order' h2 T.eps hL h5 mom
  rw [h7] at f1
  obtain rfl := Option.some.inj f1
  exact ⟨hL, h4, h5, f2⟩

theorem isLeaf_iff (c : Cell) (limit : ℕ) : c.isLeaf limit = true ↔ c.n ≤ limit ∨ c.level = levelLimit := by
  simp only [Cell.isLeaf, Bool.or_eq_true, decide_eq_true_eq]

/-- The concatenation of the contributions of the children. -/
def concatLoop (X : ℕ → Option (List β)) : List ℕ → Option (List β)
  | [] => some []
  | i :: is =>
    match X i, concatLoop X is with
    | some l, some l' => some (l ++ l')
    | _, _ => none

theorem concatLoop_nil (X : ℕ → Option (List β)) (i : ℕ) (is : List ℕ) (h : X i = some []) :
    concatLoop X (i :: is) = concatLoop X is := by
  rw [concatLoop, h]
  cases concatLoop X is <;> rfl

theorem concatLoop_spec (X : ℕ → Option (List ℕ)) (b : ℕ → ℕ) (P : ℕ → ℕ → Prop) (hb : ∀ j < 8, b j ≤ b (j + 1))
    (hX : ∀ j < 8, ∃ L, X j = some L ∧ L.Pairwise (· < ·) ∧ (∀ i ∈ L, b j ≤ i ∧ i < b (j + 1)) ∧ ∀ i, i ∈ L ↔ P j i) :
    ∀ (k j : ℕ), j + k = 8 → ∃ L, concatLoop X (List.range' j k) = some L ∧ L.Pairwise (· < ·) ∧
      (∀ i ∈ L, b j ≤ i ∧ i < b 8) ∧ (b j ≤ b 8) ∧ ∀ i, i ∈ L ↔ ∃ m, j ≤ m ∧ m < 8 ∧ P m i := by
  intro k
  induction k with
  | zero =>
    intro j hj
    obtain rfl : j = 8 := by omega
    refine ⟨[], rfl, List.Pairwise.nil, by simp, le_refl _, fun i => ?_⟩
    constructor
    · intro h; simp at h
    · rintro ⟨m, h1, h2, _⟩; omega
  | succ k ih =>
    intro j hj
    obtain ⟨L', e1, e2, e3, e4, e5⟩ := ih (j + 1) (by omega)
    obtain ⟨L, f1, f2, f3, f4⟩ := hX j (by omega)
    have hbj := hb j (by omega)
    refine ⟨L ++ L', ?_, ?_, ?_, le_trans hbj e4, ?_⟩
    · rw [List.range'_succ, concatLoop, f1, e1]
    · rw [List.pairwise_append]
      refine ⟨f2, e2, fun x hx y hy => ?_⟩
      have := (f3 x hx).2
      have := (e3 y hy).1
      omega
    · intro i hi
      rcases List.mem_append.mp hi with h | h
      · have := f3 i h; omega
      · have := e3 i h; omega
    · intro i
      rw [List.mem_append, f4, e5]
      constructor
      · rintro (h | ⟨m, h1, h2, h3⟩)
        · exact ⟨j, le_refl _, by omega, h⟩
        · exact ⟨m, by omega, h2, h3⟩
      · rintro ⟨m, h1, h2, h3⟩
        rcases Nat.lt_or_eq_of_le h1 with h | h
        · exact Or.inr ⟨m, h, h2, h3⟩
        · subst h; exact Or.inl h3

section leaves

variable {big : ℝ} {keys : List (BitVec 64)} {T : MTree α}

theorem InLeaf.range {i c l : ℕ} (h : InLeaf T i c l) : ∀ {lev a n : ℕ}, 1 ≤ T.limit → IsTree T.r keys T.limit lev c a n →
    (a ≤ i ∧ i < a + n) ∧ ∃ lev' a' n', IsTree T.r keys T.limit lev' l a' n' ∧ a' ≤ i ∧ i < a' + n' ∧
      a ≤ a' ∧ a' + n' ≤ a + n ∧ (T.r.mem l).isLeaf T.limit = true ∧ (T.r.mem l).adr = some a' ∧ (T.r.mem l).n = n' ∧
      InLeaf T i l l := by
  induction h with
  | leaf c a0 hl ha h1 h2 =>
    intro lev a n hlim ht
    have hc := ht.cell
    have hn : 0 < n := by omega
    have haa : (T.r.mem c).adr = some a := by
      cases ht with
      | empty => omega
      | leaf => assumption
      | node => assumption
    obtain rfl := Option.some.inj (ha.symm.trans haa)
    refine ⟨⟨h1, by omega⟩, lev, a0, n, ht, h1, by omega, le_refl _, le_refl _, hl, ha, hc.2.2.2.2.1, InLeaf.leaf c a0 hl ha h1 h2⟩
  | child c t j l hl ha hj hin ih =>
    intro lev a n hlim ht
    have hnl : ¬ ((T.r.mem c).n ≤ T.limit ∨ (T.r.mem c).level = levelLimit) := by
      rw [← isLeaf_iff, hl]; simp
    cases ht with
    | empty _ _ _ g1 g2 g3 g4 g5 g6 => omega
    | leaf _ _ _ _ g1 g2 g3 g4 g5 g6 g7 g8 g9 g10 => rw [g5, g6] at hnl; exact absurd g10 hnl
    | node _ _ _ _ t' b h1 h2 h3 h4 h5 h6 h7 h8 h9 h10 h11 h12 h13 h14 h15 h16 =>
      obtain rfl := Option.some.inj (ha.symm.trans h11)
      obtain ⟨⟨r1, r2⟩, lev', a', n', f1, f2, f3, f4, f5, f6, f7, f8, f9⟩ := ih hlim (h16 j hj)
      have m0 : ∀ k, k ≤ 8 → b 0 ≤ b k := by
        intro k hk
        induction k with
        | zero => exact le_refl _
        | succ k ihk => exact le_trans (ihk (by omega)) (h14 k (by omega))
      have m8 : ∀ k, k ≤ 8 → b k ≤ b 8 := by
        intro k hk
        obtain ⟨d, hd⟩ : ∃ d, k + d = 8 := ⟨8 - k, by omega⟩
        induction d generalizing k with
        | zero => obtain rfl : k = 8 := by omega
                  exact le_refl _
        | succ d ihd => exact le_trans (h14 k (by omega)) (ihd (k + 1) (by omega) (by omega))
      have p1 := m0 j (by omega)
      have p2 := m8 (j + 1) (by omega)
      have p3 := h14 j hj
      exact ⟨⟨by omega, by omega⟩, lev', a', n', f1, f2, f3, by omega, by omega, f6, f7, f8, f9⟩

theorem exists_child {b : ℕ → ℕ} (i : ℕ) : ∀ k, b 0 ≤ i → i < b k → ∃ j < k, b j ≤ i ∧ i < b (j + 1) := by
  intro k
  induction k with
  | zero => intro h1 h2; omega
  | succ k ih =>
    intro h1 h2
    by_cases h : i < b k
    · obtain ⟨j, j1, j2, j3⟩ := ih h1 h
      exact ⟨j, by omega, j2, j3⟩
    · exact ⟨k, by omega, by omega, h2⟩

theorem exists_inLeaf {lev c a n : ℕ} (h : IsTree T.r keys T.limit lev c a n) :
    ∀ i, a ≤ i → i < a + n → ∃ l, InLeaf T i c l := by
  induction h with
  | empty => intro i h1 h2; omega
  | leaf lev c a n g1 g2 g3 g4 g5 g6 g7 g8 g9 g10 =>
    intro i h1 h2
    exact ⟨c, InLeaf.leaf c a ((isLeaf_iff _ _).mpr (by rw [g5, g6]; exact g10)) g8 h1 (by omega)⟩
  | node lev c a n t b h1 h2 h3 h4 h5 h6 h7 h8 h9 h10 h11 h12 h13 h14 h15 h16 ih =>
    intro i i1 i2
    obtain ⟨j, j1, j2, j3⟩ := exists_child (b := b) i 8 (by omega) (by omega)
    obtain ⟨l, hl⟩ := ih j j1 i j2 (by omega)
    have hnl : (T.r.mem c).isLeaf T.limit = false := by
      rw [← Bool.not_eq_true, isLeaf_iff, h5, h6]; omega
    exact ⟨l, InLeaf.child c t j l hnl h11 j1 hl⟩

theorem inLeaf_unique {lev c a n : ℕ} (hlim : 1 ≤ T.limit) (h : IsTree T.r keys T.limit lev c a n) :
    ∀ i l l', InLeaf T i c l → InLeaf T i c l' → l = l' := by
  induction h with
  | empty lev c a h1 h2 h3 h4 h5 h6 =>
    intro i l l' h
    have := (h.range hlim (keys := keys) (IsTree.empty lev c a h1 h2 h3 h4 h5 h6)).1
    omega
  | leaf lev c a n g1 g2 g3 g4 g5 g6 g7 g8 g9 g10 =>
    intro i l l' h h'
    have hl : (T.r.mem c).isLeaf T.limit = true := (isLeaf_iff _ _).mpr (by rw [g5, g6]; exact g10)
    have : ∀ l, InLeaf T i c l → l = c := by
      intro l h
      cases h with
      | leaf => rfl
      | child _ _ _ _ h0 => rw [hl] at h0; simp at h0
    rw [this l h, this l' h']
  | node lev c a n t b h1 h2 h3 h4 h5 h6 h7 h8 h9 h10 h11 h12 h13 h14 h15 h16 ih =>
    intro i l l' h h'
    have hnl : (T.r.mem c).isLeaf T.limit = false := by
      rw [← Bool.not_eq_true, isLeaf_iff, h5, h6]; omega
    have key : ∀ l, InLeaf T i c l → ∃ j < 8, InLeaf T i (t + j) l ∧ b j ≤ i ∧ i < b (j + 1) := by
      intro l h
      cases h with
      | leaf _ _ h0 => rw [hnl] at h0; simp at h0
      | child _ t' j _ k1 k2 k3 k4 =>
        obtain rfl := Option.some.inj (h11.symm.trans k2)
        have := (k4.range hlim (h16 j k3)).1
        exact ⟨j, k3, k4, by omega, by omega⟩
    have mono : ∀ k m, k ≤ m → m ≤ 8 → b k ≤ b m := by
      intro k m hkm hm
      induction m with
      | zero => obtain rfl : k = 0 := by omega
                exact le_refl _
      | succ m ihm =>
        rcases Nat.lt_or_eq_of_le hkm with q | q
        · exact le_trans (ihm (by omega) (by omega)) (h14 m (by omega))
        · rw [q]
    obtain ⟨j, j1, j2, j3, j4⟩ := key l h
    obtain ⟨j', j1', j2', j3', j4'⟩ := key l' h'
    have : j = j' := by
      rcases Nat.lt_trichotomy j j' with q | q | q
      · have := mono (j + 1) j' q (by omega); omega
      · exact q
      · have := mono (j' + 1) j q (by omega); omega
    subst this
    exact ih j j1 i l l' j2 j2'

end leaves

theorem copyClose_spec (eps : List (Ep α)) (keep : Ep α → Prop) : ∀ (n a : ℕ), a + n ≤ eps.length →
    ∃ L, copyClose eps keep (List.range' a n) = some L ∧ L.Pairwise (· < ·) ∧ (∀ i ∈ L, a ≤ i ∧ i < a + n) ∧
      ∀ i, i ∈ L ↔ a ≤ i ∧ i < a + n ∧ ∃ e, eps[i]? = some e ∧ keep e := by
  intro n
  induction n with
  | zero => intro a _; refine ⟨[], rfl, List.Pairwise.nil, by simp, fun i => ?_⟩
            constructor
            · intro h; simp at h
            · rintro ⟨h1, h2, _⟩; omega
  | succ n ih =>
    intro a h
    obtain ⟨L, e1, e2, e3, e4⟩ := ih (a + 1) (by omega)
    have hk : eps[a]? = some (eps[a]'(by omega)) := List.getElem?_eq_getElem (by omega)
    rw [List.range'_succ, copyClose, e1, hk]
    simp only
    by_cases hkeep : keep (eps[a]'(by omega))
    · refine ⟨a :: L, by rw [if_pos hkeep], ?_, ?_, ?_⟩
      · rw [List.pairwise_cons]
        exact ⟨fun x hx => by have := e3 x hx; omega, e2⟩
      · intro i hi
        rcases List.mem_cons.mp hi with h | h
        · omega
        · have := e3 i h; omega
      · intro i
        rw [List.mem_cons, e4]
        constructor
        · rintro (h | ⟨h1, h2, h3⟩)
          · subst h; exact ⟨le_refl _, by omega, _, hk, hkeep⟩
          · exact ⟨by omega, by omega, h3⟩
        · rintro ⟨h1, h2, h3⟩
          by_cases hia : i = a
          · exact Or.inl hia
          · exact Or.inr ⟨by omega, by omega, h3⟩
    · refine ⟨L, by rw [if_neg hkeep], e2, ?_, ?_⟩
      · intro i hi; have := e3 i hi; omega
      · intro i
        rw [e4]
        constructor
        · rintro ⟨h1, h2, h3⟩; exact ⟨by omega, by omega, h3⟩
        · rintro ⟨h1, h2, e, h3, h4⟩
          by_cases hia : i = a
          · subst hia
            rw [hk] at h3
            rw [Option.some.inj h3] at hkeep
            exact absurd h4 hkeep
          · exact ⟨by omega, by omega, e, h3, h4⟩

theorem walkChildren_eq (T : MTree α) (opn : Mom → Prop) (walk : ℕ → Option (List ℕ)) (t : ℕ) (is : List ℕ) :
    walkChildren T opn walk t is = concatLoop (fun i =>
      if t + i < T.r.size then if (T.r.mem (t + i)).n = 0 then some [] else if opn (T.mom (t + i)) then walk (t + i)
        else some [] else none) is := by
  induction is with
  | nil => rfl
  | cons i is ih =>
    rw [walkChildren]
    by_cases h1 : t + i < T.r.size
    · rw [if_pos h1]
      by_cases h2 : (T.r.mem (t + i)).n = 0
      · rw [if_pos h2, concatLoop_nil _ _ _ (by rw [if_pos h1, if_pos h2]), ih]
      · rw [if_neg h2]
        by_cases h3 : opn (T.mom (t + i))
        · rw [if_pos h3, concatLoop, if_pos h1, if_neg h2, if_pos h3, ih]
          generalize concatLoop _ is = y
          cases walk (t + i) <;> cases y <;> rfl
        · rw [if_neg h3, concatLoop_nil _ _ _ (by rw [if_pos h1, if_neg h2, if_neg h3]), ih]
    · rw [if_neg h1, concatLoop, if_neg h1]

theorem range8 : List.range nChildren = List.range' 0 8 := by decide

/-- A walk that enters open cells and keeps what `S` selects. -/
theorem makeList_spec {big : ℝ} {keys : List (BitVec 64)} {T : MTree α} (hG : Good big keys T) (opn : Mom → Prop)
    (keep : Ep α → Prop) (E : Prop) (S : ℕ → ℕ → Prop)
    (hS : ∀ i c l lev a n, IsTree T.r keys T.limit lev c a n → InLeaf T i c l → S l i → opn (T.mom c))
    (hK : ∀ i l e, InLeaf T i l l → (opn (T.mom l) ∨ E) → T.eps[i]? = some e → (keep e ↔ S l i))
    {lev c a n : ℕ} (ht : IsTree T.r keys T.limit lev c a n) : ∀ f, 22 ≤ f + lev → (opn (T.mom c) ∨ E) →
      ∃ L, makeList T opn keep f c = some L ∧ L.Pairwise (· < ·) ∧ (∀ i ∈ L, a ≤ i ∧ i < a + n) ∧
        ∀ i, i ∈ L ↔ ∃ l, InLeaf T i c l ∧ S l i := by
  have hlen := hG.len
  have hl21 : ∀ {lev c a n}, IsTree T.r keys T.limit lev c a n → lev ≤ 21 := fun h => by
    have := h.cell.2.2.2.1
    have := hG.linked.levMax
    omega
  induction ht with
  | empty lev c a h1 h2 h3 h4 h5 h6 =>
    intro f hf ho
    obtain ⟨f, rfl⟩ : ∃ g, f = g + 1 := ⟨f - 1, by have := hl21 (IsTree.empty lev c a h1 h2 h3 h4 h5 h6); omega⟩
    have hl : (T.r.mem c).isLeaf T.limit = true := (isLeaf_iff _ _).mpr (Or.inl (by omega))
    refine ⟨[], ?_, List.Pairwise.nil, by simp, fun i => ?_⟩
    · rw [makeList, if_pos h1, if_pos hl, leafRange, if_pos h5]; rfl
    · constructor
      · intro h; simp at h
      · rintro ⟨l, h, _⟩
        have := (h.range hG.limit (keys := keys) (IsTree.empty lev c a h1 h2 h3 h4 h5 h6)).1
        omega
  | leaf lev c a n g1 g2 g3 g4 g5 g6 g7 g8 g9 g10 =>
    intro f hf ho
    have ht := IsTree.leaf lev c a n g1 g2 g3 g4 g5 g6 g7 g8 g9 g10
    obtain ⟨f, rfl⟩ : ∃ g, f = g + 1 := ⟨f - 1, by have := hl21 ht; omega⟩
    have hl : (T.r.mem c).isLeaf T.limit = true := (isLeaf_iff _ _).mpr (by rw [g5, g6]; exact g10)
    obtain ⟨L, e1, e2, e3, e4⟩ := copyClose_spec T.eps keep n a (by omega)
    refine ⟨L, ?_, e2, e3, fun i => ?_⟩
    · rw [makeList, if_pos g1, if_pos hl, leafRange, if_neg (by omega), g8, g5]
      exact e1
    · rw [e4]
      constructor
      · rintro ⟨h1, h2, e, h3, h4⟩
        have hin : InLeaf T i c c := InLeaf.leaf c a hl g8 h1 (by omega)
        exact ⟨c, hin, (hK i c e hin ho h3).mp h4⟩
      · rintro ⟨l, h, hs⟩
        have hr := (h.range hG.limit ht).1
        have hin : InLeaf T i c c := InLeaf.leaf c a hl g8 hr.1 (by omega)
        obtain rfl := inLeaf_unique hG.limit ht i _ _ h hin
        have he : T.eps[i]? = some (T.eps[i]'(by omega)) := List.getElem?_eq_getElem (by omega)
        exact ⟨hr.1, hr.2, _, he, (hK i _ _ hin ho he).mpr hs⟩
  | node lev c a n t b h1 h2 h3 h4 h5 h6 h7 h8 h9 h10 h11 h12 h13 h14 h15 h16 ih =>
    intro f hf ho
    have ht := IsTree.node lev c a n t b h1 h2 h3 h4 h5 h6 h7 h8 h9 h10 h11 h12 h13 h14 h15 h16
    obtain ⟨f, rfl⟩ : ∃ g, f = g + 1 := ⟨f - 1, by have := hl21 ht; omega⟩
    have hnl : (T.r.mem c).isLeaf T.limit = false := by
      rw [← Bool.not_eq_true, isLeaf_iff, h5, h6]; omega
    rw [makeList, if_pos h1, if_neg (by rw [hnl]; simp), h11]
    simp only
    rw [walkChildren_eq, range8]
    obtain ⟨L, e1, e2, e3, e4, e5⟩ := concatLoop_spec (fun i =>
      if t + i < T.r.size then if (T.r.mem (t + i)).n = 0 then some [] else if opn (T.mom (t + i)) then
        makeList T opn keep f (t + i) else some [] else none) b (fun j i => ∃ l, InLeaf T i (t + j) l ∧ S l i) h14 (by
      intro j hj
      have hc := (h16 j hj).cell
      by_cases q2 : (T.r.mem (t + j)).n = 0
      · refine ⟨[], by rw [if_pos hc.1, if_pos q2], List.Pairwise.nil, by simp, fun i => ?_⟩
        constructor
        · intro h; simp at h
        · rintro ⟨l, h, _⟩
          have := (h.range hG.limit (h16 j hj)).1
          omega
      · by_cases q3 : opn (T.mom (t + j))
        · obtain ⟨L, e1, e2, e3, e4⟩ := ih j hj f (by omega) (Or.inl q3)
          refine ⟨L, by rw [if_pos hc.1, if_neg q2, if_pos q3, e1], e2, fun i hi => ?_, e4⟩
          have := e3 i hi
          have := h14 j hj
          omega
        · refine ⟨[], by rw [if_pos hc.1, if_neg q2, if_neg q3], List.Pairwise.nil, by simp, fun i => ?_⟩
          constructor
          · intro h; simp at h
          · rintro ⟨l, h, hs⟩
            exact absurd (hS i _ l _ _ _ (h16 j hj) h hs) q3) 8 0 rfl
    refine ⟨L, e1, e2, fun i hi => by have := e3 i hi; omega, fun i => ?_⟩
    rw [e5]
    constructor
    · rintro ⟨m, _, m2, l, h, hs⟩
      exact ⟨l, InLeaf.child c t m l hnl h11 m2 h, hs⟩
    · rintro ⟨l, h, hs⟩
      cases h with
      | leaf _ _ h0 => rw [hnl] at h0; simp at h0
      | child _ t' j _ k1 k2 k3 k4 =>
        obtain rfl := Option.some.inj (h11.symm.trans k2)
        exact ⟨j, by omega, k3, l, k4, hs⟩

end Verif.Tree
