import Verif.Lemmas.Walk2
/-! Lemmas about the groups of particles. -/
namespace Verif.Tree

variable {α : Type}

theorem Tiling.append {a b c : ℕ} {gs gs' : List Group} (h : Tiling a b gs) (h' : Tiling b c gs') :
    Tiling a c (gs ++ gs') := by
  induction h with
  | nil => exact h'
  | cons a b g gs h1 h2 _ ih => exact Tiling.cons a c g (gs ++ gs') h1 h2 (ih h')

theorem groupChildren_eq (rec : ℕ → Option (List Group)) (t : ℕ) (is : List ℕ) :
    groupChildren rec t is = concatLoop (fun i => rec (t + i)) is := by
  induction is with
  | nil => rfl
  | cons i is ih =>
    rw [groupChildren, concatLoop, ih]
    generalize rec (t + i) = x
    generalize concatLoop _ is = y
    cases x <;> cases y <;> rfl

/-- What is known of a group. -/
structure GroupOk (big : ℝ) (keys : List (BitVec 64)) (T : MTree α) (glimit : ℕ) (g : Group) : Prop where
  vin : g.vin = (hull big (slice T.eps g.adr g.n)).vin
  vout : g.vout = (hull big (slice T.eps g.adr g.n)).vout
  size : g.n ≤ glimit ∨ ∃ c, IsTree T.r keys T.limit 21 c g.adr g.n

theorem makeGroups_spec {big : ℝ} {keys : List (BitVec 64)} {T : MTree α} (hG : Good big keys T) (glimit : ℕ)
    (hgl : T.limit ≤ glimit) {lev c a n : ℕ} (ht : IsTree T.r keys T.limit lev c a n) : ∀ f, 22 ≤ f + lev →
      ∃ gs, makeGroups T glimit f c = some gs ∧ Tiling a (a + n) gs ∧ ∀ g ∈ gs, GroupOk big keys T glimit g := by
  have hl21 : ∀ {lev c a n}, IsTree T.r keys T.limit lev c a n → lev ≤ 21 := fun h => by
    have := h.cell.2.2.2.1
    have := hG.linked.levMax
    omega
  have hstop : ∀ {lev c a n} (_ : IsTree T.r keys T.limit lev c a n) (f : ℕ), 0 < n → (T.r.mem c).adr = some a →
      (T.r.mem c).isLeaf glimit = true → ∃ gs, makeGroups T glimit (f + 1) c = some gs ∧ Tiling a (a + n) gs ∧
        ∀ g ∈ gs, GroupOk big keys T glimit g := by
    intro lev c a n ht f hn ha hl
    have hc := ht.cell
    refine ⟨[⟨n, a, (T.mom c).vin, (T.mom c).vout⟩], ?_, Tiling.cons _ _ _ _ rfl hn (Tiling.nil _), ?_⟩
    · rw [makeGroups, if_pos hc.1, if_neg (by omega), if_pos hl, ha, hc.2.2.2.2.1]
    · intro g hg
      obtain rfl := List.mem_singleton.mp hg
      refine ⟨by rw [hG.mom_eq ht], by rw [hG.mom_eq ht], ?_⟩
      rcases (isLeaf_iff _ _).mp hl with h | h
      · left; simp only; omega
      · right
        have : lev = 21 := by have : levelLimit = 21 := rfl
                              omega
        subst this
        exact ⟨c, ht⟩
  induction ht with
  | empty lev c a h1 h2 h3 h4 h5 h6 =>
    intro f hf
    obtain ⟨f, rfl⟩ : ∃ g, f = g + 1 := ⟨f - 1, by have := hl21 (IsTree.empty lev c a h1 h2 h3 h4 h5 h6); omega⟩
    exact ⟨[], by rw [makeGroups, if_pos h1, if_pos h5], Tiling.nil _, by simp⟩
  | leaf lev c a n g1 g2 g3 g4 g5 g6 g7 g8 g9 g10 =>
    intro f hf
    have ht := IsTree.leaf lev c a n g1 g2 g3 g4 g5 g6 g7 g8 g9 g10
    obtain ⟨f, rfl⟩ : ∃ g, f = g + 1 := ⟨f - 1, by have := hl21 ht; omega⟩
    exact hstop ht f g7 g8 ((isLeaf_iff _ _).mpr (by rw [g5, g6]; exact g10.imp (fun h => le_trans h hgl) id))
  | node lev c a n t b h1 h2 h3 h4 h5 h6 h7 h8 h9 h10 h11 h12 h13 h14 h15 h16 ih =>
    intro f hf
    have ht := IsTree.node lev c a n t b h1 h2 h3 h4 h5 h6 h7 h8 h9 h10 h11 h12 h13 h14 h15 h16
    obtain ⟨f, rfl⟩ : ∃ g, f = g + 1 := ⟨f - 1, by have := hl21 ht; omega⟩
    by_cases hl : (T.r.mem c).isLeaf glimit = true
    · exact hstop ht f (by omega) h9 hl
    · rw [makeGroups, if_pos h1, if_neg (by omega), if_neg hl, h11]
      simp only
      rw [groupChildren_eq, range8]
      have key : ∀ k j, j + k = 8 → ∃ gs, concatLoop (fun i => makeGroups T glimit f (t + i)) (List.range' j k) = some gs ∧
          Tiling (b j) (b 8) gs ∧ ∀ g ∈ gs, GroupOk big keys T glimit g := by
        intro k
        induction k with
        | zero => intro j hj
                  obtain rfl : j = 8 := by omega
                  exact ⟨[], rfl, Tiling.nil _, by simp⟩
        | succ k ihk =>
          intro j hj
          obtain ⟨gs', e1, e2, e3⟩ := ihk (j + 1) (by omega)
          obtain ⟨gs, f1, f2, f3⟩ := ih j (by omega) f (by omega)
          have hm := h14 j (by omega)
          rw [show b j + (b (j + 1) - b j) = b (j + 1) by omega] at f2
          refine ⟨gs ++ gs', by rw [List.range'_succ, concatLoop, f1, e1], f2.append e2, fun g hg => ?_⟩
          rcases List.mem_append.mp hg with h | h
          · exact f3 g h
          · exact e3 g h
      obtain ⟨gs, e1, e2, e3⟩ := key 8 0 rfl
      exact ⟨gs, e1, by rw [← h13, ← h12]; exact e2, e3⟩

theorem Tiling.range {a b : ℕ} {gs : List Group} (h : Tiling a b gs) :
    a ≤ b ∧ ∀ g ∈ gs, a ≤ g.adr ∧ g.adr + g.n ≤ b := by
  induction h with
  | nil => exact ⟨le_refl _, by simp⟩
  | cons a b g gs h1 h2 _ ih =>
    refine ⟨by omega, fun g' hg => ?_⟩
    rcases List.mem_cons.mp hg with h | h
    · subst h; omega
    · have := ih.2 g' h; omega

theorem Tiling.exists {a b : ℕ} {gs : List Group} (h : Tiling a b gs) : ∀ i, a ≤ i → i < b →
    ∃ (k : ℕ) (g : Group), gs[k]? = some g ∧ g.adr ≤ i ∧ i < g.adr + g.n ∧
      ∀ (k' : ℕ) (g' : Group), gs[k']? = some g' → g'.adr ≤ i → i < g'.adr + g'.n → k' = k := by
  induction h with
  | nil => intro i h1 h2; omega
  | cons a b g gs h1 h2 ht ih =>
    intro i i1 i2
    by_cases hi : i < a + g.n
    · refine ⟨0, g, rfl, by omega, by omega, fun k' g' hg' l1 l2 => ?_⟩
      cases k' with
      | zero => rfl
      | succ k' =>
        have := ht.range.2 g' (List.mem_of_getElem? (by simpa using hg'))
        omega
    · obtain ⟨k, g', k1, k2, k3, k4⟩ := ih i (by omega) i2
      refine ⟨k + 1, g', by simpa using k1, k2, k3, fun k' g'' hg l1 l2 => ?_⟩
      cases k' with
      | zero =>
        have : g = g'' := by simpa using hg
        subst this
        omega
      | succ k' => rw [k4 k' g'' (by simpa using hg) l1 l2]

end Verif.Tree
