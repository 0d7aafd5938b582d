import Verif.Spec.Tree
import Verif.Lemmas.Morton
import Mathlib.Data.Nat.Find
import Mathlib.Data.List.Range
/-! Lemmas about the construction of the tree. -/
namespace Verif.Tree
open Morton

theorem getCellID_eq (lev : ℕ) (k : BitVec 64) : getCellID lev k = k.toNat / 2 ^ ((21 - lev) * 3) % 8 := by
  unfold getCellID levMax
  rw [BitVec.toNat_and, BitVec.toNat_ushiftRight, Nat.shiftRight_eq_div_pow]
  exact Nat.and_two_pow_sub_one_eq_mod _ 3

theorem getCellID_lt (lev : ℕ) (k : BitVec 64) : getCellID lev k < 8 := by
  rw [getCellID_eq]; exact Nat.mod_lt _ (by omega)

/-- The octant of level `lev` of particle `i`. -/
def dg (keys : List (BitVec 64)) (lev i : ℕ) : ℕ :=
  match keys[i]? with
  | some k => getCellID lev k
  | none => 0

/-- The leading `3 * lev` bits of the key of particle `i`. -/
def pf (keys : List (BitVec 64)) (lev i : ℕ) : ℕ :=
  match keys[i]? with
  | some k => k.toNat / 2 ^ ((21 - lev) * 3)
  | none => 0

theorem dg_lt (keys : List (BitVec 64)) (lev i : ℕ) : dg keys lev i < 8 := by
  unfold dg; split
  · exact getCellID_lt _ _
  · omega

theorem pf_succ (keys : List (BitVec 64)) (lev i : ℕ) (hl : lev < 21) :
    pf keys (lev + 1) i = 8 * pf keys lev i + dg keys (lev + 1) i := by
  unfold pf dg
  split
  · rename_i k h
    rw [getCellID_eq]
    have e : (21 - lev) * 3 = (21 - (lev + 1)) * 3 + 3 := by omega
    rw [e, pow_add, ← Nat.div_div_eq_div_mul]
    have := Nat.div_add_mod (k.toNat / 2 ^ ((21 - (lev + 1)) * 3)) 8
    omega
  · rfl

theorem pf_mono (keys : List (BitVec 64)) (hs : SortedKeys keys) (lev i j : ℕ) (hij : i ≤ j) (hj : j < keys.length) :
    pf keys lev i ≤ pf keys lev j := by
  unfold pf
  rw [List.getElem?_eq_getElem hj, List.getElem?_eq_getElem (by omega : i < keys.length)]
  simp only
  apply Nat.div_le_div_right
  rcases Nat.lt_or_eq_of_le hij with h | rfl
  · exact List.pairwise_iff_getElem.mp hs.1 i j (by omega) hj h
  · exact le_refl _

theorem pf_zero (keys : List (BitVec 64)) (hs : SortedKeys keys) (i : ℕ) : pf keys 0 i = 0 := by
  unfold pf
  split
  · rename_i k h
    exact Nat.div_eq_of_lt (hs.2 k (List.mem_of_getElem? h))
  · rfl

/-- Inside a cell the octants of the next level are sorted. -/
theorem dg_mono (keys : List (BitVec 64)) (hs : SortedKeys keys) (lev a n : ℕ) (hl : lev < 21)
    (hn : a + n ≤ keys.length) (hp : ∀ i, a ≤ i → i < a + n → pf keys lev i = pf keys lev a) (i j : ℕ) (hi : a ≤ i)
    (hij : i ≤ j) (hj : j < a + n) : dg keys (lev + 1) i ≤ dg keys (lev + 1) j := by
  have h := pf_mono keys hs (lev + 1) i j hij (by omega)
  rw [pf_succ _ _ _ hl, pf_succ _ _ _ hl, hp i hi (by omega), hp j (by omega) hj] at h
  omega

theorem searchLoop_spec (keys : List (BitVec 64)) (ref lev : ℕ) : ∀ (d l r : ℕ), r - l ≤ d → l ≤ r → r < keys.length →
    (∀ i j, l ≤ i → i ≤ j → j ≤ r → dg keys lev i ≤ dg keys lev j) → ref ≤ dg keys lev r →
    (l < r ∨ dg keys lev l ≠ ref) →
    (∃ p, searchLoop keys ref lev l r = some (some p) ∧ l ≤ p ∧ p ≤ r ∧ dg keys lev p = ref ∧
      ∀ i, l ≤ i → i < p → dg keys lev i < ref) ∨
    (searchLoop keys ref lev l r = some none ∧ ∀ i, l ≤ i → i ≤ r → dg keys lev i ≠ ref) := by
  intro d
  induction d with
  | zero =>
    intro l r hd hlr hr hm href hl
    have : l = r := by omega
    subst this
    right
    refine ⟨by rw [searchLoop]; simp, fun i h1 h2 => ?_⟩
    have : i = l := by omega
    subst this
    omega
  | succ d ih =>
    intro l r hd hlr hr hm href hl
    by_cases hlt : l < r
    · have hc : (l + r) / 2 < keys.length := by omega
      have hdg : ∀ i (h : i < keys.length), dg keys lev i = getCellID lev keys[i] := fun i h => by
        unfold dg; rw [List.getElem?_eq_getElem h]
      rw [searchLoop, dif_pos hlt, List.getElem?_eq_getElem hc]
      simp only
      by_cases hgt : ref > getCellID lev keys[(l + r) / 2]
      · rw [if_pos hgt, List.getElem?_eq_getElem (by omega : (l + r) / 2 + 1 < keys.length)]
        simp only
        have hlow : ∀ i, l ≤ i → i < (l + r) / 2 + 1 → dg keys lev i < ref := fun i h1 h2 => by
          have := hm i ((l + r) / 2) h1 (by omega) (by omega)
          rw [hdg ((l + r) / 2) hc] at this
          omega
        by_cases he : getCellID lev (keys[(l + r) / 2 + 1]'(by omega)) = ref
        · rw [if_pos he]
          left
          exact ⟨_, rfl, by omega, by omega, by rw [hdg _ (by omega)]; exact he, hlow⟩
        · rw [if_neg he]
          have h := ih ((l + r) / 2 + 1) r (by omega) (by omega) hr
            (fun i j h1 h2 h3 => hm i j (by omega) h2 h3) href
            (Or.inr (by rw [hdg _ (by omega)]; exact he))
          rcases h with ⟨p, h1, h2, h3, h4, h5⟩ | ⟨h1, h2⟩
          · left
            refine ⟨p, h1, by omega, h3, h4, fun i h6 h7 => ?_⟩
            by_cases hi : i < (l + r) / 2 + 1
            · exact hlow i h6 hi
            · exact h5 i (by omega) h7
          · right
            refine ⟨h1, fun i h6 h7 => ?_⟩
            by_cases hi : i < (l + r) / 2 + 1
            · have := hlow i h6 hi; omega
            · exact h2 i (by omega) h7
      · rw [if_neg hgt, List.getElem?_eq_getElem (by omega : l < keys.length)]
        simp only
        by_cases he : getCellID lev (keys[l]'(by omega)) = ref
        · rw [if_pos he]
          left
          exact ⟨l, rfl, le_refl _, by omega, by rw [hdg _ (by omega)]; exact he, fun i h1 h2 => by omega⟩
        · rw [if_neg he]
          have hcr : ref ≤ dg keys lev ((l + r) / 2) := by rw [hdg _ hc]; omega
          have h := ih l ((l + r) / 2) (by omega) (by omega) (by omega)
            (fun i j h1 h2 h3 => hm i j h1 h2 (by omega)) hcr
            (Or.inr (by rw [hdg _ (by omega)]; exact he))
          rcases h with ⟨p, h1, h2, h3, h4, h5⟩ | ⟨h1, h2⟩
          · left
            exact ⟨p, h1, h2, by omega, h4, h5⟩
          · right
            refine ⟨h1, fun i h6 h7 => ?_⟩
            by_cases hi : i ≤ (l + r) / 2
            · exact h2 i h6 hi
            · have h8 := hm ((l + r) / 2) i (by omega) (by omega) h7
              have h9 := h2 ((l + r) / 2) (by omega) (le_refl _)
              omega
    · have : l = r := by omega
      subst this
      right
      refine ⟨by rw [searchLoop]; simp, fun i h1 h2 => ?_⟩
      have : i = l := by omega
      subst this
      omega

/-- The places where the octants change. -/
theorem exists_bounds (f : ℕ → ℕ) (a n : ℕ) (hm : ∀ i j, a ≤ i → i ≤ j → j < a + n → f i ≤ f j)
    (h8 : ∀ i, f i < 8) :
    ∃ b : ℕ → ℕ, b 0 = a ∧ b 8 = a + n ∧ (∀ j, a ≤ b j ∧ b j ≤ a + n) ∧ (∀ j, b j ≤ b (j + 1)) ∧
      ∀ j i, a ≤ i → i < a + n → (f i < j ↔ i < b j) := by
  have hex : ∀ j, ∃ i, a ≤ i ∧ (a + n ≤ i ∨ j ≤ f i) := fun j => ⟨a + n, by omega, Or.inl (le_refl _)⟩
  classical
  let b : ℕ → ℕ := fun j => Nat.find (hex j)
  have hb1 : ∀ j, a ≤ b j := fun j => (Nat.find_spec (hex j)).1
  have hb2 : ∀ j, b j ≤ a + n := fun j => Nat.find_min' (hex j) ⟨by omega, Or.inl (le_refl _)⟩
  have hiff : ∀ j i, a ≤ i → i < a + n → (f i < j ↔ i < b j) := by
    intro j i h1 h2
    constructor
    · intro h
      by_contra hc
      have h3 := (Nat.find_spec (hex j)).2
      have h4 : Nat.find (hex j) ≤ i := Nat.le_of_not_lt hc
      rcases h3 with h3 | h3
      · omega
      · have := hm _ i (hb1 j) h4 h2
        simp only [b] at this
        omega
    · intro h
      have := Nat.find_min (hex j) h
      omega
  refine ⟨b, ?_, ?_, fun j => ⟨hb1 j, hb2 j⟩, ?_, hiff⟩
  · have := hb1 0
    by_contra hc
    have h0 := hb2 0
    have := (hiff 0 a (le_refl _) (by omega)).mpr (by omega)
    omega
  · have := hb2 8
    by_contra hc
    have h0 := hb1 8
    have := (hiff 8 (b 8) h0 (by omega)).mp (h8 _)
    omega
  · intro j
    by_contra hc
    have h0 := hb1 (j + 1)
    have h1 := hb2 j
    have h2 := (hiff j (b (j + 1)) h0 (by omega)).mpr (by omega)
    have h3 := (hiff (j + 1) (b (j + 1)) h0 (by omega)).mp (by omega)
    omega

/-- `b` lists the places where the octants of level `lev` change among the particles `a, …, a + n - 1`. -/
structure Bounds (keys : List (BitVec 64)) (lev a n : ℕ) (b : ℕ → ℕ) : Prop where
  zero : b 0 = a
  eight : b 8 = a + n
  ge : ∀ j, a ≤ b j
  le : ∀ j, b j ≤ a + n
  mono : ∀ j, b j ≤ b (j + 1)
  iff : ∀ j i, a ≤ i → i < a + n → (dg keys lev i < j ↔ i < b j)

theorem Bounds.dg_eq {keys : List (BitVec 64)} {lev a n : ℕ} {b : ℕ → ℕ} (h : Bounds keys lev a n b) {j i : ℕ}
    (h1 : b j ≤ i) (h2 : i < b (j + 1)) : dg keys lev i = j := by
  have g := h.ge j
  have l := h.le (j + 1)
  have a1 := h.iff j i (by omega) (by omega)
  have a2 := h.iff (j + 1) i (by omega) (by omega)
  omega

theorem getPartitionID_eq (keys : List (BitVec 64)) (lev a n j : ℕ) (b : ℕ → ℕ) (hn : 2 ≤ n)
    (hlen : a + n ≤ keys.length) (hb : Bounds keys lev a n b) :
    getPartitionID keys a (a + n - 1) j lev = some (if b j < b (j + 1) then some (b j) else none) := by
  have hdg : ∀ i (h : i < keys.length), dg keys lev i = getCellID lev keys[i] := fun i h => by
    unfold dg; rw [List.getElem?_eq_getElem h]
  have hm : ∀ i i', a ≤ i → i ≤ i' → i' ≤ a + n - 1 → dg keys lev i ≤ dg keys lev i' := by
    intro i i' h1 h2 h3
    by_contra hc
    have e1 := hb.iff (dg keys lev i) i' (by omega) (by omega)
    have e2 := hb.iff (dg keys lev i) i h1 (by omega)
    omega
  have hne : ∀ i, a ≤ i → i < a + n → dg keys lev i = j → b j < b (j + 1) := by
    intro i h1 h2 h3
    have e1 := hb.iff j i h1 h2
    have e2 := hb.iff (j + 1) i h1 h2
    omega
  unfold getPartitionID
  rw [List.getElem?_eq_getElem (by omega : a + n - 1 < keys.length), List.getElem?_eq_getElem (by omega : a < keys.length)]
  simp only
  by_cases h1 : getCellID lev (keys[a + n - 1]'(by omega)) < j
  · rw [if_pos h1, if_neg]
    intro hlt
    have hg := hb.ge j
    have hl := hb.le (j + 1)
    have e1 := hb.dg_eq (le_refl (b j)) hlt
    have := hm (b j) (a + n - 1) hg (by omega) (le_refl _)
    rw [hdg (a + n - 1) (by omega)] at this
    omega
  · rw [if_neg h1]
    by_cases h2 : getCellID lev (keys[a]'(by omega)) > j
    · rw [if_pos h2, if_neg]
      intro hlt
      have hg := hb.ge j
      have hl := hb.le (j + 1)
      have e1 := hb.dg_eq (le_refl (b j)) hlt
      have := hm a (b j) (le_refl _) hg (by omega)
      rw [hdg a (by omega)] at this
      omega
    · rw [if_neg h2]
      have hr : j ≤ dg keys lev (a + n - 1) := by rw [hdg _ (by omega)]; omega
      rcases searchLoop_spec keys j lev (n) a (a + n - 1) (by omega) (by omega) (by omega) hm hr
        (Or.inl (by omega)) with ⟨p, e1, e2, e3, e4, e5⟩ | ⟨e1, e2⟩
      · rw [e1, if_pos (hne p e2 (by omega) e4)]
        have f1 := hb.iff j p e2 (by omega)
        have f2 := hb.ge j
        congr 2
        by_contra hc
        have : b j < p := by omega
        have f3 := e5 (b j) f2 this
        have f4 := hb.iff j (b j) f2 (by omega)
        omega
      · rw [e1, if_neg]
        intro hlt
        have hg := hb.ge j
        have hl := hb.le (j + 1)
        exact e2 (b j) hg (by omega) (hb.dg_eq (le_refl _) hlt)

/-- What the first phase writes to child `j`. -/
def childCell (b : ℕ → ℕ) (lev t : ℕ) (m : Mem) (j : ℕ) : Cell :=
  if b j < b (j + 1) then ⟨(m (t + j)).n, (m (t + j)).adrTc, some (b j), lev + 1⟩ else ⟨0, none, none, lev + 1⟩

/-- The children with particles. -/
def full (b : ℕ → ℕ) (t : ℕ) (js : List ℕ) : List ℕ := (js.filter (fun j => decide (b j < b (j + 1)))).map (t + ·)

theorem childPhase_eq (keys : List (BitVec 64)) (lev t a n size : ℕ) (b : ℕ → ℕ) (hn : 2 ≤ n)
    (hlen : a + n ≤ keys.length) (hb : Bounds keys (lev + 1) a n b) : ∀ (js : List ℕ) (m : Mem), js.Nodup →
      (∀ j ∈ js, t + j < size) →
      ∃ m', childPhase keys lev t a n size js m = some (m', full b t js) ∧
        (∀ x, (∀ j ∈ js, x ≠ t + j) → m' x = m x) ∧ (∀ j ∈ js, m' (t + j) = childCell b lev t m j)
  | [], m, _, _ => ⟨m, rfl, fun _ _ => rfl, by simp⟩
  | j :: js, m, hnd, hsz => by
    obtain ⟨hj, hnd'⟩ := List.nodup_cons.mp hnd
    have hs := hsz j List.mem_cons_self
    have hsz' : ∀ k ∈ js, t + k < size := fun k hk => hsz k (List.mem_cons_of_mem _ hk)
    simp only [childPhase, if_pos hs, getPartitionID_eq keys (lev + 1) a n j b hn hlen hb]
    have key : ∀ c : Cell, c = childCell b lev t m j → ∀ m' : Mem, (∀ x, (∀ k ∈ js, x ≠ t + k) → m' x = (m.set (t + j) c) x) →
        (∀ k ∈ js, m' (t + k) = childCell b lev t (m.set (t + j) c) k) →
        (∀ x, (∀ k ∈ j :: js, x ≠ t + k) → m' x = m x) ∧
          (∀ k ∈ j :: js, m' (t + k) = childCell b lev t m k) := by
      intro c hc m' h1 h2
      refine ⟨fun x hx => ?_, fun k hk => ?_⟩
      · rw [h1 x (fun k hk => hx k (List.mem_cons_of_mem _ hk)), Mem.set, if_neg (hx j List.mem_cons_self)]
      · rcases List.mem_cons.mp hk with rfl | hk
        · rw [h1 (t + k) (fun k' hk' he => hj (by have : k = k' := by omega
                                                  exact this ▸ hk')), Mem.set, if_pos rfl, hc]
        · rw [h2 k hk]
          have hne : t + k ≠ t + j := fun he => hj (by have : k = j := by omega
                                                       exact this ▸ hk)
          simp only [childCell, Mem.set, if_neg hne]
    by_cases hlt : b j < b (j + 1)
    · simp only [if_pos hlt]
      obtain ⟨m', h1, h2, h3⟩ := childPhase_eq keys lev t a n size b hn hlen hb js
        (m.set (t + j) ⟨(m (t + j)).n, (m (t + j)).adrTc, some (b j), lev + 1⟩) hnd' hsz'
      rw [h1]
      refine ⟨m', ?_, key _ (by rw [childCell, if_pos hlt]) m' h2 h3⟩
      simp [full, hlt]
    · simp only [if_neg hlt]
      obtain ⟨m', h1, h2, h3⟩ := childPhase_eq keys lev t a n size b hn hlen hb js
        (m.set (t + j) ⟨0, none, none, lev + 1⟩) hnd' hsz'
      refine ⟨m', ?_, key _ (by rw [childCell, if_neg hlt]) m' h2 h3⟩
      rw [h1]
      simp [full, hlt]

/-- The first child with particles among `j, …, 7` starts where child `j` would start. -/
theorem full_head (b : ℕ → ℕ) (t : ℕ) (hmono : ∀ j, b j ≤ b (j + 1)) : ∀ (d j : ℕ), j + d = 8 →
    (full b t (List.range' j d) = [] ∧ b j = b 8) ∨
      ∃ k l, full b t (List.range' j d) = (t + k) :: l ∧ j ≤ k ∧ k < 8 ∧ b k = b j ∧ b k < b (k + 1)
  | 0, j, h => by
    left
    refine ⟨by simp [full], ?_⟩
    have : j = 8 := by omega
    rw [this]
  | d + 1, j, h => by
    rw [List.range'_succ]
    by_cases hlt : b j < b (j + 1)
    · right
      exact ⟨j, full b t (List.range' (j + 1) d), by simp [full, hlt], le_refl _, by omega, rfl, hlt⟩
    · have he : b j = b (j + 1) := le_antisymm (hmono j) (by omega)
      have hf : full b t (j :: List.range' (j + 1) d) = full b t (List.range' (j + 1) d) := by simp [full, hlt]
      rw [hf]
      rcases full_head b t hmono d (j + 1) (by omega) with ⟨h1, h2⟩ | ⟨k, l, h1, h2, h3, h4, h5⟩
      · left; exact ⟨h1, by omega⟩
      · right; exact ⟨k, l, h1, by omega, h3, by omega, h5⟩

theorem countPhase_eq (b : ℕ → ℕ) (t a n : ℕ) (h8 : b 8 = a + n) (hge : ∀ j, a ≤ b j) (hle : ∀ j, b j ≤ a + n)
    (hmono : ∀ j, b j ≤ b (j + 1)) : ∀ (d j : ℕ) (m : Mem), j + d = 8 → full b t (List.range' j d) ≠ [] →
      (∀ k, j ≤ k → k < 8 → b k < b (k + 1) → (m (t + k)).adr = some (b k)) →
      ∃ m', countPhase n (full b t (List.range' j d)) (b j - a) m = some m' ∧
        (∀ x, (∀ k, j ≤ k → k < 8 → x ≠ t + k) → m' x = m x) ∧
        ∀ k, j ≤ k → k < 8 → m' (t + k) =
          if b k < b (k + 1) then { m (t + k) with n := b (k + 1) - b k } else m (t + k)
  | 0, j, m, h, hne, _ => absurd (by simp [full]) hne
  | d + 1, j, m, h, hne, hadr => by
    rw [List.range'_succ] at hne ⊢
    by_cases hlt : b j < b (j + 1)
    · have hf : full b t (j :: List.range' (j + 1) d) = (t + j) :: full b t (List.range' (j + 1) d) := by
        simp [full, hlt]
      rw [hf]
      have hj := hadr j (le_refl _) (by omega) hlt
      have hgj := hge j
      rcases full_head b t hmono d (j + 1) (by omega) with ⟨h1, h2⟩ | ⟨k, l, h1, h2, h3, h4, h5⟩
      · rw [h1]
        have hnn : n - (b j - a) = b (j + 1) - b j := by omega
        refine ⟨m.set (t + j) { m (t + j) with n := n - (b j - a) }, by
          simp only [countPhase]; rw [if_pos (by have := hle j; omega)], ?_, ?_⟩
        · intro x hx
          rw [Mem.set, if_neg (hx j (le_refl _) (by omega))]
        · intro k hk1 hk2
          by_cases hkj : k = j
          · subst hkj
            rw [Mem.set, if_pos rfl, if_pos hlt, hnn]
          · rw [Mem.set, if_neg (by omega), if_neg]
            -- no child with particles behind `j`
            have hkk : ¬ b k < b (k + 1) := by
              intro hc
              have : t + k ∈ full b t (List.range' (j + 1) d) := by
                simp only [full, List.mem_map, List.mem_filter, List.mem_range'_1, decide_eq_true_eq]
                exact ⟨k, ⟨⟨by omega, by omega⟩, hc⟩, rfl⟩
              rw [h1] at this
              simp at this
            exact hkk
      · have hk := hadr k (by omega) h3 h5
        obtain ⟨m', e1, e2, e3⟩ := countPhase_eq b t a n h8 hge hle hmono d (j + 1)
          (m.set (t + j) { m (t + j) with n := b (j + 1) - b j }) (by omega) (by rw [h1]; simp) (by
            intro k' hk1 hk2 hk3
            rw [Mem.set, if_neg (by omega)]
            exact hadr k' (by omega) hk2 hk3)
        refine ⟨m', ?_, ?_, ?_⟩
        · rw [h1] at e1 ⊢
          have hstep : countPhase n ((t + j) :: (t + k) :: l) (b j - a) m =
              (if b j ≤ b k then countPhase n ((t + k) :: l) (b j - a + (b k - b j))
                (m.set (t + j) { m (t + j) with n := b k - b j }) else none) := by
            rw [countPhase, hj, hk]
          rw [hstep, if_pos (by omega), h4, show b j - a + (b (j + 1) - b j) = b (j + 1) - a by omega]
          exact e1
        · intro x hx
          rw [e2 x (fun k' hk1 hk2 => hx k' (by omega) hk2), Mem.set, if_neg (hx j (le_refl _) (by omega))]
        · intro k' hk1 hk2
          by_cases hkj : k' = j
          · subst hkj
            rw [e2 (t + k') (fun k'' h1 h2 => by omega), Mem.set, if_pos rfl, if_pos hlt]
          · rw [e3 k' (by omega) hk2]
            simp only [Mem.set, if_neg (by omega : ¬ t + k' = t + j)]
    · have he : b j = b (j + 1) := le_antisymm (hmono j) (by omega)
      have hf : full b t (j :: List.range' (j + 1) d) = full b t (List.range' (j + 1) d) := by simp [full, hlt]
      rw [hf] at hne ⊢
      obtain ⟨m', e1, e2, e3⟩ := countPhase_eq b t a n h8 hge hle hmono d (j + 1) m (by omega) hne
        (fun k hk1 hk2 hk3 => hadr k (by omega) hk2 hk3)
      refine ⟨m', by rw [he]; exact e1, ?_, ?_⟩
      · intro x hx
        exact e2 x (fun k hk1 hk2 => hx k (by omega) hk2)
      · intro k hk1 hk2
        by_cases hkj : k = j
        · subst hkj
          rw [e2 (t + k) (fun k' h1 h2 => by omega), if_neg hlt]
        · exact e3 k (by omega) hk2

end Verif.Tree
