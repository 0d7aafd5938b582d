import Verif.Lemmas.Tree
/-! Lemmas about the construction of the tree: the loop over the levels. -/
namespace Verif.Tree
open Morton

/-- The eight cells from `t` on are the children of a cell of level `lev` with particles `a, …, a + n - 1`. -/
def Children (keys : List (BitVec 64)) (m : Mem) (lev t a n : ℕ) : Prop :=
  ∃ b, Bounds keys (lev + 1) a n b ∧ ∀ j < 8, (m (t + j)).level = lev + 1 ∧ (m (t + j)).n = b (j + 1) - b j ∧
    (b j < b (j + 1) → (m (t + j)).adr = some (b j))

theorem Children.congr {keys : List (BitVec 64)} {m m' : Mem} {lev t a n : ℕ} (h : Children keys m lev t a n)
    (hm : ∀ j < 8, (m' (t + j)).n = (m (t + j)).n ∧ (m' (t + j)).adr = (m (t + j)).adr ∧
      (m' (t + j)).level = (m (t + j)).level) : Children keys m' lev t a n := by
  obtain ⟨b, hb, hc⟩ := h
  refine ⟨b, hb, fun j hj => ?_⟩
  obtain ⟨h1, h2, h3⟩ := hm j hj
  rw [h1, h2, h3]
  exact hc j hj

/-- A cell of level `lev` with particles: they are in range and share the leading key bits. -/
def Header (keys : List (BitVec 64)) (lev : ℕ) (c : Cell) : Prop :=
  c.level = lev ∧ (0 < c.n → ∃ a, c.adr = some a ∧ a + c.n ≤ keys.length ∧
    ∀ i, a ≤ i → i < a + c.n → pf keys lev i = pf keys lev a)

theorem linkParent_eq (keys : List (BitVec 64)) (hs : SortedKeys keys) (limit lev size t : ℕ) (m : Mem) (i : ℕ)
    (hlim : 1 ≤ limit) (hlev : lev < 21) (hh : Header keys lev (m i)) (hn : limit < (m i).n)
    (ht : (m i).adrTc = some t) (hsz : t + 8 ≤ size) :
    ∃ m' a, linkParent keys limit lev size m i = some m' ∧ (m i).adr = some a ∧
      (∀ x, (x < t ∨ t + 8 ≤ x) → m' x = m x) ∧ Children keys m' lev t a (m i).n := by
  obtain ⟨hl, hp⟩ := hh
  obtain ⟨a, ha, hlen, hpf⟩ := hp (by omega)
  obtain ⟨b, h0, h8, hb1, hb2, hb3⟩ := exists_bounds (dg keys (lev + 1)) a (m i).n
    (fun i' j' h1 h2 h3 => dg_mono keys hs lev a (m i).n hlev hlen hpf i' j' h1 h2 h3) (dg_lt keys (lev + 1))
  have hB : Bounds keys (lev + 1) a (m i).n b := ⟨h0, h8, fun j => (hb1 j).1, fun j => (hb1 j).2, hb2, hb3⟩
  have hr : List.range nChildren = List.range' 0 8 := by decide
  obtain ⟨m1, e1, e2, e3⟩ := childPhase_eq keys lev t a (m i).n size b (by omega) hlen hB (List.range nChildren) m
    List.nodup_range (fun j hj => by have : j < 8 := List.mem_range.mp hj
                                     omega)
  have hne : full b t (List.range' 0 8) ≠ [] := by
    rcases full_head b t hb2 8 0 rfl with ⟨_, h2⟩ | ⟨k, l, h1, _⟩
    · omega
    · rw [h1]; simp
  have hc : ∀ k < 8, m1 (t + k) = childCell b lev t m k := fun k hk => e3 k (List.mem_range.mpr hk)
  obtain ⟨m2, f1, f2, f3⟩ := countPhase_eq b t a (m i).n h8 hB.ge hB.le hb2 8 0 m1 rfl hne (by
    intro k _ hk hlt
    rw [hc k hk, childCell, if_pos hlt])
  refine ⟨m2, a, ?_, ha, ?_, b, hB, ?_⟩
  · simp only [linkParent, if_neg (by omega : ¬ (m i).n ≤ limit), ht, ha, e1]
    rw [h0, Nat.sub_self] at f1
    rw [hr]
    exact f1
  · intro x hx
    rw [f2 x (fun k _ hk => by omega), e2 x (fun k hk => by have : k < 8 := List.mem_range.mp hk
                                                            omega)]
  · intro j hj
    rw [f3 j (by omega) hj, hc j hj]
    by_cases hlt : b j < b (j + 1)
    · simp [childCell, hlt]
    · have := hb2 j
      simp [childCell, hlt]
      omega

/-- The number of cells to be split among `left, …, c - 1`. -/
def rk (limit : ℕ) (m : Mem) (left c : ℕ) : ℕ :=
  (List.range' left (c - left)).countP (fun k => decide (limit < (m k).n))

theorem rk_succ (limit : ℕ) (m : Mem) (left c : ℕ) (h : left ≤ c) :
    rk limit m left (c + 1) = rk limit m left c + (if limit < (m c).n then 1 else 0) := by
  unfold rk
  rw [show c + 1 - left = (c - left) + 1 by omega, List.range'_concat, List.countP_append]
  have : left + 1 * (c - left) = c := by omega
  rw [this]
  simp [List.countP_cons]

theorem rk_mono (limit : ℕ) (m : Mem) (left : ℕ) : ∀ c c', left ≤ c → c ≤ c' →
    rk limit m left c ≤ rk limit m left c' := by
  intro c c' h hc
  induction c' with
  | zero => have : c = 0 := by omega
            rw [this]
  | succ c' ih =>
    rcases Nat.lt_or_eq_of_le hc with h1 | h1
    · rw [rk_succ _ _ _ _ (by omega)]
      have := ih (by omega)
      omega
    · rw [h1]

theorem rk_lt (limit : ℕ) (m : Mem) (left c c' : ℕ) (h : left ≤ c) (hc : c < c') (hn : limit < (m c).n) :
    rk limit m left c + 1 ≤ rk limit m left c' := by
  have h1 := rk_succ limit m left c h
  rw [if_pos hn] at h1
  have h2 := rk_mono limit m left (c + 1) c' (by omega) hc
  omega

theorem rk_congr (limit : ℕ) (m m' : Mem) (left c : ℕ) (h : ∀ k, left ≤ k → k < c → (m' k).n = (m k).n) :
    rk limit m' left c = rk limit m left c := by
  unfold rk
  apply List.countP_congr
  intro k hk
  have := List.mem_range'_1.mp hk
  rw [h k (by omega) (by omega)]

/-- The cells of one level, ready to be split. -/
structure Level (keys : List (BitVec 64)) (limit lev left right size : ℕ) (m : Mem) : Prop where
  le : left ≤ right
  header : ∀ c, left ≤ c → c < right → Header keys lev (m c)
  adr : ∀ c, left ≤ c → c < right → limit < (m c).n → (m c).adrTc = some (right + 8 * rk limit m left c)
  size : size = right + 8 * rk limit m left right

theorem Level.congr {keys : List (BitVec 64)} {limit lev left right size : ℕ} {m m' : Mem}
    (h : Level keys limit lev left right size m) (hm : ∀ x < right, m' x = m x) :
    Level keys limit lev left right size m' := by
  have hr : ∀ c ≤ right, rk limit m' left c = rk limit m left c := fun c hc =>
    rk_congr limit m m' left c (fun k _ h2 => by rw [hm k (by omega)])
  refine ⟨h.le, fun c h1 h2 => by rw [hm c h2]; exact h.header c h1 h2, fun c h1 h2 h3 => ?_, ?_⟩
  · rw [hm c h2] at h3 ⊢
    rw [hr c (by omega)]
    exact h.adr c h1 h2 h3
  · rw [hr right (le_refl _)]; exact h.size

theorem linkParents_eq (keys : List (BitVec 64)) (hs : SortedKeys keys) (limit lev left right size : ℕ)
    (hlim : 1 ≤ limit) (hlev : lev < 21) : ∀ (is : List ℕ) (m : Mem), is.Nodup →
      (∀ i ∈ is, left ≤ i ∧ i < right) → Level keys limit lev left right size m →
      ∃ m', linkParents keys limit lev size is m = some m' ∧ (∀ x < right, m' x = m x) ∧
        (∀ x, (∀ p ∈ is, limit < (m p).n → x < right + 8 * rk limit m left p ∨ right + 8 * rk limit m left p + 8 ≤ x) →
          m' x = m x) ∧
        ∀ p ∈ is, limit < (m p).n → ∃ a, (m p).adr = some a ∧
          Children keys m' lev (right + 8 * rk limit m left p) a (m p).n
  | [], m, _, _, _ => ⟨m, rfl, fun _ _ => rfl, fun _ _ => rfl, by simp⟩
  | i :: is, m, hnd, hmem, hL => by
    obtain ⟨hi, hnd'⟩ := List.nodup_cons.mp hnd
    have him := hmem i List.mem_cons_self
    have hmem' : ∀ k ∈ is, left ≤ k ∧ k < right := fun k hk => hmem k (List.mem_cons_of_mem _ hk)
    by_cases hn : limit < (m i).n
    · have hsz : right + 8 * rk limit m left i + 8 ≤ size := by
        have := rk_lt limit m left i right him.1 him.2 hn
        have := hL.size
        omega
      obtain ⟨m1, a, e1, e2, e3, e4⟩ := linkParent_eq keys hs limit lev size _ m i hlim hlev
        (hL.header i him.1 him.2) hn (hL.adr i him.1 him.2 hn) hsz
      have hlow : ∀ x < right, m1 x = m x := fun x hx => e3 x (Or.inl (by omega))
      have hrk : ∀ c ≤ right, rk limit m1 left c = rk limit m left c := fun c hc =>
        rk_congr limit m m1 left c (fun k _ h2 => by rw [hlow k (by omega)])
      obtain ⟨m', f1, f2, f3, f4⟩ := linkParents_eq keys hs limit lev left right size hlim hlev is m1 hnd' hmem'
        (hL.congr hlow)
      refine ⟨m', by simp only [linkParents, e1]; exact f1, fun x hx => by rw [f2 x hx, hlow x hx], ?_, ?_⟩
      · intro x hx
        rw [f3 x, e3 x (hx i List.mem_cons_self hn)]
        intro p hp hpn
        have hpr := hmem' p hp
        rw [hlow p hpr.2] at hpn
        rw [hrk p (by omega)]
        exact hx p (List.mem_cons_of_mem _ hp) hpn
      · intro p hp hpn
        rcases List.mem_cons.mp hp with rfl | hp
        · refine ⟨a, e2, e4.congr fun j hj => ?_⟩
          rw [f3 (right + 8 * rk limit m left p + j)]
          · exact ⟨rfl, rfl, rfl⟩
          · intro q hq hqn
            have hqr := hmem' q hq
            rw [hlow q hqr.2] at hqn
            rw [hrk q (by omega)]
            have hne : p ≠ q := fun he => hi (he ▸ hq)
            rcases Nat.lt_or_gt_of_ne hne with h | h
            · have := rk_lt limit m left p q him.1 h hpn
              omega
            · have := rk_lt limit m left q p hqr.1 h hqn
              omega
        · have hpr := hmem' p hp
          have := f4 p hp (by rw [hlow p hpr.2]; exact hpn)
          rw [hlow p hpr.2, hrk p (by omega)] at this
          exact this
    · obtain ⟨m', f1, f2, f3, f4⟩ := linkParents_eq keys hs limit lev left right size hlim hlev is m hnd' hmem' hL
      refine ⟨m', ?_, f2, fun x hx => f3 x (fun p hp hpn => hx p (List.mem_cons_of_mem _ hp) hpn), ?_⟩
      · simp only [linkParents, linkParent, if_pos (Nat.le_of_not_lt hn)]
        exact f1
      · intro p hp hpn
        rcases List.mem_cons.mp hp with rfl | hp
        · exact absurd hpn hn
        · exact f4 p hp hpn

theorem isLeaf_false (c : Cell) (limit : ℕ) (h : c.level < 21) : c.isLeaf limit = true ↔ ¬ limit < c.n := by
  unfold Cell.isLeaf levelLimit
  simp only [Bool.or_eq_true, decide_eq_true_eq]
  omega

theorem assignAdr_eq (limit : ℕ) : ∀ (k s start : ℕ) (m : Mem), (∀ c, s ≤ c → c < s + k → (m c).level < 21) →
    (assignAdr limit (List.range' s k) start m).2 = start + 8 * rk limit m s (s + k) ∧
    (∀ x, ((assignAdr limit (List.range' s k) start m).1 x).n = (m x).n ∧
      ((assignAdr limit (List.range' s k) start m).1 x).adr = (m x).adr ∧
      ((assignAdr limit (List.range' s k) start m).1 x).level = (m x).level) ∧
    (∀ x, (x < s ∨ s + k ≤ x) → (assignAdr limit (List.range' s k) start m).1 x = m x) ∧
    (∀ c, s ≤ c → c < s + k → limit < (m c).n →
      ((assignAdr limit (List.range' s k) start m).1 c).adrTc = some (start + 8 * rk limit m s c))
  | 0, s, start, m, _ => by
    refine ⟨by simp [rk, assignAdr], fun x => ⟨rfl, rfl, rfl⟩, fun x _ => rfl, fun c h1 h2 => by omega⟩
  | k + 1, s, start, m, hl => by
    rw [List.range'_succ, show s + 1 * 1 = s + 1 by omega] at *
    have hlf := isLeaf_false (m s) limit (hl s (le_refl _) (by omega))
    have hrk1 : ∀ c m', s < c → (∀ x, (m' x : Cell).n = (m x).n) →
        rk limit m s c = (if limit < (m s).n then 1 else 0) + rk limit m' (s + 1) c := by
      intro c m' hc hm'
      unfold rk
      rw [show c - s = (c - (s + 1)) + 1 by omega, List.range'_succ, List.countP_cons]
      have : ∀ k, (decide (limit < (m k).n)) = decide (limit < (m' k).n) := fun k => by rw [hm']
      simp only [this, show s + 1 * 1 = s + 1 by omega]
      simp only [decide_eq_true_eq, hm' s]
      omega
    by_cases hn : limit < (m s).n
    · have hf : (m s).isLeaf limit ≠ true := fun h => hlf.mp h hn
      set m1 : Mem := m.set s { m s with adrTc := some start } with hm1
      have hm1n : ∀ x, (m1 x).n = (m x).n ∧ (m1 x).adr = (m x).adr ∧ (m1 x).level = (m x).level := by
        intro x
        rw [hm1, Mem.set]
        split
        · rename_i h; rw [h]; exact ⟨rfl, rfl, rfl⟩
        · exact ⟨rfl, rfl, rfl⟩
      obtain ⟨i1, i2, i3, i4⟩ := assignAdr_eq limit k (s + 1) (start + 8) m1 (fun c h1 h2 => by
        rw [(hm1n c).2.2]; exact hl c (by omega) (by omega))
      have hdef : assignAdr limit (s :: List.range' (s + 1) k) start m =
          assignAdr limit (List.range' (s + 1) k) (start + 8) m1 := by
        rw [assignAdr, if_neg hf]; rfl
      rw [hdef]
      refine ⟨?_, ?_, ?_, ?_⟩
      · rw [i1, show s + (k + 1) = s + 1 + k by omega, hrk1 (s + 1 + k) m1 (by omega) (fun x => (hm1n x).1), if_pos hn]
        omega
      · intro x
        obtain ⟨a1, a2, a3⟩ := i2 x
        obtain ⟨b1, b2, b3⟩ := hm1n x
        exact ⟨by rw [a1, b1], by rw [a2, b2], by rw [a3, b3]⟩
      · intro x hx
        rw [i3 x (by omega), hm1, Mem.set, if_neg (by omega)]
      · intro c h1 h2 h3
        by_cases hc : c = s
        · subst hc
          rw [i3 c (by omega), hm1, Mem.set, if_pos rfl]
          simp [rk]
        · rw [i4 c (by omega) (by omega) (by rw [(hm1n c).1]; exact h3),
            hrk1 c m1 (by omega) (fun x => (hm1n x).1), if_pos hn]
          congr 1
          omega
    · have hf : (m s).isLeaf limit = true := hlf.mpr hn
      obtain ⟨i1, i2, i3, i4⟩ := assignAdr_eq limit k (s + 1) start m (fun c h1 h2 => hl c (by omega) (by omega))
      have hdef : assignAdr limit (s :: List.range' (s + 1) k) start m =
          assignAdr limit (List.range' (s + 1) k) start m := by
        rw [assignAdr, if_pos hf]
      rw [hdef]
      refine ⟨?_, i2, ?_, ?_⟩
      · rw [i1, show s + (k + 1) = s + 1 + k by omega, hrk1 (s + 1 + k) m (by omega) (fun x => rfl), if_neg hn]
        omega
      · intro x hx
        exact i3 x (by omega)
      · intro c h1 h2 h3
        by_cases hc : c = s
        · subst hc; exact absurd h3 hn
        · rw [i4 c (by omega) (by omega) h3, hrk1 c m (by omega) (fun x => rfl), if_neg hn]
          congr 1
          omega

/-- A finished cell: if it is split, its children are right and lie before `R`. -/
def Done (keys : List (BitVec 64)) (limit R : ℕ) (part : ℕ → ℕ) (m : Mem) (c : ℕ) : Prop :=
  part (m c).level ≤ c ∧ c < part ((m c).level + 1) ∧ Header keys (m c).level (m c) ∧
  (limit < (m c).n → (m c).level < 21 → ∃ t a, (m c).adrTc = some t ∧ (m c).adr = some a ∧
    part ((m c).level + 1) ≤ t ∧ t + 8 ≤ part ((m c).level + 2) ∧ t + 8 ≤ R ∧ c < t ∧
    Children keys m (m c).level t a (m c).n)

/-- What is known of the cells before `R` when the construction ends. -/
structure Final (keys : List (BitVec 64)) (limit R : ℕ) (r : Result) : Prop where
  root : (r.mem 0).n = keys.length ∧ (r.mem 0).level = 0 ∧ (r.mem 0).adr = some 0 ∧ (r.mem 0).adrTc = some 8
  pos : 8 ≤ R
  size : R ≤ r.size
  level : ∀ c < R, (r.mem c).level ≤ r.levMax
  levMax : r.levMax ≤ 21
  part : r.part (r.levMax + 1) = R
  part0 : r.part 0 = 0
  done : ∀ c < R, Done keys limit R r.part r.mem c
  order : ∀ c c' t t', c < c' → c' < R → limit < (r.mem c).n → limit < (r.mem c').n → (r.mem c).level < 21 →
    (r.mem c').level < 21 → (r.mem c).adrTc = some t → (r.mem c').adrTc = some t' → t + 8 ≤ t'
  inLevel : ∀ lev c, lev ≤ r.levMax → r.part lev ≤ c → c < r.part (lev + 1) → c < R ∧ (r.mem c).level = lev

/-- What is known when level `lev` starts. -/
structure Inv (keys : List (BitVec 64)) (limit lev left right size : ℕ) (part : ℕ → ℕ) (m : Mem) : Prop where
  root : (m 0).n = keys.length ∧ (m 0).level = 0 ∧ (m 0).adr = some 0 ∧ (m 0).adrTc = some 8
  pos : 8 ≤ right
  lvl : Level keys limit lev left right size m
  part1 : part lev = left
  part2 : part (lev + 1) = right
  part0 : part 0 = 0
  level : ∀ c < left, (m c).level < lev
  done : ∀ c < left, Done keys limit right part m c
  order : ∀ c c' t t', c < c' → c' < left → limit < (m c).n → limit < (m c').n →
    (m c).adrTc = some t → (m c').adrTc = some t' → t + 8 ≤ t'
  inLevel : ∀ l c, l < lev → part l ≤ c → c < part (l + 1) → c < left ∧ (m c).level = l

theorem rk_surj (limit : ℕ) (m : Mem) (left : ℕ) : ∀ (c q : ℕ), left ≤ c → q < rk limit m left c →
    ∃ p, left ≤ p ∧ p < c ∧ limit < (m p).n ∧ rk limit m left p = q := by
  intro c
  induction c with
  | zero => intro q h hq; simp [rk] at hq
  | succ c ih =>
    intro q h hq
    rcases Nat.lt_or_eq_of_le h with h1 | h1
    · rw [rk_succ _ _ _ _ (by omega)] at hq
      by_cases hlt : q < rk limit m left c
      · obtain ⟨p, p1, p2, p3, p4⟩ := ih q (by omega) hlt
        exact ⟨p, p1, by omega, p3, p4⟩
      · by_cases hn : limit < (m c).n
        · rw [if_pos hn] at hq
          exact ⟨c, by omega, by omega, hn, by omega⟩
        · rw [if_neg hn] at hq; omega
    · rw [← h1] at hq; simp [rk] at hq

/-- The header of a child. -/
theorem child_header {keys : List (BitVec 64)} {m : Mem} {lev t a n j : ℕ} (hlev : lev < 21)
    (hlen : a + n ≤ keys.length) (hpf : ∀ i, a ≤ i → i < a + n → pf keys lev i = pf keys lev a)
    (h : Children keys m lev t a n) (hj : j < 8) : Header keys (lev + 1) (m (t + j)) := by
  obtain ⟨b, hb, hc⟩ := h
  obtain ⟨h1, h2, h3⟩ := hc j hj
  refine ⟨h1, fun hpos => ?_⟩
  have hlt : b j < b (j + 1) := by omega
  have g := hb.ge j
  have l := hb.le (j + 1)
  refine ⟨b j, h3 hlt, by omega, fun i i1 i2 => ?_⟩
  rw [pf_succ _ _ _ hlev, pf_succ _ _ _ hlev, hpf i (by omega) (by omega), hpf (b j) (by omega) (by omega),
    hb.dg_eq i1 (by omega), hb.dg_eq (le_refl _) hlt]

/-- What holds after the cells of a level have been split. -/
structure Split (keys : List (BitVec 64)) (limit lev right right2 : ℕ) (part : ℕ → ℕ) (m : Mem) : Prop where
  done : ∀ c < right, Done keys limit right2 part m c
  level : ∀ c < right, (m c).level < lev + 1
  order : ∀ c c' t t', c < c' → c' < right → limit < (m c).n → limit < (m c').n →
    (m c).adrTc = some t → (m c').adrTc = some t' → t + 8 ≤ t'
  inLevel : ∀ l c, l < lev + 1 → part l ≤ c → c < part (l + 1) → c < right ∧ (m c).level = l
  header : ∀ c, right ≤ c → c < right2 → Header keys (lev + 1) (m c)

theorem split_of {keys : List (BitVec 64)} {limit lev left right size : ℕ} {part : ℕ → ℕ} {m m' M : Mem}
    (hlev : lev < 21) (hI : Inv keys limit lev left right size part m) (h1 : ∀ x < right, m' x = m x)
    (h2 : ∀ p, left ≤ p → p < right → limit < (m p).n → ∃ a, (m p).adr = some a ∧
      Children keys m' lev (right + 8 * rk limit m left p) a (m p).n)
    (h3 : ∀ x, (M x).n = (m' x).n ∧ (M x).adr = (m' x).adr ∧ (M x).level = (m' x).level)
    (h4 : ∀ x < right, M x = m' x) :
    Split keys limit lev right (right + 8 * rk limit m left right)
      (setPart part (lev + 2) (right + 8 * rk limit m left right)) M := by
  have hM : ∀ x < right, M x = m x := fun x hx => by rw [h4 x hx, h1 x hx]
  have hle := hI.lvl.le
  have hpart : ∀ l, l ≤ lev + 1 → setPart part (lev + 2) (right + 8 * rk limit m left right) l = part l := by
    intro l hl
    rw [setPart, if_neg (by omega)]
  have hpart2 : setPart part (lev + 2) (right + 8 * rk limit m left right) (lev + 2) =
      right + 8 * rk limit m left right := by rw [setPart, if_pos rfl]
  have hch : ∀ p, left ≤ p → p < right → limit < (m p).n → ∃ a, (m p).adr = some a ∧
      Children keys M lev (right + 8 * rk limit m left p) a (m p).n := by
    intro p p1 p2 p3
    obtain ⟨a, a1, a2⟩ := h2 p p1 p2 p3
    exact ⟨a, a1, a2.congr fun j _ => h3 _⟩
  refine ⟨?_, ?_, ?_, ?_, ?_⟩
  · intro c hc
    by_cases hcl : c < left
    · obtain ⟨d1, d2, d3, d4⟩ := hI.done c hcl
      have hlv := hI.level c hcl
      unfold Done
      rw [hM c hc, hpart _ (by omega), hpart _ (by omega)]
      refine ⟨d1, d2, d3, fun e1 e2 => ?_⟩
      obtain ⟨t, a, f1, f2, f3, f4, f5, f6, f7⟩ := d4 e1 e2
      rw [hpart ((m c).level + 2) (by omega)]
      refine ⟨t, a, f1, f2, f3, f4, by omega, f6, f7.congr fun j hj => ?_⟩
      rw [hM (t + j) (by omega)]
      exact ⟨rfl, rfl, rfl⟩
    · have hh := hI.lvl.header c (by omega) hc
      unfold Done
      rw [hM c hc, hh.1, hpart lev (by omega), hpart (lev + 1) (by omega), hI.part1, hI.part2]
      refine ⟨by omega, hc, hh, fun e1 e2 => ?_⟩
      obtain ⟨a, a1, a2⟩ := hch c (by omega) hc e1
      have := rk_lt limit m left c right (by omega) hc e1
      exact ⟨_, a, hI.lvl.adr c (by omega) hc e1, a1, by omega, by rw [hpart2]; omega, by omega, by omega, a2⟩
  · intro c hc
    rw [hM c hc]
    by_cases hcl : c < left
    · have := hI.level c hcl; omega
    · have := (hI.lvl.header c (by omega) hc).1; omega
  · intro c c' t t' hcc hc' n1 n2 t1 t2
    rw [hM c (by omega)] at n1 t1
    rw [hM c' (by omega)] at n2 t2
    by_cases hcl : c' < left
    · exact hI.order c c' t t' hcc hcl n1 n2 t1 t2
    · rw [hI.lvl.adr c' (by omega) hc' n2] at t2
      have e2 := Option.some.inj t2
      by_cases hcl2 : c < left
      · obtain ⟨_, _, _, d4⟩ := hI.done c hcl2
        have hlv := hI.level c hcl2
        obtain ⟨t0, a, f1, f2, f3, f4, f5, f6, f7⟩ := d4 n1 (by omega)
        rw [t1] at f1
        have := Option.some.inj f1
        omega
      · rw [hI.lvl.adr c (by omega) (by omega) n1] at t1
        have e1 := Option.some.inj t1
        have := rk_lt limit m left c c' (by omega) hcc n1
        omega
  · intro l c hl p1 p2
    rw [hpart l (by omega)] at p1
    rw [hpart (l + 1) (by omega)] at p2
    by_cases hll : l < lev
    · obtain ⟨i1, i2⟩ := hI.inLevel l c hll p1 p2
      exact ⟨by omega, by rw [hM c (by omega)]; exact i2⟩
    · have : l = lev := by omega
      subst this
      rw [hI.part1] at p1
      rw [hI.part2] at p2
      exact ⟨p2, by rw [hM c p2]; exact (hI.lvl.header c p1 p2).1⟩
  · intro c c1 c2
    obtain ⟨p, p1, p2, p3, p4⟩ := rk_surj limit m left right ((c - right) / 8) hle (by omega)
    obtain ⟨a, a1, a2⟩ := hch p p1 p2 p3
    obtain ⟨a', b1, b2, b3⟩ := (hI.lvl.header p p1 p2).2 (by omega)
    rw [a1] at b1
    obtain rfl := Option.some.inj b1
    have := child_header hlev b2 b3 a2 (show (c - right) % 8 < 8 from Nat.mod_lt _ (by omega))
    rwa [p4, show right + 8 * ((c - right) / 8) + (c - right) % 8 = c by omega] at this

theorem linkLoop_step (keys : List (BitVec 64)) (hs : SortedKeys keys) (limit : ℕ) (hlim : 1 ≤ limit)
    (order : ℕ → ℕ → List ℕ) (hord : ∀ l r, (order l r).Perm (List.range' l (r - l))) :
    ∀ (rem left right size : ℕ) (part : ℕ → ℕ) (m : Mem), rem + 1 ≤ 21 →
      Inv keys limit (levelLimit - (rem + 1)) left right size part m →
      (∃ r R, linkLoop keys limit order (rem + 1) left right size part m = some r ∧ Final keys limit R r) ∨
      (rem ≠ 0 ∧ ∃ left' right' size' part' m', linkLoop keys limit order (rem + 1) left right size part m =
        linkLoop keys limit order rem left' right' size' part' m' ∧
        Inv keys limit (levelLimit - rem) left' right' size' part' m') := by
    intro rem left right size part m hrem hI
    set lev := levelLimit - (rem + 1) with hlevdef
    have hlev : lev < 21 := by rw [hlevdef, levelLimit]; omega
    have hle := hI.lvl.le
    have hmemo : ∀ p, p ∈ order left right ↔ left ≤ p ∧ p < right := fun p => by
      rw [(hord left right).mem_iff, List.mem_range'_1]; omega
    have hnew : newCells limit m (order left right) = 8 * rk limit m left right := by
      rw [newCells, (hord left right).countP_eq]; rfl
    obtain ⟨m', l1, l2, _, l4⟩ := linkParents_eq keys hs limit lev left right size hlim hlev (order left right) m
      ((hord left right).nodup_iff.mpr List.nodup_range') (fun i hi => (hmemo i).mp hi) hI.lvl
    have hchild := fun p p1 p2 p3 => l4 p ((hmemo p).mpr ⟨p1, p2⟩) p3
    have hsz := hI.lvl.size
    have hpos := hI.pos
    rw [linkLoop]
    simp only [← hlevdef, l1, hnew]
    by_cases hz : 8 * rk limit m left right = 0
    · rw [if_pos hz]
      have hno : ∀ c, left ≤ c → c < right → ¬ limit < (m c).n := fun c c1 c2 c3 => by
        have := rk_lt limit m left c right c1 c2 c3; omega
      have hlc : ∀ c < right, (m c).level ≤ lev := fun c hc => by
        by_cases hcl : c < left
        · have := hI.level c hcl; omega
        · exact le_of_eq (hI.lvl.header c (by omega) hc).1
      left
      refine ⟨_, right, rfl, ⟨?_, hpos, by simp only; omega, ?_, by simp only; omega, hI.part2, hI.part0, ?_, ?_, ?_⟩⟩
      · simp only [l2 0 (by omega)]; exact hI.root
      · intro c hc; simp only [l2 c hc]; exact hlc c hc
      · intro c hc
        simp only [Done, l2 c hc]
        by_cases hcl : c < left
        · obtain ⟨d1, d2, d3, d4⟩ := hI.done c hcl
          refine ⟨d1, d2, d3, fun e1 e2 => ?_⟩
          obtain ⟨t, a, f1, f2, f3, f4, f5, f6, f7⟩ := d4 e1 e2
          refine ⟨t, a, f1, f2, f3, f4, f5, f6, f7.congr fun j hj => ?_⟩
          rw [l2 (t + j) (by omega)]
          exact ⟨rfl, rfl, rfl⟩
        · have hh := hI.lvl.header c (by omega) hc
          rw [hh.1, hI.part1, hI.part2]
          exact ⟨by omega, hc, hh, fun e1 => absurd e1 (hno c (by omega) hc)⟩
      · intro c c' t t' hcc hc' n1 n2 _ _ t1 t2
        simp only [l2 c (by omega)] at n1 t1
        simp only [l2 c' (by omega)] at n2 t2
        by_cases hcl : c' < left
        · exact hI.order c c' t t' hcc hcl n1 n2 t1 t2
        · exact absurd n2 (hno c' (by omega) hc')
      · intro l c hl p1 p2
        simp only at hl p1 p2
        by_cases hll : l < lev
        · obtain ⟨i1, i2⟩ := hI.inLevel l c hll p1 p2
          exact ⟨by omega, by simp only [l2 c (by omega)]; exact i2⟩
        · have : l = lev := by omega
          subst this
          rw [hI.part1] at p1
          rw [hI.part2] at p2
          exact ⟨p2, by simp only [l2 c p2]; exact (hI.lvl.header c p1 p2).1⟩
    · rw [if_neg hz]
      set R := right + 8 * rk limit m left right with hR
      have hp0 : setPart part (lev + 2) R 0 = 0 := by rw [setPart, if_neg (by omega)]; exact hI.part0
      have hp1 : setPart part (lev + 2) R (lev + 1) = right := by rw [setPart, if_neg (by omega)]; exact hI.part2
      have hp2 : setPart part (lev + 2) R (lev + 2) = R := by rw [setPart, if_pos rfl]
      by_cases h0 : rem = 0
      · rw [if_pos h0]
        left
        have hS := split_of (M := m') hlev hI l2 hchild (fun x => ⟨rfl, rfl, rfl⟩) (fun x _ => rfl)
        have h21 : lev + 1 = 21 := by rw [hlevdef, levelLimit]; omega
        have hl : ∀ c < R, (m' c).level ≤ lev + 1 := fun c hc => by
          by_cases hcr : c < right
          · have := hS.level c hcr; omega
          · exact le_of_eq (hS.header c (by omega) hc).1
        refine ⟨_, R, rfl, ⟨?_, by omega, by simp only; omega, hl, by simp only; omega, hp2, hp0, ?_, ?_, ?_⟩⟩
        · simp only [l2 0 (by omega)]; exact hI.root
        · intro c hc
          by_cases hcr : c < right
          · exact hS.done c hcr
          · have hh := hS.header c (by omega) hc
            simp only [Done]
            rw [hh.1, hp1, hp2]
            exact ⟨by omega, hc, hh, fun _ e2 => absurd e2 (by omega)⟩
        · intro c c' t t' hcc hc' n1 n2 v1 v2 t1 t2
          by_cases hcr : c' < right
          · exact hS.order c c' t t' hcc hcr n1 n2 t1 t2
          · have := (hS.header c' (by omega) hc').1
            simp only at v2
            omega
        · intro l c hl' p1 p2
          simp only at hl' p1 p2
          by_cases hll : l < lev + 1
          · obtain ⟨i1, i2⟩ := hS.inLevel l c hll p1 p2
            exact ⟨by omega, i2⟩
          · have : l = lev + 1 := by omega
            subst this
            rw [hp1] at p1
            rw [hp2] at p2
            exact ⟨p2, (hS.header c p1 p2).1⟩
      · rw [if_neg h0]
        right
        have hS0 := split_of (M := m') hlev hI l2 hchild (fun x => ⟨rfl, rfl, rfl⟩) (fun x _ => rfl)
        have hnext : levelLimit - rem = lev + 1 := by rw [hlevdef, levelLimit]; omega
        have hl21 : lev + 1 < 21 := by rw [← hnext, levelLimit]; omega
        obtain ⟨i1, i2, i3, i4⟩ := assignAdr_eq limit (8 * rk limit m left right) right R m' (fun c c1 c2 => by
          have := (hS0.header c c1 c2).1; omega)
        have hS := split_of (M := (assignAdr limit (List.range' right (8 * rk limit m left right)) R m').1) hlev hI
          l2 hchild i2 (fun x hx => i3 x (Or.inl hx))
        have hrkM : ∀ c, rk limit (assignAdr limit (List.range' right (8 * rk limit m left right)) R m').1 right c =
            rk limit m' right c := fun c => rk_congr limit m' _ right c (fun k _ _ => (i2 k).1)
        refine ⟨h0, right, R, _, _, _, rfl, ?_⟩
        rw [hnext]
        refine ⟨?_, by omega, ⟨by omega, hS.header, ?_, ?_⟩, hp1, hp2, hp0, hS.level, hS.done, hS.order, hS.inLevel⟩
        · rw [i3 0 (Or.inl (by omega)), l2 0 (by omega)]; exact hI.root
        · intro c c1 c2 c3
          rw [(i2 c).1] at c3
          rw [hrkM]
          exact i4 c c1 c2 c3
        · rw [hrkM, i1]

theorem linkLoop_final (keys : List (BitVec 64)) (hs : SortedKeys keys) (limit : ℕ) (hlim : 1 ≤ limit)
    (order : ℕ → ℕ → List ℕ) (hord : ∀ l r, (order l r).Perm (List.range' l (r - l))) :
    ∀ (rem left right size : ℕ) (part : ℕ → ℕ) (m : Mem), rem + 1 ≤ 21 →
      Inv keys limit (levelLimit - (rem + 1)) left right size part m →
      ∃ r R, linkLoop keys limit order (rem + 1) left right size part m = some r ∧ Final keys limit R r := by
  intro rem
  induction rem with
  | zero =>
    intro left right size part m h hI
    rcases linkLoop_step keys hs limit hlim order hord 0 left right size part m h hI with h | ⟨h, _⟩
    · exact h
    · exact absurd rfl h
  | succ rem ih =>
    intro left right size part m h hI
    rcases linkLoop_step keys hs limit hlim order hord (rem + 1) left right size part m h hI with
      h | ⟨_, left', right', size', part', m', h1, h2⟩
    · exact h
    · rw [h1]
      exact ih left' right' size' part' m' (by omega) h2

theorem linkCell_final (keys : List (BitVec 64)) (hs : SortedKeys keys) (limit : ℕ) (hlim : 1 ≤ limit)
    (order : ℕ → ℕ → List ℕ) (hord : ∀ l r, (order l r).Perm (List.range' l (r - l))) (part : ℕ → ℕ) (m : Mem) :
    ∃ r R, linkCell keys limit order part m = some r ∧ Final keys limit R r := by
  have hr0 : rootCells keys.length m 0 = ⟨keys.length, some 8, some 0, 0⟩ := by simp [rootCells, nChildren]
  have hrk : ∀ k, 0 < k → k < 8 → rootCells keys.length m k = ⟨0, none, none, 0⟩ := fun k h1 h2 => by
    rw [rootCells, if_neg (by omega), if_pos (show k < nChildren from h2)]
  have hhead : ∀ c < 8, Header keys 0 (rootCells keys.length m c) := by
    intro c hc
    by_cases h0 : c = 0
    · subst h0
      rw [hr0]
      exact ⟨rfl, fun _ => ⟨0, rfl, by simp, fun i _ _ => by rw [pf_zero keys hs, pf_zero keys hs]⟩⟩
    · rw [hrk c (by omega) hc]
      exact ⟨rfl, fun h => by simp at h⟩
  unfold linkCell
  simp only
  set part' := setPart (setPart part 0 0) 1 nChildren with hpart
  have hp0 : part' 0 = 0 := by simp [hpart, setPart]
  have hp1 : part' 1 = 8 := by simp [hpart, setPart, nChildren]
  by_cases hn : keys.length ≤ limit
  · rw [if_pos hn]
    have hno : ∀ c < 8, ¬ limit < (rootCells keys.length m c).n := fun c hc => by
      by_cases h0 : c = 0
      · subst h0; rw [hr0]; simpa using hn
      · rw [hrk c (by omega) hc]; simp
    refine ⟨_, 8, rfl, ⟨?_, le_refl _, (by decide : 8 ≤ nChildren * 2), ?_, by simp, hp1, hp0, ?_, ?_, ?_⟩⟩
    · simp only [hr0, true_and]
    · intro c hc; simp only [(hhead c hc).1]; exact le_refl _
    · intro c hc
      have hh := hhead c hc
      simp only [Done]
      rw [hh.1, hp0]
      exact ⟨by omega, by rw [hp1]; exact hc, hh, fun e => absurd e (hno c hc)⟩
    · intro c c' t t' _ hc' _ n2
      exact absurd n2 (hno c' hc')
    · intro l c hl p1 p2
      simp only at hl p1 p2
      have : l = 0 := by omega
      subst this
      rw [hp1] at p2
      exact ⟨p2, (hhead c p2).1⟩
  · rw [if_neg hn]
    have hrk8 : ∀ c, 0 < c → c ≤ 8 → rk limit (rootCells keys.length m) 0 c = 1 := by
      intro c
      induction c with
      | zero => intro h; omega
      | succ c ih =>
        intro _ h8
        rw [rk_succ _ _ _ _ (by omega)]
        by_cases h0 : c = 0
        · subst h0
          rw [hr0, if_pos (by simpa using hn)]
          simp [rk]
        · rw [ih (by omega) (by omega), hrk c (by omega) (by omega), if_neg (by simp)]
    apply linkLoop_final keys hs limit hlim order hord 20 0 nChildren (nChildren * 2) part' _ (by omega)
    refine ⟨by rw [hr0]; exact ⟨rfl, rfl, rfl, rfl⟩, by decide, ⟨by omega, fun c _ hc => hhead c hc, ?_, ?_⟩, hp0, hp1, hp0,
      fun c hc => by omega, fun c hc => by omega, fun c c' t t' _ hc => by omega, fun l c hl => by
        simp [levelLimit] at hl⟩
    · intro c _ hc h3
      by_cases h0 : c = 0
      · subst h0; rw [hr0]; simp [rk, nChildren]
      · rw [hrk c (by omega) hc] at h3
        simp at h3
    · have := hrk8 8 (by omega) (le_refl _)
      simp only [nChildren]
      omega

theorem isTree_of_final (keys : List (BitVec 64)) (limit R : ℕ) (r : Result) (hF : Final keys limit R r) :
    ∀ (d lev c a n : ℕ), lev + d = 21 → c < R → (r.mem c).level = lev → (r.mem c).n = n →
      (0 < n → (r.mem c).adr = some a) → IsTree r keys limit lev c a n := by
  intro d
  induction d with
  | zero =>
    intro lev c a n hd hc hl hn ha
    have hsz := hF.size
    obtain ⟨d1, d2, d3, d4⟩ := hF.done c hc
    have hlm := hF.level c hc
    rw [hl] at d1 d2 d3 hlm
    rcases Nat.eq_zero_or_pos n with h0 | h0
    · subst h0
      exact IsTree.empty lev c a (by omega) d1 d2 hlm hn hl
    · obtain ⟨a', a1, a2, _⟩ := d3.2 (by omega)
      rw [ha h0] at a1
      obtain rfl := Option.some.inj a1
      exact IsTree.leaf lev c a n (by omega) d1 d2 hlm hn hl h0 (ha h0) (by omega)
        (Or.inr (by rw [levelLimit]; omega))
  | succ d ih =>
    intro lev c a n hd hc hl hn ha
    have hsz := hF.size
    obtain ⟨d1, d2, d3, d4⟩ := hF.done c hc
    have hlm := hF.level c hc
    rw [hl] at d1 d2 d3 d4 hlm
    rcases Nat.eq_zero_or_pos n with h0 | h0
    · subst h0
      exact IsTree.empty lev c a (by omega) d1 d2 hlm hn hl
    · obtain ⟨a', a1, a2, _⟩ := d3.2 (by omega)
      rw [ha h0] at a1
      obtain rfl := Option.some.inj a1
      by_cases hlim : n ≤ limit
      · exact IsTree.leaf lev c a n (by omega) d1 d2 hlm hn hl h0 (ha h0) (by omega) (Or.inl hlim)
      · obtain ⟨t, a', f1, f2, f3, f4, f5, f6, b, hb, hch⟩ := d4 (by omega) (by omega)
        rw [ha h0] at f2
        obtain rfl := Option.some.inj f2
        rw [hn] at hb
        refine IsTree.node lev c a n t b (by omega) d1 d2 hlm hn hl (by omega) (by rw [levelLimit]; omega) (ha h0)
          (by omega) f1 hb.zero hb.eight (fun j _ => hb.mono j) ?_ ?_
        · intro j hj i i1 i2
          have hle := hb.le (j + 1)
          have hi : i < keys.length := by omega
          refine ⟨keys[i], List.getElem?_eq_getElem hi, ?_⟩
          have := hb.dg_eq i1 i2
          rwa [dg, List.getElem?_eq_getElem hi] at this
        · intro j hj
          obtain ⟨c1, c2, c3⟩ := hch j hj
          exact ih (lev + 1) (t + j) (b j) _ (by omega) (by omega) c1 c2 (fun h => c3 (by omega))

theorem linked_of_final (keys : List (BitVec 64)) (limit R : ℕ) (r : Result) (hF : Final keys limit R r) :
    Linked r keys limit := by
  have := hF.pos
  refine ⟨isTree_of_final keys limit R r hF 21 0 0 0 keys.length (by omega) (by omega) hF.root.2.1 hF.root.1
    (fun _ => hF.root.2.2.1), hF.root.2.2.1, hF.root.2.2.2, hF.levMax, fun lev c h1 h2 h3 => ?_⟩
  obtain ⟨h4, h5⟩ := hF.inLevel lev c h1 h2 h3
  obtain ⟨_, _, d3, _⟩ := hF.done c h4
  have h6 := hF.levMax
  rcases Nat.eq_zero_or_pos (r.mem c).n with h0 | h0
  · exact ⟨0, 0, isTree_of_final keys limit R r hF (21 - lev) lev c 0 0 (by omega) h4 h5 h0 (fun h => by omega)⟩
  · obtain ⟨a, a1, _⟩ := d3.2 h0
    exact ⟨a, (r.mem c).n, isTree_of_final keys limit R r hF (21 - lev) lev c a _ (by omega) h4 h5 rfl (fun _ => a1)⟩

end Verif.Tree
