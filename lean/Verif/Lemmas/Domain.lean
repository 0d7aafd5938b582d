import Verif.Spec.Domain
import Mathlib.Tactic.IntervalCases
/-! Proofs about the domain decomposition. -/
namespace Verif.Domain

/-! ### the start of the part of each rank -/

theorem istart_zero (tot n : ℕ) : istart tot n 0 = 0 := by simp [istart]

theorem istart_n (tot n : ℕ) (hn : 1 ≤ n) : istart tot n n = tot := by
  unfold istart
  exact Nat.mul_div_cancel_left tot (by omega)

theorem istart_succ (tot n i : ℕ) (hn : 1 ≤ n) (ht : n ≤ tot) : istart tot n i < istart tot n (i + 1) := by
  unfold istart
  have : i * tot / n + 1 = (i * tot + n) / n := by rw [Nat.add_div_right _ (by omega)]
  have h2 : (i * tot + n) / n ≤ ((i + 1) * tot) / n := Nat.div_le_div_right (by rw [Nat.add_mul]; omega)
  omega

theorem istart_lt (tot n : ℕ) (hn : 1 ≤ n) (ht : n ≤ tot) {i j : ℕ} (h : i < j) : istart tot n i < istart tot n j :=
  strictMono_nat_of_lt_succ (fun i => istart_succ tot n i hn ht) h

theorem istart_le (tot n : ℕ) (hn : 1 ≤ n) (ht : n ≤ tot) {i j : ℕ} (h : i ≤ j) : istart tot n i ≤ istart tot n j :=
  (strictMono_nat_of_lt_succ (fun i => istart_succ tot n i hn ht)).monotone h

theorem istart_inj (tot n : ℕ) (hn : 1 ≤ n) (ht : n ≤ tot) {i j : ℕ} : istart tot n i = istart tot n j ↔ i = j :=
  (strictMono_nat_of_lt_succ (fun i => istart_succ tot n i hn ht)).injective.eq_iff

theorem iend_eq (tot n i : ℕ) (hi : i < n) : iend tot n i = (istart tot n (i + 1) : ℤ) - 1 := by
  unfold iend
  split_ifs with h
  · rfl
  · have : i + 1 = n := by omega
    rw [this, istart_n tot n (by omega)]

/-! ### cuts -/

/-- The cut before block `p` of the blocks `i0 ≤ p < i1`. -/
noncomputable def cut (f : V3 → ℝ) (lo hi : ℝ) (s : List V3) (n i0 i1 p : ℕ) : ℝ :=
  if p = i0 then lo else if p = i1 then hi else
    0.5 * (f (s.getD (istart s.length n p - 1) 0) + f (s.getD (istart s.length n p) 0))

theorem sampleAt_nat (s : List V3) (a j : ℕ) (h : j < s.length) : sampleAt s a ((j : ℤ) - a) = some (s.getD j 0) := by
  unfold sampleAt
  rw [if_neg (by omega)]
  have : ((a : ℤ) + ((j : ℤ) - a)).toNat = j := by omega
  rw [this, List.getElem?_eq_getElem h]
  simp [List.getD_eq_getElem?_getD, h]

theorem boundary_cut (f : V3 → ℝ) (lo hi : ℝ) (s : List V3) (n : ℕ) (hn : 1 ≤ n) (ht : n ≤ s.length) (i0 i1 p q : ℕ)
    (h0 : i0 ≤ p) (hpq : p < q) (h1 : q ≤ i1) (hi1 : i1 ≤ n) :
    boundary f lo hi ((istart s.length n i1 : ℤ) - istart s.length n i0) s (istart s.length n i0)
      ((istart s.length n p : ℤ) - istart s.length n i0) ((istart s.length n q : ℤ) - 1 - istart s.length n i0) =
    some (cut f lo hi s n i0 i1 p, cut f lo hi s n i0 i1 q) := by
  have key : ∀ r, i0 < r → r < i1 → sampleAt s (istart s.length n i0) ((istart s.length n r : ℤ) - 1 - istart s.length n i0) =
      some (s.getD (istart s.length n r - 1) 0) ∧
      sampleAt s (istart s.length n i0) ((istart s.length n r : ℤ) - istart s.length n i0) = some (s.getD (istart s.length n r) 0) := by
    intro r hr hr1
    have ha := istart_lt s.length n hn ht hr
    have hb := istart_lt s.length n hn ht (show r < n by omega)
    rw [istart_n _ _ hn] at hb
    refine ⟨?_, sampleAt_nat s _ _ hb⟩
    have : ((istart s.length n r : ℤ) - 1) = ((istart s.length n r - 1 : ℕ) : ℤ) := by omega
    rw [this]
    exact sampleAt_nat s _ _ (by omega)
  have hL : (if (istart s.length n p : ℤ) - istart s.length n i0 = 0 then some lo else
      middle f s (istart s.length n i0) ((istart s.length n p : ℤ) - istart s.length n i0 - 1)
        ((istart s.length n p : ℤ) - istart s.length n i0)) = some (cut f lo hi s n i0 i1 p) := by
    unfold cut
    by_cases hp : p = i0
    · subst hp
      simp
    · have ha := istart_lt s.length n hn ht (show i0 < p by omega)
      obtain ⟨k1, k2⟩ := key p (by omega) (by omega)
      rw [if_neg (by omega), if_neg hp, if_neg (by omega), show (istart s.length n p : ℤ) - istart s.length n i0 - 1 =
        (istart s.length n p : ℤ) - 1 - istart s.length n i0 by ring, middle, k1, k2]
  have hH : (if (istart s.length n q : ℤ) - 1 - istart s.length n i0 = (istart s.length n i1 : ℤ) - istart s.length n i0 - 1 then some hi else
      middle f s (istart s.length n i0) ((istart s.length n q : ℤ) - 1 - istart s.length n i0)
        ((istart s.length n q : ℤ) - 1 - istart s.length n i0 + 1)) = some (cut f lo hi s n i0 i1 q) := by
    unfold cut
    by_cases hq : q = i1
    · subst hq
      rw [if_pos (by ring), if_neg (by omega), if_pos rfl]
    · have ha := istart_lt s.length n hn ht (show q < i1 by omega)
      obtain ⟨k1, k2⟩ := key q (by omega) (by omega)
      rw [if_neg (by omega), if_neg (by omega), if_neg hq, show (istart s.length n q : ℤ) - 1 - istart s.length n i0 + 1 =
        (istart s.length n q : ℤ) - istart s.length n i0 by ring, middle, k1, k2]
  unfold boundary
  rw [hL, hH]

/-! ### slices -/

/-- The elements `a ≤ j < b`. -/
def slice (s : List V3) (a b : ℕ) : List V3 := (s.drop a).take (b - a)

theorem slice_length (s : List V3) (a b : ℕ) (h : b ≤ s.length) : (slice s a b).length = b - a := by
  simp [slice]
  omega

theorem slice_get (s : List V3) (a b j : ℕ) (h : j < b - a) : (slice s a b)[j]? = s[a + j]? := by
  simp [slice, List.getElem?_take, h]

theorem mem_slice (s : List V3) (a b : ℕ) (p : V3) : p ∈ slice s a b ↔ ∃ j, a ≤ j ∧ j < b ∧ s[j]? = some p := by
  constructor
  · intro h
    obtain ⟨j, hj⟩ := List.mem_iff_getElem?.mp h
    have hlt : j < b - a := by
      by_contra hc
      have := List.getElem?_eq_some_iff.mp hj
      obtain ⟨hl, -⟩ := this
      simp [slice] at hl
      omega
    rw [slice_get s a b j hlt] at hj
    exact ⟨a + j, by omega, by omega, hj⟩
  · rintro ⟨j, h1, h2, h3⟩
    apply List.mem_iff_getElem?.mpr
    refine ⟨j - a, ?_⟩
    rw [slice_get s a b (j - a) (by omega), show a + (j - a) = j by omega]
    exact h3

theorem slice_congr (s s' : List V3) (a b : ℕ) (hl : s'.length = s.length) (h : ∀ j, a ≤ j → j < b → s'[j]? = s[j]?) :
    slice s' a b = slice s a b := by
  apply List.ext_getElem?
  intro j
  by_cases hj : j < b - a
  · rw [slice_get s' a b j hj, slice_get s a b j hj, h (a + j) (by omega) (by omega)]
  · rw [List.getElem?_eq_none (by simp [slice]; omega), List.getElem?_eq_none (by simp [slice]; omega)]

theorem sorted_get {f : V3 → ℝ} {l : List V3} (h : l.Pairwise fun p q => f p ≤ f q) {i j : ℕ} {p q : V3} (hij : i ≤ j)
    (hi : l[i]? = some p) (hj : l[j]? = some q) : f p ≤ f q := by
  rcases Nat.lt_or_ge i j with hlt | hge
  · obtain ⟨h1, e1⟩ := List.getElem?_eq_some_iff.mp hi
    obtain ⟨h2, e2⟩ := List.getElem?_eq_some_iff.mp hj
    have := (List.pairwise_iff_getElem.mp h) i j h1 h2 hlt
    rwa [e1, e2] at this
  · have : i = j := by omega
    subst this
    rw [hi] at hj
    cases hj
    exact le_rfl

/-- Samples sorted along `f` in a block: the cuts increase, and the samples of a part are between its cuts. -/
theorem cut_spec (f : V3 → ℝ) (lo hi : ℝ) (s : List V3) (n : ℕ) (hn : 1 ≤ n) (ht : n ≤ s.length) (i0 i1 : ℕ) (hi1 : i1 ≤ n)
    (hs : (slice s (istart s.length n i0) (istart s.length n i1)).Pairwise fun p q => f p ≤ f q)
    (hb : ∀ p ∈ slice s (istart s.length n i0) (istart s.length n i1), lo ≤ f p ∧ f p ≤ hi) (p q : ℕ) (h0 : i0 ≤ p) (hpq : p < q) (h1 : q ≤ i1) :
    cut f lo hi s n i0 i1 p ≤ cut f lo hi s n i0 i1 q ∧
    ∀ x ∈ slice s (istart s.length n p) (istart s.length n q), cut f lo hi s n i0 i1 p ≤ f x ∧ f x ≤ cut f lo hi s n i0 i1 q := by
  have hn' : istart s.length n i1 ≤ s.length := by
    have := istart_le s.length n hn ht hi1
    rwa [istart_n _ _ hn] at this
  -- samples inside the block, by number
  have hget : ∀ j, istart s.length n i0 ≤ j → j < istart s.length n i1 →
      (slice s (istart s.length n i0) (istart s.length n i1))[j - istart s.length n i0]? = some (s.getD j 0) := by
    intro j h2 h3
    rw [slice_get _ _ _ _ (by omega), show istart s.length n i0 + (j - istart s.length n i0) = j by omega,
      List.getElem?_eq_getElem (by omega)]
    simp [List.getD_eq_getElem?_getD, show j < s.length by omega]
  have hmono : ∀ i j, istart s.length n i0 ≤ i → i ≤ j → j < istart s.length n i1 → f (s.getD i 0) ≤ f (s.getD j 0) :=
    fun i j h2 h3 h4 => sorted_get hs (by omega) (hget i h2 (by omega)) (hget j (by omega) h4)
  have hbd : ∀ j, istart s.length n i0 ≤ j → j < istart s.length n i1 → lo ≤ f (s.getD j 0) ∧ f (s.getD j 0) ≤ hi :=
    fun j h2 h3 => hb _ (List.mem_of_getElem? (hget j h2 h3))
  -- a cut is below what follows and above what precedes
  have above : ∀ r, i0 ≤ r → r < i1 → ∀ j, istart s.length n r ≤ j → j < istart s.length n i1 → cut f lo hi s n i0 i1 r ≤ f (s.getD j 0) := by
    intro r hr0 hr1 j hj0 hj1
    have hA := istart_le s.length n hn ht hr0
    unfold cut
    split_ifs with c1 c2
    · exact (hbd j (by omega) hj1).1
    · omega
    · have hA' := istart_lt s.length n hn ht (show i0 < r by omega)
      have m1 := hmono (istart s.length n r - 1) j (by omega) (by omega) hj1
      have m2 := hmono (istart s.length n r) j (by omega) (by omega) hj1
      norm_num at *
      linarith
  have below : ∀ r, i0 < r → r ≤ i1 → ∀ j, istart s.length n i0 ≤ j → j < istart s.length n r → f (s.getD j 0) ≤ cut f lo hi s n i0 i1 r := by
    intro r hr0 hr1 j hj0 hj1
    have hA := istart_le s.length n hn ht hr1
    unfold cut
    split_ifs with c1 c2
    · omega
    · exact (hbd j (by omega) (by omega)).2
    · have hA' := istart_lt s.length n hn ht (show r < i1 by omega)
      have m1 := hmono j (istart s.length n r - 1) (by omega) (by omega) (by omega)
      have m2 := hmono j (istart s.length n r) (by omega) (by omega) (by omega)
      norm_num at *
      linarith
  have hin : ∀ j, istart s.length n p ≤ j → j < istart s.length n q →
      cut f lo hi s n i0 i1 p ≤ f (s.getD j 0) ∧ f (s.getD j 0) ≤ cut f lo hi s n i0 i1 q := by
    intro j h2 h3
    have hA := istart_le s.length n hn ht h0
    have hB := istart_le s.length n hn ht h1
    exact ⟨above p h0 (by omega) j h2 (by omega), below q (by omega) h1 j (by omega) h3⟩
  constructor
  · obtain ⟨k1, k2⟩ := hin (istart s.length n p) (le_refl _) (istart_lt s.length n hn ht hpq)
    linarith
  · intro x hx
    obtain ⟨j, h2, h3, h4⟩ := (mem_slice _ _ _ _).mp hx
    have := hin j h2 h3
    simpa [List.getD_eq_getElem?_getD, h4] using this

theorem cut_congr (f : V3 → ℝ) (lo hi : ℝ) (s s' : List V3) (n : ℕ) (hn : 1 ≤ n) (ht : n ≤ s.length) (i0 i1 p : ℕ) (h0 : i0 ≤ p) (h1 : p ≤ i1)
    (hl : s'.length = s.length) (h : ∀ j, istart s.length n i0 ≤ j → j < istart s.length n i1 → s'[j]? = s[j]?) :
    cut f lo hi s' n i0 i1 p = cut f lo hi s n i0 i1 p := by
  unfold cut
  rw [hl]
  split_ifs with c1 c2
  · rfl
  · rfl
  · have hA := istart_lt s.length n hn ht (show i0 < p by omega)
    have hB := istart_lt s.length n hn ht (show p < i1 by omega)
    simp only [List.getD_eq_getElem?_getD, h (istart s.length n p - 1) (by omega) (by omega), h (istart s.length n p) (by omega) (by omega)]

/-! ### the loops -/

def putX (b : Box) (v : ℝ × ℝ) : Box := ⟨⟨v.1, b.low.y, b.low.z⟩, ⟨v.2, b.high.y, b.high.z⟩⟩
def putY (b : Box) (v : ℝ × ℝ) : Box := ⟨⟨b.low.x, v.1, b.low.z⟩, ⟨b.high.x, v.2, b.high.z⟩⟩
def putZ (b : Box) (v : ℝ × ℝ) : Box := ⟨⟨b.low.x, b.low.y, v.1⟩, ⟨b.high.x, b.high.y, v.2⟩⟩

def fill (put : Box → ℝ × ℝ → Box) (t : ℕ → Box) (a b : ℕ) (v : ℝ × ℝ) : ℕ → Box := fun i => if a ≤ i ∧ i < b then put (t i) v else t i

theorem fillX_eq (t : ℕ → Box) (a b : ℕ) (v : ℝ × ℝ) : fillX t a b v = fill putX t a b v := rfl
theorem fillY_eq (t : ℕ → Box) (a b : ℕ) (v : ℝ × ℝ) : fillY t a b v = fill putY t a b v := rfl
theorem setZ_eq (t : ℕ → Box) (k : ℕ) (v : ℝ × ℝ) : setZ t k v = fill putZ t k (k + 1) v := by
  funext i
  simp only [setZ, fill, putZ]
  by_cases h : i = k
  · subst h; simp
  · rw [if_neg h, if_neg (by omega)]

/-- The cuts written into the domains of a block that is divided into parts of `u` domains. -/
noncomputable def cuts (f : V3 → ℝ) (lo hi : ℝ) (s : List V3) (n i0 i1 u i : ℕ) : ℝ × ℝ :=
  (cut f lo hi s n i0 i1 (i0 + (i - i0) / u * u), cut f lo hi s n i0 i1 (i0 + ((i - i0) / u + 1) * u))

/-- The loop over the parts of a block. -/
theorem inner_spec (f : V3 → ℝ) (lo hi : ℝ) (put : Box → ℝ × ℝ → Box) (s : List V3) (n : ℕ) (hn : 1 ≤ n) (ht : n ≤ s.length) (i0 i1 u : ℕ) (hu : 1 ≤ u)
    (hi1 : i1 ≤ n) (loop : ℕ → ℕ → (ℕ → Box) → Option (ℕ → Box)) (h0 : ∀ j t, loop 0 j t = some t)
    (hloop : ∀ k j t, i0 + (j + (k + 1)) * u = i1 → ∀ v, boundary f lo hi ((istart s.length n i1 : ℤ) - istart s.length n i0) s (istart s.length n i0)
      ((istart s.length n (i0 + j * u) : ℤ) - istart s.length n i0) ((istart s.length n (i0 + (j + 1) * u) : ℤ) - 1 - istart s.length n i0) = some v →
      loop (k + 1) j t = loop k (j + 1) (fill put t (i0 + j * u) (i0 + (j + 1) * u) v)) :
    ∀ k j t, i0 + (j + k) * u = i1 → ∃ t', loop k j t = some t' ∧
      ∀ i, t' i = if i0 + j * u ≤ i ∧ i < i1 then put (t i) (cuts f lo hi s n i0 i1 u i) else t i := by
  intro k
  induction k with
  | zero =>
    intro j t h
    refine ⟨t, h0 j t, fun i => ?_⟩
    rw [if_neg]
    simp only [Nat.add_zero] at h
    omega
  | succ k ih =>
    intro j t h
    have hj1 : i0 + (j + 1) * u ≤ i1 := by
      rw [← h]
      exact Nat.add_le_add_left (Nat.mul_le_mul_right u (by omega)) _
    have hstep : (j + 1) * u = j * u + u := by ring
    have hb := boundary_cut f lo hi s n hn ht i0 i1 (i0 + j * u) (i0 + (j + 1) * u) (by omega) (by omega) hj1 hi1
    obtain ⟨t', e, ht'⟩ := ih (j + 1) (fill put t (i0 + j * u) (i0 + (j + 1) * u) _) (by rw [← h]; ring)
    refine ⟨t', by rw [hloop k j t h _ hb]; exact e, fun i => ?_⟩
    rw [ht' i]
    by_cases c1 : i0 + (j + 1) * u ≤ i ∧ i < i1
    · rw [if_pos c1, if_pos ⟨by omega, c1.2⟩]
      simp only [fill]
      rw [if_neg (by omega)]
    · rw [if_neg c1]
      simp only [fill]
      by_cases c2 : i0 + j * u ≤ i ∧ i < i0 + (j + 1) * u
      · rw [if_pos c2, if_pos ⟨c2.1, by omega⟩]
        have : (i - i0) / u = j := by
          apply Nat.div_eq_of_lt_le
          · omega
          · rw [Nat.succ_mul]; omega
        unfold cuts
        rw [this]
      · rw [if_neg c2, if_neg (by omega)]

/-- What the loops over blocks `m0 ≤ m < m1` of `w` domains, each sorted along `f` and divided into parts of `u` domains, leave. -/
structure Post (f : V3 → ℝ) (lo hi : ℝ) (put : Box → ℝ × ℝ → Box) (n w u : ℕ) (s : List V3) (t : ℕ → Box) (s' : List V3) (t' : ℕ → Box)
    (m0 m1 : ℕ) : Prop where
  len : s'.length = s.length
  all : s'.Perm s
  same : ∀ j, j < istart s.length n (m0 * w) ∨ istart s.length n (m1 * w) ≤ j → s'[j]? = s[j]?
  perm : ∀ m, m0 ≤ m → m < m1 → (slice s' (istart s.length n (m * w)) (istart s.length n ((m + 1) * w))).Perm
    (slice s (istart s.length n (m * w)) (istart s.length n ((m + 1) * w)))
  sorted : ∀ m, m0 ≤ m → m < m1 → (slice s' (istart s.length n (m * w)) (istart s.length n ((m + 1) * w))).Pairwise fun p q => f p ≤ f q
  old : ∀ i, i < m0 * w ∨ m1 * w ≤ i → t' i = t i
  new : ∀ m, m0 ≤ m → m < m1 → ∀ i, m * w ≤ i → i < (m + 1) * w → t' i = put (t i) (cuts f lo hi s' n (m * w) ((m + 1) * w) u i)

theorem Post.refl (f : V3 → ℝ) (lo hi : ℝ) (put : Box → ℝ × ℝ → Box) (n w u : ℕ) (s : List V3) (t : ℕ → Box) (m : ℕ) :
    Post f lo hi put n w u s t s t m m :=
  ⟨rfl, List.Perm.refl _, fun _ _ => rfl, fun _ _ _ => by omega, fun _ _ _ => by omega, fun _ _ => rfl, fun _ _ _ => by omega⟩

theorem Post.trans {f : V3 → ℝ} {lo hi : ℝ} {put : Box → ℝ × ℝ → Box} {n w u : ℕ} {s s' s'' : List V3} {t t' t'' : ℕ → Box} {m0 m1 m2 : ℕ}
    (hn : 1 ≤ n) (ht : n ≤ s.length) (hu : 1 ≤ u) (huw : u ∣ w)
    (h01 : m0 ≤ m1) (h12 : m1 ≤ m2) (a : Post f lo hi put n w u s t s' t' m0 m1) (b : Post f lo hi put n w u s' t' s'' t'' m1 m2) :
    Post f lo hi put n w u s t s'' t'' m0 m2 := by
  have hl := a.len
  have hA : istart s.length n (m0 * w) ≤ istart s.length n (m1 * w) := istart_le _ _ hn ht (Nat.mul_le_mul_right w h01)
  have hB : istart s.length n (m1 * w) ≤ istart s.length n (m2 * w) := istart_le _ _ hn ht (Nat.mul_le_mul_right w h12)
  have hB' := Nat.mul_le_mul_right w h12
  have hA' := Nat.mul_le_mul_right w h01
  -- the blocks of the first part are not touched by the second
  have keep1 : ∀ m, m < m1 → ∀ j, istart s.length n (m * w) ≤ j → j < istart s.length n ((m + 1) * w) → s''[j]? = s'[j]? := by
    intro m hm j _ hj
    have := istart_le s.length n hn ht (Nat.mul_le_mul_right w (show m + 1 ≤ m1 by omega))
    exact b.same j (by rw [hl]; omega)
  have keep2 : ∀ m, m1 ≤ m → ∀ j, istart s.length n (m * w) ≤ j → j < istart s.length n ((m + 1) * w) → s'[j]? = s[j]? := by
    intro m hm j hj _
    have := istart_le s.length n hn ht (Nat.mul_le_mul_right w hm)
    exact a.same j (by omega)
  refine ⟨by rw [b.len, hl], b.all.trans a.all, ?_, ?_, ?_, ?_, ?_⟩
  · intro j hj
    rw [b.same j (by rw [hl]; omega), a.same j (by omega)]
  · intro m h1 h2
    rcases Nat.lt_or_ge m m1 with c | c
    · rw [slice_congr s' s'' _ _ b.len (keep1 m c)]
      exact a.perm m h1 c
    · have := b.perm m c h2
      rw [hl] at this
      rwa [slice_congr s s' _ _ hl (keep2 m c)] at this
  · intro m h1 h2
    rcases Nat.lt_or_ge m m1 with c | c
    · rw [slice_congr s' s'' _ _ b.len (keep1 m c)]
      exact a.sorted m h1 c
    · have := b.sorted m c h2
      rwa [hl] at this
  · intro i hi
    rw [b.old i (by omega), a.old i (by omega)]
  · intro m h1 h2 i h3 h4
    rcases Nat.lt_or_ge m m1 with c | c
    · have hm := Nat.mul_le_mul_right w (show m + 1 ≤ m1 by omega)
      rw [b.old i (by omega), a.new m h1 c i h3 h4]
      have hw : (m + 1) * w = m * w + w := by ring
      have hq : ((i - m * w) / u + 1) * u ≤ w := by
        obtain ⟨v, rfl⟩ := huw
        have : (i - m * (u * v)) / u < v := (Nat.div_lt_iff_lt_mul hu).mpr (by rw [Nat.mul_comm v u]; omega)
        calc _ ≤ v * u := Nat.mul_le_mul_right u this
          _ = u * v := Nat.mul_comm v u
      have hq' : (i - m * w) / u * u ≤ ((i - m * w) / u + 1) * u := Nat.mul_le_mul_right u (by omega)
      have hk : ∀ p, m * w ≤ p → p ≤ (m + 1) * w → cut f lo hi s'' n (m * w) ((m + 1) * w) p = cut f lo hi s' n (m * w) ((m + 1) * w) p := by
        intro p hp0 hp1
        refine cut_congr f lo hi s' s'' n hn (by omega) _ _ p hp0 hp1 b.len ?_
        rw [hl]
        exact keep1 m c
      simp only [cuts]
      rw [hk _ (by omega) (by omega), hk _ (by omega) (by omega)]
    · have hm := Nat.mul_le_mul_right w c
      rw [b.new m c h2 i h3 h4, a.old i (by omega)]

theorem sortRange_spec (srt : List V3 → List V3) (f : V3 → ℝ) (hsrt : ∀ l, (srt l).Perm l ∧ (srt l).Pairwise fun p q => f p ≤ f q) (s : List V3)
    (a b : ℕ) (hab : a ≤ b) (hb : b ≤ s.length) : ∃ s', sortRange srt s a b = some s' ∧ s'.length = s.length ∧ s'.Perm s ∧
      (∀ j, j < a ∨ b ≤ j → s'[j]? = s[j]?) ∧ (slice s' a b).Perm (slice s a b) ∧ (slice s' a b).Pairwise fun p q => f p ≤ f q := by
  refine ⟨s.take a ++ srt (slice s a b) ++ s.drop b, ?_, ?_, ?_, ?_, ?_⟩
  · unfold sortRange
    rw [if_pos ⟨by omega, by omega⟩]
    rfl
  · have := (hsrt (slice s a b)).1.length_eq
    rw [slice_length s a b hb] at this
    simp [this]
    omega
  · have h1 : s.take a ++ slice s a b ++ s.drop b = s := by
      have : slice s a b ++ s.drop b = s.drop a := by
        have e : s.drop b = (s.drop a).drop (b - a) := by rw [List.drop_drop]; congr 1; omega
        rw [e, slice, List.take_append_drop]
      rw [List.append_assoc, this, List.take_append_drop]
    conv_rhs => rw [← h1]
    exact ((hsrt _).1.append_left _).append_right _
  · have hl := (hsrt (slice s a b)).1.length_eq
    rw [slice_length s a b hb] at hl
    intro j hj
    rcases hj with hj | hj
    · rw [List.append_assoc, List.getElem?_append_left (by simp; omega), List.getElem?_take, if_pos hj]
    · rw [List.getElem?_append_right (by simp [hl]; omega), List.getElem?_drop]
      congr 1
      simp [hl]
      omega
  · have hl := (hsrt (slice s a b)).1.length_eq
    rw [slice_length s a b hb] at hl
    have : slice (s.take a ++ srt (slice s a b) ++ s.drop b) a b = srt (slice s a b) := by
      generalize srt (slice s a b) = l at hl
      unfold slice
      rw [List.append_assoc, List.drop_append_of_le_length (by simp; omega), List.drop_of_length_le (by simp), List.nil_append,
        List.take_append_of_le_length (by omega), List.take_of_length_le (by omega)]
    rw [this]
    exact hsrt _

/-- One block: sorted, then cut. -/
theorem block_post (srt : List V3 → List V3) (f : V3 → ℝ) (hsrt : ∀ l, (srt l).Perm l ∧ (srt l).Pairwise fun p q => f p ≤ f q) (lo hi : ℝ)
    (put : Box → ℝ × ℝ → Box) (s : List V3) (n : ℕ) (hn : 1 ≤ n) (ht : n ≤ s.length) (w u m k : ℕ) (hu : 1 ≤ u) (hw : k * u = w) (hm : (m + 1) * w ≤ n)
    (t : ℕ → Box) (loop : List V3 → ℕ → ℕ → (ℕ → Box) → Option (ℕ → Box)) (h0 : ∀ s j t, loop s 0 j t = some t)
    (hloop : ∀ s k j t, m * w + (j + (k + 1)) * u = (m + 1) * w → ∀ v, boundary f lo hi ((istart s.length n ((m + 1) * w) : ℤ) - istart s.length n (m * w)) s
      (istart s.length n (m * w)) ((istart s.length n (m * w + j * u) : ℤ) - istart s.length n (m * w))
      ((istart s.length n (m * w + (j + 1) * u) : ℤ) - 1 - istart s.length n (m * w)) = some v →
      loop s (k + 1) j t = loop s k (j + 1) (fill put t (m * w + j * u) (m * w + (j + 1) * u) v)) :
    ∃ s' t', sortRange srt s (istart s.length n (m * w)) (istart s.length n ((m + 1) * w)) = some s' ∧ loop s' k 0 t = some t' ∧
      Post f lo hi put n w u s t s' t' m (m + 1) := by
  have hA : istart s.length n (m * w) ≤ istart s.length n ((m + 1) * w) := istart_le _ _ hn ht (Nat.mul_le_mul_right w (by omega))
  have hB : istart s.length n ((m + 1) * w) ≤ s.length := by
    have := istart_le s.length n hn ht hm
    rwa [istart_n _ _ hn] at this
  obtain ⟨s', e1, hl, hall, hsame, hperm, hsort⟩ := sortRange_spec srt f hsrt s _ _ hA hB
  obtain ⟨t', e2, ht'⟩ := inner_spec f lo hi put s' n hn (by omega) (m * w) ((m + 1) * w) u hu hm (loop s') (h0 s') (hloop s') k 0 t (by
    rw [Nat.zero_add, hw]; ring)
  refine ⟨s', t', e1, e2, hl, hall, hsame, ?_, ?_, ?_, ?_⟩
  · intro m' h1 h2
    obtain rfl : m' = m := by omega
    exact hperm
  · intro m' h1 h2
    obtain rfl : m' = m := by omega
    exact hsort
  · intro i hi
    rw [ht' i, if_neg (by rw [Nat.zero_mul, Nat.add_zero]; omega)]
  · intro m' h1 h2 i h3 h4
    obtain rfl : m' = m := by omega
    rw [ht' i, if_pos ⟨by rw [Nat.zero_mul, Nat.add_zero]; omega, h4⟩]

theorem Grid.bound (g : Grid) {ix k : ℕ} (h : ix + k = g.nx) : (ix + k) * (g.ny * g.nz) = g.n := by
  rw [h, Grid.n]; ring

theorem loopX_post (root : Box) (g : Grid) (s : List V3) (t : ℕ → Box) (hx : 1 ≤ g.nx) (hy : 1 ≤ g.ny) (hz : 1 ≤ g.nz) (ht : g.n ≤ s.length)
    (hs : s.Pairwise fun p q => p.x ≤ q.x) :
    ∃ t', loopX root g s g.nx 0 t = some t' ∧ Post V3.x root.low.x root.high.x putX g.n g.n (g.ny * g.nz) s t s t' 0 1 := by
  have hn : 1 ≤ g.n := Nat.mul_pos (Nat.mul_pos hx hy) hz
  have hu : 1 ≤ g.ny * g.nz := Nat.mul_pos hy hz
  obtain ⟨t', e, h⟩ := inner_spec V3.x root.low.x root.high.x putX s g.n hn ht 0 g.n (g.ny * g.nz) hu le_rfl (loopX root g s)
    (fun j t => rfl) (by
      intro k j t hj v hv
      rw [loopX]
      simp only [istart_zero, istart_n _ _ hn, Nat.zero_add] at hv
      have e1 : j * g.ny * g.nz = j * (g.ny * g.nz) := by ring
      have e2 : (j + 1) * g.ny * g.nz = (j + 1) * (g.ny * g.nz) := by ring
      have hle : (j + 1) * (g.ny * g.nz) ≤ g.n := by
        rw [← hj, Nat.zero_add]; exact Nat.mul_le_mul_right _ (by omega)
      have hpos : 1 ≤ (j + 1) * (g.ny * g.nz) := Nat.mul_pos (by omega) hu
      simp only [e1, e2, Nat.zero_add]
      rw [iend_eq _ _ _ (by omega), show (j + 1) * (g.ny * g.nz) - 1 + 1 = (j + 1) * (g.ny * g.nz) by omega]
      simp only [Nat.cast_zero, sub_zero] at hv
      rw [hv]
      rfl) g.nx 0 t (by simp [Grid.n]; ring)
  refine ⟨t', e, rfl, List.Perm.refl _, fun _ _ => rfl, fun _ _ _ => List.Perm.refl _, ?_, ?_, ?_⟩
  · intro m h1 h2
    exact (hs.sublist (List.drop_sublist _ _)).sublist (List.take_sublist _ _)
  · intro i hi
    rw [h i, if_neg (by omega)]
  · intro m h1 h2 i h3 h4
    obtain rfl : m = 0 := by omega
    rw [h i, if_pos ⟨by omega, by omega⟩]
    simp

theorem loopY_post (srt : (V3 → ℝ) → List V3 → List V3) (hsrt : Sorts srt) (root : Box) (g : Grid) (hy : 1 ≤ g.ny) (hz : 1 ≤ g.nz) :
    ∀ k ix s t, ix + k = g.nx → 1 ≤ g.n → g.n ≤ s.length → ∃ s' t', loopY srt root g k ix s t = some (s', t') ∧
      Post V3.y root.low.y root.high.y putY g.n (g.ny * g.nz) g.nz s t s' t' ix g.nx := by
  intro k
  induction k with
  | zero =>
    intro ix s t h _ _
    obtain rfl : ix = g.nx := by omega
    exact ⟨s, t, rfl, Post.refl ..⟩
  | succ k ih =>
    intro ix s t h hn ht
    have hu : 1 ≤ g.ny * g.nz := Nat.mul_pos hy hz
    have hle : (ix + 1) * (g.ny * g.nz) ≤ g.n := by
      rw [← g.bound (show ix + (k + 1) = g.nx from h)]; exact Nat.mul_le_mul_right _ (by omega)
    have hpos : 1 ≤ (ix + 1) * (g.ny * g.nz) := Nat.mul_pos (by omega) hu
    have e1 : ix * g.ny * g.nz = ix * (g.ny * g.nz) := by ring
    have e2 : (ix + 1) * g.ny * g.nz = (ix + 1) * (g.ny * g.nz) := by ring
    have e3 : (ix + 1) * (g.ny * g.nz) - 1 + 1 = (ix + 1) * (g.ny * g.nz) := by omega
    obtain ⟨s1, t1, h1, h2, hp⟩ := block_post (srt V3.y) V3.y (hsrt V3.y) root.low.y root.high.y putY s g.n hn ht (g.ny * g.nz) g.nz ix g.ny hz rfl hle t
      (fun s => loopYy root g s ix) (fun s j t => rfl) (by
        intro s k j t hj v hv
        show loopYy root g s ix (k + 1) j t = _
        rw [loopYy]
        have hj1 : ix * (g.ny * g.nz) + (j + 1) * g.nz ≤ (ix + 1) * (g.ny * g.nz) := by
          rw [← hj]; exact Nat.add_le_add_left (Nat.mul_le_mul_right _ (by omega)) _
        have hj2 : 1 ≤ (j + 1) * g.nz := Nat.mul_pos (by omega) hz
        simp only [e1, e2]
        rw [iend_eq _ _ _ (by omega), e3, iend_eq _ _ _ (by omega),
          show ix * (g.ny * g.nz) + (j + 1) * g.nz - 1 + 1 = ix * (g.ny * g.nz) + (j + 1) * g.nz by omega,
          show (istart s.length g.n ((ix + 1) * (g.ny * g.nz)) : ℤ) - 1 - istart s.length g.n (ix * (g.ny * g.nz)) + 1 =
            istart s.length g.n ((ix + 1) * (g.ny * g.nz)) - istart s.length g.n (ix * (g.ny * g.nz)) by ring, hv]
        rfl)
    obtain ⟨s2, t2, h3, hp2⟩ := ih (ix + 1) s1 t1 (by omega) hn (by rw [hp.len]; exact ht)
    refine ⟨s2, t2, ?_, hp.trans hn ht hz (Dvd.intro_left _ rfl) (by omega) (by omega) hp2⟩
    rw [loopY]
    simp only [e1, e2]
    rw [iend_eq _ _ _ (by omega), e3, sub_add_cancel, h1]
    simp only
    rw [h2]
    exact h3

theorem loopZy_post (srt : (V3 → ℝ) → List V3 → List V3) (hsrt : Sorts srt) (root : Box) (g : Grid) (hz : 1 ≤ g.nz) (ix : ℕ) (hix : ix < g.nx) :
    ∀ k iy s t, iy + k = g.ny → 1 ≤ g.n → g.n ≤ s.length → ∃ s' t', loopZy srt root g ix k iy s t = some (s', t') ∧
      Post V3.z root.low.z root.high.z putZ g.n g.nz 1 s t s' t' (ix * g.ny + iy) ((ix + 1) * g.ny) := by
  intro k
  induction k with
  | zero =>
    intro iy s t h _ _
    obtain rfl : iy = g.ny := by omega
    refine ⟨s, t, rfl, ?_⟩
    rw [show (ix + 1) * g.ny = ix * g.ny + g.ny by ring]
    exact Post.refl ..
  | succ k ih =>
    intro iy s t h hn ht
    have hle : (ix * g.ny + iy + 1) * g.nz ≤ g.n := by
      rw [Grid.n]
      refine Nat.mul_le_mul_right _ ?_
      calc ix * g.ny + iy + 1 ≤ (ix + 1) * g.ny := by rw [Nat.succ_mul]; omega
        _ ≤ g.nx * g.ny := Nat.mul_le_mul_right _ hix
    have hpos : 1 ≤ (ix * g.ny + iy + 1) * g.nz := Nat.mul_pos (by omega) hz
    have e1 : ix * g.ny * g.nz + iy * g.nz = (ix * g.ny + iy) * g.nz := by ring
    have e2 : ix * g.ny * g.nz + (iy + 1) * g.nz = (ix * g.ny + iy + 1) * g.nz := by ring
    have e3 : (ix * g.ny + iy + 1) * g.nz - 1 + 1 = (ix * g.ny + iy + 1) * g.nz := by omega
    obtain ⟨s1, t1, h1, h2, hp⟩ := block_post (srt V3.z) V3.z (hsrt V3.z) root.low.z root.high.z putZ s g.n hn ht g.nz 1 (ix * g.ny + iy) g.nz le_rfl
      (Nat.mul_one _) hle t
      (fun s => loopZz root g s ((ix * g.ny + iy) * g.nz) ((ix * g.ny + iy + 1) * g.nz)) (fun s j t => rfl) (by
        intro s k j t hj v hv
        show loopZz root g s _ _ (k + 1) j t = _
        rw [loopZz]
        simp only [Nat.mul_one] at hj hv ⊢
        rw [iend_eq _ _ _ (by omega), e3, iend_eq _ _ _ (by omega),
          show (istart s.length g.n ((ix * g.ny + iy + 1) * g.nz) : ℤ) - 1 - istart s.length g.n ((ix * g.ny + iy) * g.nz) + 1 =
            istart s.length g.n ((ix * g.ny + iy + 1) * g.nz) - istart s.length g.n ((ix * g.ny + iy) * g.nz) by ring,
          show (ix * g.ny + iy) * g.nz + j + 1 = (ix * g.ny + iy) * g.nz + (j + 1) by ring, hv]
        simp only [setZ_eq]
        rfl)
    obtain ⟨s2, t2, h3, hp2⟩ := ih (iy + 1) s1 t1 (by omega) hn (by rw [hp.len]; exact ht)
    refine ⟨s2, t2, ?_, hp.trans hn ht le_rfl (one_dvd _) (by omega) (by rw [Nat.succ_mul]; omega) hp2⟩
    rw [loopZy]
    simp only [e1, e2]
    rw [iend_eq _ _ _ (by omega), e3, sub_add_cancel, h1]
    simp only
    rw [h2]
    exact h3

theorem loopZ_post (srt : (V3 → ℝ) → List V3 → List V3) (hsrt : Sorts srt) (root : Box) (g : Grid) (hz : 1 ≤ g.nz) :
    ∀ k ix s t, ix + k = g.nx → 1 ≤ g.n → g.n ≤ s.length → ∃ s' t', loopZ srt root g k ix s t = some (s', t') ∧
      Post V3.z root.low.z root.high.z putZ g.n g.nz 1 s t s' t' (ix * g.ny) (g.nx * g.ny) := by
  intro k
  induction k with
  | zero =>
    intro ix s t h _ _
    obtain rfl : ix = g.nx := by omega
    exact ⟨s, t, rfl, Post.refl ..⟩
  | succ k ih =>
    intro ix s t h hn ht
    obtain ⟨s1, t1, h1, hp⟩ := loopZy_post srt hsrt root g hz ix (by omega) g.ny 0 s t (by omega) hn ht
    obtain ⟨s2, t2, h3, hp2⟩ := ih (ix + 1) s1 t1 (by omega) hn (by rw [hp.len]; exact ht)
    refine ⟨s2, t2, ?_, hp.trans hn ht le_rfl (one_dvd _) (Nat.mul_le_mul_right _ (by omega)) (Nat.mul_le_mul_right _ (by omega)) hp2⟩
    rw [loopZ, h1]
    exact h3

/-! ### grids -/

theorem mono_of_step {X : ℕ → ℝ} {n : ℕ} (h : ∀ i < n, X i ≤ X (i + 1)) {i j : ℕ} (hij : i ≤ j) (hj : j ≤ n) : X i ≤ X j := by
  induction j with
  | zero => obtain rfl : i = 0 := by omega
            exact le_rfl
  | succ j ih =>
    rcases Nat.lt_or_ge i (j + 1) with c | c
    · exact (ih (by omega) (by omega)).trans (h j (by omega))
    · obtain rfl : i = j + 1 := by omega
      exact le_rfl

theorem find_cell {X : ℕ → ℝ} {n : ℕ} {x : ℝ} (h0 : X 0 ≤ x) (h1 : x < X n) : ∃ i < n, X i ≤ x ∧ x < X (i + 1) := by
  induction n with
  | zero => linarith
  | succ n ih =>
    by_cases c : x < X n
    · obtain ⟨i, hi, h⟩ := ih c
      exact ⟨i, by omega, h⟩
    · exact ⟨n, by omega, not_lt.mp c, h1⟩

theorem cell_unique {X : ℕ → ℝ} {n : ℕ} (h : ∀ i < n, X i ≤ X (i + 1)) {x : ℝ} {i j : ℕ} (hi : i < n) (hj : j < n) (a : X i ≤ x) (b : x < X (i + 1))
    (c : X j ≤ x) (d : x < X (j + 1)) : i = j := by
  rcases lt_trichotomy i j with k | k | k
  · have := mono_of_step h (show i + 1 ≤ j by omega) (by omega)
    linarith
  · exact k
  · have := mono_of_step h (show j + 1 ≤ i by omega) (by omega)
    linarith

theorem cell_interior {X : ℕ → ℝ} {n : ℕ} (h : ∀ i < n, X i ≤ X (i + 1)) {x : ℝ} {i j : ℕ} (hi : i < n) (hj : j < n) (a : X i < x) (b : x < X (i + 1))
    (c : X j ≤ x) (d : x ≤ X (j + 1)) : i = j := by
  rcases lt_trichotomy i j with k | k | k
  · have := mono_of_step h (show i + 1 ≤ j by omega) (by omega)
    linarith
  · exact k
  · have := mono_of_step h (show j + 1 ≤ i by omega) (by omega)
    linarith

/-- Numbers of domains have coordinates. -/
theorem Grid.coords (g : Grid) {i : ℕ} (h : i < g.n) : ∃ a < g.nx, ∃ b < g.ny, ∃ c < g.nz, i = (a * g.ny + b) * g.nz + c := by
  have hz : 0 < g.nz := by
    rcases Nat.eq_zero_or_pos g.nz with h0 | h0
    · simp [Grid.n, h0] at h
    · exact h0
  have hy : 0 < g.ny := by
    rcases Nat.eq_zero_or_pos g.ny with h0 | h0
    · simp [Grid.n, h0] at h
    · exact h0
  have h1 : i / g.nz < g.nx * g.ny := (Nat.div_lt_iff_lt_mul hz).mpr h
  refine ⟨i / g.nz / g.ny, (Nat.div_lt_iff_lt_mul hy).mpr h1, i / g.nz % g.ny, Nat.mod_lt _ hy, i % g.nz, Nat.mod_lt _ hz, ?_⟩
  rw [Nat.mul_comm (i / g.nz / g.ny), Nat.div_add_mod, Nat.mul_comm, Nat.div_add_mod]

theorem Grid.index_lt (g : Grid) {a b c : ℕ} (ha : a < g.nx) (hb : b < g.ny) (hc : c < g.nz) : (a * g.ny + b) * g.nz + c < g.n := by
  calc (a * g.ny + b) * g.nz + c < (a * g.ny + b + 1) * g.nz := by rw [Nat.succ_mul]; omega
    _ ≤ (g.nx * g.ny) * g.nz := by
      refine Nat.mul_le_mul_right _ ?_
      calc a * g.ny + b + 1 ≤ (a + 1) * g.ny := by rw [Nat.succ_mul]; omega
        _ ≤ g.nx * g.ny := Nat.mul_le_mul_right _ ha

theorem IsGrid.tiles {root : Box} {g : Grid} {dom : ℕ → Box} (h : IsGrid root g dom) : Tiles root g.n dom := by
  obtain ⟨X, Y, Z, ⟨x0, x1, hX⟩, hY, hZ, hd⟩ := h
  constructor
  · intro i hi
    obtain ⟨a, ha, b, hb, c, hc, rfl⟩ := g.coords hi
    obtain ⟨y0, y1, hY'⟩ := hY a ha
    obtain ⟨z0, z1, hZ'⟩ := hZ a ha b hb
    rw [hd a ha b hb c hc]
    refine ⟨⟨hX a ha, hY' b hb, hZ' c hc⟩, ?_⟩
    rintro p ⟨⟨p1, p2⟩, ⟨p3, p4⟩, p5, p6⟩
    simp only at p1 p2 p3 p4 p5 p6
    have q1 := mono_of_step hX (Nat.zero_le a) (by omega)
    have q2 := mono_of_step hX (show a + 1 ≤ g.nx from ha) le_rfl
    have q3 := mono_of_step hY' (Nat.zero_le b) (by omega)
    have q4 := mono_of_step hY' (show b + 1 ≤ g.ny from hb) le_rfl
    have q5 := mono_of_step hZ' (Nat.zero_le c) (by omega)
    have q6 := mono_of_step hZ' (show c + 1 ≤ g.nz from hc) le_rfl
    exact ⟨⟨by linarith, by linarith⟩, ⟨by linarith, by linarith⟩, by linarith, by linarith⟩
  · rintro p ⟨⟨p1, p2⟩, ⟨p3, p4⟩, p5, p6⟩
    obtain ⟨a, ha, a1, a2⟩ := find_cell (X := X) (n := g.nx) (x := p.x) (by linarith) (by linarith)
    obtain ⟨y0, y1, hY'⟩ := hY a ha
    obtain ⟨b, hb, b1, b2⟩ := find_cell (X := Y a) (n := g.ny) (x := p.y) (by linarith) (by linarith)
    obtain ⟨z0, z1, hZ'⟩ := hZ a ha b hb
    obtain ⟨c, hc, c1, c2⟩ := find_cell (X := Z a b) (n := g.nz) (x := p.z) (by linarith) (by linarith)
    refine ⟨(a * g.ny + b) * g.nz + c, ⟨g.index_lt ha hb hc, ?_⟩, ?_⟩
    · rw [hd a ha b hb c hc]
      exact ⟨⟨a1, a2⟩, ⟨b1, b2⟩, c1, c2⟩
    · rintro j ⟨hj, hm⟩
      obtain ⟨a', ha', b', hb', c', hc', rfl⟩ := g.coords hj
      rw [hd a' ha' b' hb' c' hc'] at hm
      obtain ⟨⟨m1, m2⟩, ⟨m3, m4⟩, m5, m6⟩ := hm
      obtain rfl := cell_unique hX ha' ha m1 m2 a1 a2
      obtain rfl := cell_unique hY' hb' hb m3 m4 b1 b2
      obtain rfl := cell_unique hZ' hc' hc m5 m6 c1 c2
      rfl

theorem IsGrid.interior {root : Box} {g : Grid} {dom : ℕ → Box} (h : IsGrid root g dom) {i j : ℕ} (hi : i < g.n) (hj : j < g.n) {p : V3}
    (hp : Inside p (dom i)) (hq : Box.Mem p (dom j)) : i = j := by
  obtain ⟨X, Y, Z, ⟨x0, x1, hX⟩, hY, hZ, hd⟩ := h
  obtain ⟨a, ha, b, hb, c, hc, rfl⟩ := g.coords hi
  obtain ⟨a', ha', b', hb', c', hc', rfl⟩ := g.coords hj
  rw [hd a ha b hb c hc] at hp
  rw [hd a' ha' b' hb' c' hc'] at hq
  obtain ⟨⟨p1, p2⟩, ⟨p3, p4⟩, p5, p6⟩ := hp
  obtain ⟨⟨q1, q2⟩, ⟨q3, q4⟩, q5, q6⟩ := hq
  obtain rfl := cell_interior hX ha ha' p1 p2 q1 q2
  obtain rfl := cell_interior (hY a ha).2.2 hb hb' p3 p4 q3 q4
  obtain rfl := cell_interior (hZ a ha b hb).2.2 hc hc' p5 p6 q5 q6
  rfl

theorem mix_mono {c a b a' b' : ℝ} (h0 : 0 ≤ c) (h1 : c ≤ 1) (h : a ≤ b) (h' : a' ≤ b') : c * a + (1 - c) * a' ≤ c * b + (1 - c) * b' :=
  add_le_add (mul_le_mul_of_nonneg_left h h0) (mul_le_mul_of_nonneg_left h' (by linarith))

theorem IsGrid.mix {root : Box} {g : Grid} {dom dom' : ℕ → Box} (h : IsGrid root g dom) (h' : IsGrid root g dom') (c : ℝ) (h0 : 0 ≤ c) (h1 : c ≤ 1) :
    IsGrid root g fun i => ⟨mixV c (dom i).low (dom' i).low, mixV c (dom i).high (dom' i).high⟩ := by
  obtain ⟨X, Y, Z, ⟨x0, x1, hX⟩, hY, hZ, hd⟩ := h
  obtain ⟨X', Y', Z', ⟨x0', x1', hX'⟩, hY', hZ', hd'⟩ := h'
  refine ⟨fun i => c * X i + (1 - c) * X' i, fun i j => c * Y i j + (1 - c) * Y' i j, fun i j k => c * Z i j k + (1 - c) * Z' i j k, ?_, ?_, ?_, ?_⟩
  · exact ⟨by simp only [x0, x0']; ring, by simp only [x1, x1']; ring, fun i hi => mix_mono h0 h1 (hX i hi) (hX' i hi)⟩
  · intro i hi
    obtain ⟨a, b, m⟩ := hY i hi
    obtain ⟨a', b', m'⟩ := hY' i hi
    exact ⟨by simp only [a, a']; ring, by simp only [b, b']; ring, fun j hj => mix_mono h0 h1 (m j hj) (m' j hj)⟩
  · intro i hi j hj
    obtain ⟨a, b, m⟩ := hZ i hi j hj
    obtain ⟨a', b', m'⟩ := hZ' i hi j hj
    exact ⟨by simp only [a, a']; ring, by simp only [b, b']; ring, fun k hk => mix_mono h0 h1 (m k hk) (m' k hk)⟩
  · intro i hi j hj k hk
    simp only [hd i hi j hj k hk, hd' i hi j hj k hk]
    ext <;> simp [mixV]

/-! ### the decomposition -/

theorem slice_mono (s : List V3) {a b a' b' : ℕ} (ha : a ≤ a') (hb : b' ≤ b) {p : V3} (h : p ∈ slice s a' b') : p ∈ slice s a b := by
  obtain ⟨j, h1, h2, h3⟩ := (mem_slice _ _ _ _).mp h
  exact (mem_slice _ _ _ _).mpr ⟨j, by omega, by omega, h3⟩

theorem slice_sub (s : List V3) (a b : ℕ) {p : V3} (h : p ∈ slice s a b) : p ∈ s := by
  obtain ⟨j, -, -, h3⟩ := (mem_slice _ _ _ _).mp h
  exact List.mem_of_getElem? h3

theorem newDomains_spec (srt : (V3 → ℝ) → List V3 → List V3) (hsrt : Sorts srt) (root : Box) (g : Grid) (samples : List V3) (t : ℕ → Box)
    (hx : 1 ≤ g.nx) (hy : 1 ≤ g.ny) (hz : 1 ≤ g.nz) (ht : g.n ≤ samples.length) (hr : ∀ p ∈ samples, Box.Mem p root) :
    ∃ s' t', newDomains srt root g samples t = some (s', t') ∧ s'.Perm samples ∧ IsGrid root g t' ∧
      ∀ i < g.n, ∀ p ∈ slice s' (istart s'.length g.n i) (istart s'.length g.n (i + 1)), Box.Mem p (t' i) := by
  have hn : 1 ≤ g.n := Nat.mul_pos (Nat.mul_pos hx hy) hz
  have hw : 1 ≤ g.ny * g.nz := Nat.mul_pos hy hz
  obtain ⟨p1, so1⟩ := hsrt V3.x samples
  have hl1 := p1.length_eq
  obtain ⟨t1, e1, P1⟩ := loopX_post root g (srt V3.x samples) t hx hy hz (by omega) so1
  obtain ⟨s2, t2, e2, P2⟩ := loopY_post srt hsrt root g hy hz g.nx 0 (srt V3.x samples) t1 (by omega) hn (by omega)
  obtain ⟨s3, t3, e3, P3⟩ := loopZ_post srt hsrt root g hz g.nx 0 s2 t2 (by omega) hn (by rw [P2.len]; omega)
  rw [Nat.zero_mul] at P3
  have hl2 := P2.len
  have hl3 := P3.len
  have hall2 : s2.Perm samples := P2.all.trans p1
  have hall3 : s3.Perm samples := P3.all.trans hall2
  have hnew : newDomains srt root g samples t = some (s3, t3) := by
    unfold newDomains
    simp only [e1, e2, e3]
  generalize srt V3.x samples = s1 at *
  have hr1 : ∀ p ∈ s1, Box.Mem p root := fun p hp => hr p (p1.mem_iff.mp hp)
  have hr2 : ∀ p ∈ s2, Box.Mem p root := fun p hp => hr p (hall2.mem_iff.mp hp)
  have hr3 : ∀ p ∈ s3, Box.Mem p root := fun p hp => hr p (hall3.mem_iff.mp hp)
  have cx := cut_spec V3.x root.low.x root.high.x s1 g.n hn (by omega) 0 g.n le_rfl
    (by have := P1.sorted 0 le_rfl (by omega); simpa using this) (fun p hp => (hr1 p (slice_sub _ _ _ hp)).1)
  have cy : ∀ i < g.nx, ∀ p q, i * (g.ny * g.nz) ≤ p → p < q → q ≤ (i + 1) * (g.ny * g.nz) → _ := fun i hi =>
    cut_spec V3.y root.low.y root.high.y s2 g.n hn (by omega) (i * (g.ny * g.nz)) ((i + 1) * (g.ny * g.nz))
      (by calc (i + 1) * (g.ny * g.nz) ≤ g.nx * (g.ny * g.nz) := Nat.mul_le_mul_right _ hi
            _ = g.n := by rw [Grid.n]; ring)
      (by have := P2.sorted i (by omega) hi; rw [← hl2] at this; exact this) (fun p hp => (hr2 p (slice_sub _ _ _ hp)).2.1)
  have cz : ∀ m < g.nx * g.ny, ∀ p q, m * g.nz ≤ p → p < q → q ≤ (m + 1) * g.nz → _ := fun m hm =>
    cut_spec V3.z root.low.z root.high.z s3 g.n hn (by omega) (m * g.nz) ((m + 1) * g.nz)
      (Nat.mul_le_mul_right _ hm)
      (by have := P3.sorted m (by omega) hm; rw [← hl3] at this; exact this) (fun p hp => (hr3 p (slice_sub _ _ _ hp)).2.2)
  have hdom : ∀ i < g.nx, ∀ j < g.ny, ∀ k < g.nz, t3 ((i * g.ny + j) * g.nz + k) =
      ⟨⟨cut V3.x root.low.x root.high.x s1 g.n 0 g.n (i * (g.ny * g.nz)),
        cut V3.y root.low.y root.high.y s2 g.n (i * (g.ny * g.nz)) ((i + 1) * (g.ny * g.nz)) (i * (g.ny * g.nz) + j * g.nz),
        cut V3.z root.low.z root.high.z s3 g.n ((i * g.ny + j) * g.nz) ((i * g.ny + j + 1) * g.nz) ((i * g.ny + j) * g.nz + k)⟩,
       ⟨cut V3.x root.low.x root.high.x s1 g.n 0 g.n ((i + 1) * (g.ny * g.nz)),
        cut V3.y root.low.y root.high.y s2 g.n (i * (g.ny * g.nz)) ((i + 1) * (g.ny * g.nz)) (i * (g.ny * g.nz) + (j + 1) * g.nz),
        cut V3.z root.low.z root.high.z s3 g.n ((i * g.ny + j) * g.nz) ((i * g.ny + j + 1) * g.nz) ((i * g.ny + j) * g.nz + (k + 1))⟩⟩ := by
    intro i hi j hj k hk
    have hm : i * g.ny + j < g.nx * g.ny := by
      calc i * g.ny + j < (i + 1) * g.ny := by rw [Nat.succ_mul]; omega
        _ ≤ _ := Nat.mul_le_mul_right _ hi
    have hI := g.index_lt hi hj hk
    have b1 : (i * g.ny + j) * g.nz + k < (i * g.ny + j + 1) * g.nz := by rw [Nat.succ_mul]; omega
    have e : (i * g.ny + j) * g.nz + k = i * (g.ny * g.nz) + (j * g.nz + k) := by ring
    have b2 : j * g.nz + k < g.ny * g.nz := by
      calc j * g.nz + k < (j + 1) * g.nz := by rw [Nat.succ_mul]; omega
        _ ≤ _ := Nat.mul_le_mul_right _ hj
    have b3 : (i + 1) * (g.ny * g.nz) = i * (g.ny * g.nz) + g.ny * g.nz := by ring
    rw [P3.new (i * g.ny + j) (by omega) hm _ (by omega) b1, P2.new i (by omega) hi _ (by omega) (by omega),
      P1.new 0 le_rfl (by omega) _ (by omega) (by omega)]
    have d1 : ((i * g.ny + j) * g.nz + k - 0) / (g.ny * g.nz) = i := by
      rw [Nat.sub_zero, e]
      refine Nat.div_eq_of_lt_le (by omega) (by rw [Nat.succ_mul]; omega)
    have d2 : ((i * g.ny + j) * g.nz + k - i * (g.ny * g.nz)) / g.nz = j := by
      rw [e, Nat.add_sub_cancel_left]
      refine Nat.div_eq_of_lt_le (by omega) (by rw [Nat.succ_mul]; omega)
    have d3 : ((i * g.ny + j) * g.nz + k - (i * g.ny + j) * g.nz) / 1 = k := by
      rw [Nat.add_sub_cancel_left, Nat.div_one]
    simp only [putX, putY, putZ, cuts, Nat.zero_mul, Nat.zero_add, Nat.one_mul, d1, d2, d3, Nat.mul_one]
  refine ⟨s3, t3, hnew, hall3, ?_, ?_⟩
  · refine ⟨fun i => _, fun i j => _, fun i j k => _, ?_, ?_, ?_, hdom⟩
    · refine ⟨by simp [cut], ?_, ?_⟩
      · simp only [cut]
        rw [if_neg (Nat.ne_of_gt (Nat.mul_pos hx hw)), if_pos (by rw [Grid.n]; ring)]
      · intro i hi
        refine (cx _ _ (Nat.zero_le _) ?_ ?_).1
        · rw [Nat.succ_mul]; omega
        · calc (i + 1) * (g.ny * g.nz) ≤ g.nx * (g.ny * g.nz) := Nat.mul_le_mul_right _ hi
            _ = g.n := by rw [Grid.n]; ring
    · intro i hi
      refine ⟨by simp [cut], ?_, ?_⟩
      · simp only [cut]
        rw [if_neg (by omega), if_pos (by ring)]
      · intro j hj
        refine (cy i hi _ _ (by omega) ?_ ?_).1
        · rw [Nat.succ_mul]; omega
        · rw [Nat.succ_mul i]
          exact Nat.add_le_add_left (Nat.mul_le_mul_right _ hj) _
    · intro i hi j hj
      have hm : i * g.ny + j < g.nx * g.ny := by
        calc i * g.ny + j < (i + 1) * g.ny := by rw [Nat.succ_mul]; omega
          _ ≤ _ := Nat.mul_le_mul_right _ hi
      refine ⟨by simp [cut], ?_, ?_⟩
      · simp only [cut]
        rw [if_neg (by omega), if_pos (by ring)]
      · intro k hk
        exact (cz _ hm _ _ (by omega) (by omega) (by rw [Nat.succ_mul (i * g.ny + j)]; omega)).1
  · intro I hI p hp
    obtain ⟨i, hi, j, hj, k, hk, rfl⟩ := g.coords hI
    have hm : i * g.ny + j < g.nx * g.ny := by
      calc i * g.ny + j < (i + 1) * g.ny := by rw [Nat.succ_mul]; omega
        _ ≤ _ := Nat.mul_le_mul_right _ hi
    have b1 : (i * g.ny + j) * g.nz + (k + 1) ≤ (i * g.ny + j + 1) * g.nz := by rw [Nat.succ_mul]; omega
    have e : (i * g.ny + j) * g.nz = i * (g.ny * g.nz) + j * g.nz := by ring
    have e' : (i * g.ny + j + 1) * g.nz = i * (g.ny * g.nz) + (j + 1) * g.nz := by ring
    have b2 : i * (g.ny * g.nz) + (j + 1) * g.nz ≤ (i + 1) * (g.ny * g.nz) := by
      rw [Nat.succ_mul i]
      exact Nat.add_le_add_left (Nat.mul_le_mul_right _ hj) _
    have b3 : (i + 1) * (g.ny * g.nz) ≤ g.n := by
      calc (i + 1) * (g.ny * g.nz) ≤ g.nx * (g.ny * g.nz) := Nat.mul_le_mul_right _ hi
        _ = g.n := by rw [Grid.n]; ring
    have b4 : j * g.nz < (j + 1) * g.nz := by rw [Nat.succ_mul]; omega
    have b5 : i * (g.ny * g.nz) < (i + 1) * (g.ny * g.nz) := by rw [Nat.succ_mul]; omega
    rw [hdom i hi j hj k hk]
    -- the sample is in the slice of the column after the sort along `y`, and in that of the slab after the sort along `x`
    have m3 : p ∈ slice s3 (istart s2.length g.n ((i * g.ny + j) * g.nz)) (istart s2.length g.n ((i * g.ny + j + 1) * g.nz)) := by
      rw [hl3] at hp
      exact slice_mono s3 (istart_le _ _ hn (by omega) (by omega)) (istart_le _ _ hn (by omega) b1) hp
    have m2 : p ∈ slice s2 (istart s2.length g.n ((i * g.ny + j) * g.nz)) (istart s2.length g.n ((i * g.ny + j + 1) * g.nz)) :=
      (P3.perm _ (by omega) hm).mem_iff.mp m3
    have m2' : p ∈ slice s2 (istart s1.length g.n (i * (g.ny * g.nz))) (istart s1.length g.n ((i + 1) * (g.ny * g.nz))) := by
      rw [hl2] at m2
      exact slice_mono s2 (istart_le _ _ hn (by omega) (by omega)) (istart_le _ _ hn (by omega) (by omega)) m2
    have m1 : p ∈ slice s1 (istart s1.length g.n (i * (g.ny * g.nz))) (istart s1.length g.n ((i + 1) * (g.ny * g.nz))) :=
      (P2.perm _ (by omega) hi).mem_iff.mp m2'
    have q1 := (cx _ _ (Nat.zero_le _) b5 b3).2 p m1
    have q2 := (cy i hi (i * (g.ny * g.nz) + j * g.nz) (i * (g.ny * g.nz) + (j + 1) * g.nz) (by omega) (by omega) b2).2 p (by rw [← e, ← e']; exact m2)
    have q3 := (cz _ hm _ _ (by omega) (by omega) b1).2 p hp
    exact ⟨q1, q2, q3⟩

end Verif.Domain
