import Verif.Spec.MemPool
import Mathlib.Tactic.Ring
import Mathlib.Data.List.Basic
/-! Facts about the memory pool. -/
namespace Verif.MemPool

variable {β : Type}

/-! ### Blocks -/

/-- The bytes of `l` from `off` on replaced by `v`. -/
def splice (l : List (Option β)) (off : ℕ) (v : List (Option β)) : List (Option β) := l.take off ++ v ++ l.drop (off + v.length)

theorem splice_length (l v : List (Option β)) (off : ℕ) (h : off + v.length ≤ l.length) : (splice l off v).length = l.length := by
  simp only [splice, List.length_append, List.length_take, List.length_drop]; omega

theorem splice_get (l v : List (Option β)) (off i : ℕ) (h : off + v.length ≤ l.length) :
    (splice l off v)[i]? = if off ≤ i ∧ i < off + v.length then v[i - off]? else l[i]? := by
  simp only [splice, List.append_assoc, List.getElem?_append, List.length_take, List.getElem?_take, List.getElem?_drop]
  rw [Nat.min_eq_left (by omega)]
  by_cases h1 : i < off
  · rw [if_pos h1, if_pos h1, if_neg (by omega)]
  · rw [if_neg h1]
    by_cases h2 : i - off < v.length
    · rw [if_pos h2, if_pos (by omega)]
    · rw [if_neg h2, if_neg (by omega)]
      congr 1; omega

theorem slice_get (l : List (Option β)) (off n i : ℕ) : ((l.drop off).take n)[i]? = if i < n then l[off + i]? else none := by
  rw [List.getElem?_take, List.getElem?_drop]

theorem slice_splice_in (l v : List (Option β)) (off n : ℕ) (h : off + v.length ≤ l.length) (hn : n ≤ v.length) : ((splice l off v).drop off).take n = v.take n := by
  apply List.ext_getElem?
  intro i
  rw [slice_get, List.getElem?_take]
  by_cases hi : i < n
  · rw [if_pos hi, if_pos hi, splice_get _ _ _ _ h, if_pos (by omega)]
    congr 1; omega
  · rw [if_neg hi, if_neg hi]

theorem slice_splice_out (l v : List (Option β)) (off lo n : ℕ) (h : off + v.length ≤ l.length) (hd : lo + n ≤ off ∨ off + v.length ≤ lo) :
    ((splice l off v).drop lo).take n = (l.drop lo).take n := by
  apply List.ext_getElem?
  intro i
  rw [slice_get, slice_get]
  by_cases hi : i < n
  · rw [if_pos hi, if_pos hi, splice_get _ _ _ _ h, if_neg (by omega)]
  · rw [if_neg hi, if_neg hi]

theorem read_block (m : M β) (b off n : ℕ) (l : List (Option β)) (hb : m.heap b = some l) (h : off + n ≤ l.length) :
    read (some (b, off)) n m = .ok ((l.drop off).take n) := by
  unfold read
  by_cases hn : n = 0
  · subst hn; simp
  · rw [if_neg hn]; simp only [hb]; rw [if_pos h]

theorem read_zero (m : M β) (a : Option Addr) : read a 0 m = .ok [] := by simp [read]

theorem write_block (m : M β) (b off : ℕ) (v l : List (Option β)) (hb : m.heap b = some l) (h : off + v.length ≤ l.length) :
    write (some (b, off)) v m = .ok { m with heap := Function.update m.heap b (some (splice l off v)) } := by
  unfold write
  by_cases hn : v.length = 0
  · rw [if_pos hn]
    have hv : v = [] := List.length_eq_zero_iff.mp hn
    subst hv
    have : splice l off ([] : List (Option β)) = l := by simp [splice]
    rw [this, ← hb, Function.update_eq_self]
  · rw [if_neg hn]; simp only [hb]; rw [if_pos h]; rfl

/-! ### Offsets of the segments -/

/-- `cap_cum` at segment `i`. -/
def off (f : ℕ → ℕ) : ℕ → ℕ
  | 0 => 0
  | i + 1 => off f i + f i

theorem off_congr (f g : ℕ → ℕ) (n : ℕ) (h : ∀ i, i < n → f i = g i) : off f n = off g n := by
  induction n with
  | zero => rfl
  | succ n ih => simp only [off]; rw [ih (fun i hi => h i (by omega)), h n (by omega)]

theorem off_mono (f : ℕ → ℕ) {i j : ℕ} (h : i ≤ j) : off f i ≤ off f j := by
  induction j with
  | zero => have : i = 0 := by omega
            subst this; exact le_rfl
  | succ j ih =>
    by_cases hij : i = j + 1
    · subst hij; exact le_rfl
    · have := ih (by omega); simp only [off]; omega

theorem off_lt (f : ℕ → ℕ) {i j : ℕ} (h : i < j) : off f i + f i ≤ off f j := by
  have := off_mono f (show i + 1 ≤ j from h)
  simpa only [off] using this

theorem off_update (f : ℕ → ℕ) (n a i : ℕ) (h : i ≤ n) : off (Function.update f n a) i = off f i :=
  off_congr _ _ _ fun j hj => Function.update_of_ne (by omega) _ _

theorem align_le (s : ℕ) : s ≤ align s := by unfold align; omega

theorem align_pos (s : ℕ) : 0 < align s := by unfold align; omega

/-! ### The invariant -/

/-- The array `o` has `n` bytes: segment or buffer `id`. -/
def Holds (m : M β) (o : ℕ) (id : ℤ) (n : ℕ) : Prop :=
  (∃ i : ℕ, id = i ∧ m.usedSeg i = true ∧ m.ptrSeg i = some o ∧ n ≤ m.capSeg i) ∨
    ∃ (k : ℕ) (e : Emerg), id = (limit + k : ℕ) ∧ m.emerg[k]? = some e ∧ e.used = true ∧ e.owner = o ∧ n ≤ e.cap

/-- The array `o` with the members `r` is in order. -/
def Good (m : M β) (o : ℕ) (r : Arr) : Prop :=
  1 ≤ r.width ∧ r.size ≤ r.capacity ∧ ((r.data = none ∧ r.id = -1 ∧ r.capacity = 0) ∨ Holds m o r.id (r.width * r.capacity))

/-- The invariant of the pool.  The array `x` may be out of order; its segments and buffers are among `S`. -/
structure Inv (x : Option ℕ) (S : ℤ → Prop) (m : M β) : Prop where
  bot : ∃ l, m.heap m.bottom = some l ∧ l.length = m.cap
  top : m.top = m.size
  size : m.size = off m.capSeg m.nseg
  cap : m.size ≤ m.cap
  lim : m.nseg ≤ limit
  pos : ∀ i, i < m.nseg → 0 < m.capSeg i
  zero : ∀ i, m.nseg ≤ i → m.capSeg i = 0 ∧ m.usedSeg i = false
  seg : ∀ i, m.usedSeg i = true → ∃ o r, m.ptrSeg i = some o ∧ m.arr o = some r ∧
    ((some o = x ∧ S i) ∨ (some o ≠ x ∧ r.id = i ∧ r.data = some (m.bottom, off m.capSeg i)))
  em : ∀ k e, m.emerg[k]? = some e → (∃ l, m.heap e.data = some l ∧ l.length = e.cap) ∧ e.data ≠ m.bottom ∧
    (e.used = true → ∃ r, m.arr e.owner = some r ∧
      ((some e.owner = x ∧ S (limit + k : ℕ)) ∨ (some e.owner ≠ x ∧ r.id = (limit + k : ℕ) ∧ r.data = some (e.data, 0))))
  emc : ∀ (k : ℕ) (e : Emerg), m.emerg[k]? = some e → 0 < e.cap
  emd : (m.emerg.map Emerg.data).Nodup
  fresh : ∀ b, m.fresh ≤ b → m.heap b = none
  arrs : ∀ o r, m.arr o = some r → some o ≠ x → Good m o r

theorem Inv.used_lt {x : Option ℕ} {S : ℤ → Prop} {m : M β} (h : Inv x S m) {i : ℕ} (hi : m.usedSeg i = true) : i < m.nseg := by
  by_contra hc
  have := (h.zero i (by omega)).2
  rw [this] at hi; exact absurd hi (by simp)

/-- Where an array that is in order has its memory. -/
theorem Inv.place {x : Option ℕ} {S : ℤ → Prop} {m : M β} (h : Inv x S m) {o : ℕ} {r : Arr} (ho : m.arr o = some r) (hx : some o ≠ x) :
    (r.data = none ∧ r.id = -1 ∧ r.capacity = 0) ∨
      ∃ b lo l, r.data = some (b, lo) ∧ m.heap b = some l ∧ lo + r.width * r.capacity ≤ l.length ∧
        ((∃ i : ℕ, r.id = i ∧ i < m.nseg ∧ m.usedSeg i = true ∧ m.ptrSeg i = some o ∧ b = m.bottom ∧ lo = off m.capSeg i ∧ r.width * r.capacity ≤ m.capSeg i) ∨
          ∃ (k : ℕ) (e : Emerg), r.id = (limit + k : ℕ) ∧ m.emerg[k]? = some e ∧ e.used = true ∧ e.owner = o ∧ b = e.data ∧ lo = 0 ∧ r.width * r.capacity ≤ e.cap) := by
  rcases (h.arrs o r ho hx).2.2 with h1 | ⟨i, hid, hu, hp, hn⟩ | ⟨k, e, hid, he, hu, how, hn⟩
  · exact .inl h1
  · right
    obtain ⟨o', r', hp', ha', h2⟩ := h.seg i hu
    obtain rfl : o = o' := by rw [hp] at hp'; exact Option.some.inj hp'
    obtain rfl : r = r' := by rw [ho] at ha'; exact Option.some.inj ha'
    rcases h2 with ⟨h2, -⟩ | ⟨-, -, h2⟩
    · exact absurd h2 hx
    obtain ⟨l, hl, hlen⟩ := h.bot
    have hlt := h.used_lt hu
    have h3 := off_lt m.capSeg hlt
    have h4 := h.size; have h5 := h.cap
    exact ⟨m.bottom, _, l, h2, hl, by omega, .inl ⟨i, hid, hlt, hu, hp, rfl, rfl, hn⟩⟩
  · right
    obtain ⟨⟨l, hl, hlen⟩, -, h2⟩ := h.em k e he
    obtain ⟨r', ha', h2⟩ := h2 hu
    rw [how] at ha' h2
    obtain rfl : r = r' := by rw [ho] at ha'; exact Option.some.inj ha'
    rcases h2 with ⟨h2, -⟩ | ⟨-, -, h2⟩
    · exact absurd h2 hx
    exact ⟨e.data, 0, l, h2, hl, by omega, .inr ⟨k, e, hid, he, hu, how, rfl, rfl, hn⟩⟩

/-- All arrays but `x` have kept their members and their elements; only their places may have changed. -/
def Keep (x : Option ℕ) (m m' : M β) : Prop :=
  ∀ p, some p ≠ x → (m.arr p = none → m'.arr p = none) ∧
    ∀ r, m.arr p = some r → ∃ d i, m'.arr p = some { r with data := d, id := i } ∧ read d (r.width * r.size) m' = read r.data (r.width * r.size) m ∧ (r.data = none → d = none)

theorem Keep.refl (x : Option ℕ) (m : M β) : Keep x m m := fun _ _ => ⟨id, fun r hr => ⟨r.data, r.id, hr, rfl, id⟩⟩

theorem Keep.trans {x : Option ℕ} {m m' m'' : M β} (h : Keep x m m') (h' : Keep x m' m'') : Keep x m m'' := by
  intro p hp
  refine ⟨fun hn => (h' p hp).1 ((h p hp).1 hn), fun r hr => ?_⟩
  obtain ⟨d, i, h1, h2, h3⟩ := (h p hp).2 r hr
  obtain ⟨d', i', h1', h2', h3'⟩ := (h' p hp).2 _ h1
  exact ⟨d', i', h1', h2'.trans h2, fun hd => h3' (h3 hd)⟩

/-- Only the heap and the members of arrays matter. -/
theorem Keep.of_eq {x : Option ℕ} {m m' n n' : M β} (h : Keep x m m') (h1 : n.arr = m.arr) (h2 : n.heap = m.heap) (h3 : n'.arr = m'.arr) (h4 : n'.heap = m'.heap) :
    Keep x n n' := by
  intro p hp
  have hr : ∀ a k, read a k n = read a k m := by intro a k; unfold read; rw [h2]
  have hr' : ∀ a k, read a k n' = read a k m' := by intro a k; unfold read; rw [h4]
  simp only [h1, h3, hr, hr']
  exact h p hp

theorem Keep.weaken {m m' : M β} (o : ℕ) (h : Keep none m m') : Keep (some o) m m' := fun p _ => h p (by simp)

end Verif.MemPool
