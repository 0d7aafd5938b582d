import Verif.Spec.Radix
import Mathlib.Data.List.Basic
import Mathlib.Data.List.FinRange
import Mathlib.Data.Fintype.Card
import Mathlib.Data.Fintype.EquivFin
import Mathlib.Data.List.OfFn
import Mathlib.Tactic.Ring
import Mathlib.Data.Nat.Bitwise
/-! Lemmas about the radix sort. -/
namespace Verif.Radix

theorem countP_split {α : Type} (p q r : α → Bool) :
    ∀ l : List α, (∀ x ∈ l, (p x = true ↔ q x = true ∨ r x = true) ∧ ¬ (q x = true ∧ r x = true)) →
      l.countP p = l.countP q + l.countP r
  | [], _ => rfl
  | x :: l, h => by
    have ih := countP_split p q r l (fun y hy => h y (List.mem_cons_of_mem _ hy))
    obtain ⟨h1, h2⟩ := h x List.mem_cons_self
    simp only [List.countP_cons, ih]
    cases hp : p x <;> cases hq : q x <;> cases hr : r x <;> simp_all <;> omega

theorem countP_congr' {α : Type} (p q : α → Bool) (l : List α) (h : ∀ x ∈ l, (p x = true ↔ q x = true)) :
    l.countP p = l.countP q := by
  apply List.countP_congr
  intro x hx
  simpa using h x hx

/-- The counters after the counting loop. -/
theorem countLoop_eq (own dig : ℕ → ℕ) : ∀ (order : List ℕ) (bs : Table) (th b : ℕ),
    countLoop own dig bs order th b =
      bs th b + order.countP (fun i => decide (own i = th ∧ dig i = b))
  | [], bs, th, b => by simp [countLoop]
  | i :: is, bs, th, b => by
    have ih := countLoop_eq own dig is (bs.inc (own i) (dig i)) th b
    simp only [countLoop] at ih
    simp only [countLoop, List.foldl_cons, List.countP_cons]
    rw [ih]
    by_cases h : own i = th ∧ dig i = b
    · obtain ⟨rfl, rfl⟩ := h
      simp [Table.inc]; omega
    · have h' : ¬ (th = own i ∧ b = dig i) := by rintro ⟨rfl, rfl⟩; exact h ⟨rfl, rfl⟩
      simp [Table.inc, h, h']

/-- The prefix sums count the iterations of smaller buckets, and those of the same bucket and smaller threads. -/
theorem prefixSum_eq (n nt : ℕ) (own dig : ℕ → ℕ) (bs : Table) (hnt : 0 < nt) (hown : ∀ i < n, own i < nt)
    (hbs : ∀ th b, th < nt → bs th b = (List.range n).countP (fun i => decide (own i = th ∧ dig i = b))) :
    ∀ b th, th < nt → prefixSum nt bs b th =
      (List.range n).countP (fun i => decide (dig i < b ∨ dig i = b ∧ own i < th)) := by
  intro b
  induction b with
  | zero =>
    intro th
    induction th with
    | zero => intro _; rw [prefixSum]; symm; rw [List.countP_eq_zero]; simp
    | succ th ih =>
      intro h
      rw [prefixSum, ih (by omega), hbs th 0 (by omega)]
      symm
      apply countP_split
      intro x _
      simp only [decide_eq_true_eq]
      omega
  | succ b ihb =>
    intro th
    induction th with
    | zero =>
      intro _
      rw [prefixSum, ihb (nt - 1) (by omega), hbs (nt - 1) b (by omega)]
      symm
      apply countP_split
      intro x hx
      have := hown x (List.mem_range.mp hx)
      simp only [decide_eq_true_eq]
      omega
    | succ th ih =>
      intro h
      rw [prefixSum, ih (by omega), hbs th (b + 1) (by omega)]
      symm
      apply countP_split
      intro x _
      simp only [decide_eq_true_eq]
      omega

/-- The slot of element `i`: behind all elements of smaller digit and all earlier elements of the same digit. -/
def slot (n : ℕ) (dig : ℕ → ℕ) (i : ℕ) : ℕ :=
  (List.range n).countP (fun k => decide (dig k < dig i ∨ dig k = dig i ∧ k < i))

theorem countP_lt_of {α : Type} (p q : α → Bool) (l : List α) (h : ∀ x ∈ l, p x = true → q x = true) (y : α)
    (hy : y ∈ l) (hp : p y = false) (hq : q y = true) : l.countP p < l.countP q := by
  induction l with
  | nil => simp at hy
  | cons x l ih =>
    simp only [List.countP_cons]
    have hle : l.countP p ≤ l.countP q :=
      List.countP_mono_left (fun z hz hpz => h z (List.mem_cons_of_mem _ hz) hpz)
    rcases List.mem_cons.mp hy with rfl | hy
    · simp [hp, hq]; omega
    · have := ih (fun z hz => h z (List.mem_cons_of_mem _ hz)) hy
      have hx := h x List.mem_cons_self
      cases hpx : p x <;> cases hqx : q x <;> simp_all <;> omega

theorem slot_lt (n : ℕ) (dig : ℕ → ℕ) (i : ℕ) (hi : i < n) : slot n dig i < n := by
  have h := countP_lt_of (fun k => decide (dig k < dig i ∨ dig k = dig i ∧ k < i)) (fun _ => true) (List.range n)
    (fun _ _ _ => rfl) i (List.mem_range.mpr hi) (by simp) rfl
  simpa [slot] using h

/-- Slots are ordered by digit, then by position. -/
theorem slot_mono (n : ℕ) (dig : ℕ → ℕ) (i j : ℕ) (hi : i < n)
    (h : dig i < dig j ∨ dig i = dig j ∧ i < j) : slot n dig i < slot n dig j := by
  apply countP_lt_of _ _ _ _ i (List.mem_range.mpr hi)
  · simp
  · simpa using h
  · intro x _ hx
    simp only [decide_eq_true_eq] at hx ⊢
    omega

theorem slot_inj (n : ℕ) (dig : ℕ → ℕ) (i j : ℕ) (hi : i < n) (hj : j < n) (h : slot n dig i = slot n dig j) :
    i = j := by
  by_contra hne
  rcases Nat.lt_trichotomy (dig i) (dig j) with hd | hd | hd
  · have := slot_mono n dig i j hi (Or.inl hd); omega
  · rcases Nat.lt_or_ge i j with hl | hl
    · have := slot_mono n dig i j hi (Or.inr ⟨hd, hl⟩); omega
    · have := slot_mono n dig j i hj (Or.inr ⟨hd.symm, by omega⟩); omega
  · have := slot_mono n dig j i hj (Or.inl hd); omega

/-- The second loop: if every counter starts at the right place and every thread runs its iterations in increasing
order, element `i` ends in its slot. -/
theorem scatter_eq {α : Type} (n : ℕ) (own dig : ℕ → ℕ) (val : List α) (hlen : val.length = n) (P0 : Table)
    (hP0 : ∀ i < n, P0 (own i) (dig i) + (List.range n).countP (fun k => decide (own k = own i ∧ dig k = dig i ∧ k < i))
      = slot n dig i) :
    ∀ (todo done : List ℕ) (P : Table) (buf : List α), (done ++ todo).Perm (List.range n) →
      (done ++ todo).Pairwise (fun i j => own i = own j → i < j) →
      buf.length = n →
      (∀ th b, P th b = P0 th b + done.countP (fun k => decide (own k = th ∧ dig k = b))) →
      (∀ i ∈ done, buf[slot n dig i]? = val[i]?) →
      ∃ out, scatter own dig val todo P buf = some out ∧ out.length = n ∧ ∀ i < n, out[slot n dig i]? = val[i]?
  | [], done, P, buf, hperm, _, hb, _, hd => by
    refine ⟨buf, rfl, hb, fun i hi => hd i ?_⟩
    have := hperm.mem_iff (a := i)
    simpa using this.mpr (List.mem_range.mpr hi)
  | i :: is, done, P, buf, hperm, hpw, hb, hP, hd => by
    have hi : i < n := by
      have := hperm.mem_iff (a := i)
      exact List.mem_range.mp (this.mp (by simp))
    have hcount : P (own i) (dig i) = slot n dig i := by
      rw [hP, ← hP0 i hi]
      congr 1
      have hsplit : (List.range n).countP (fun k => decide (own k = own i ∧ dig k = dig i ∧ k < i)) =
          (done ++ i :: is).countP (fun k => decide (own k = own i ∧ dig k = dig i ∧ k < i)) :=
        (hperm.countP_eq _).symm
      rw [hsplit, List.countP_append, List.countP_cons]
      have h1 : is.countP (fun k => decide (own k = own i ∧ dig k = dig i ∧ k < i)) = 0 := by
        rw [List.countP_eq_zero]
        intro k hk
        simp only [decide_eq_true_eq]
        rintro ⟨h1, _, h3⟩
        have := List.pairwise_append.mp hpw
        have h4 := (List.pairwise_cons.mp this.2.1).1 k hk h1.symm
        omega
      rw [h1]
      simp only [lt_self_iff_false, and_false, decide_false, Bool.false_eq_true, if_false, Nat.add_zero]
      apply countP_congr'
      intro k hk
      simp only [decide_eq_true_eq]
      constructor
      · rintro ⟨h1, h2⟩
        have := (List.pairwise_append.mp hpw).2.2 k hk i List.mem_cons_self h1
        exact ⟨h1, h2, this⟩
      · rintro ⟨h1, h2, _⟩; exact ⟨h1, h2⟩
    have hv : val[i]? = some (val[i]'(by omega)) := List.getElem?_eq_getElem (by omega)
    have hs : slot n dig i < buf.length := by rw [hb]; exact slot_lt n dig i hi
    simp only [scatter, hv, hcount, if_pos hs]
    apply scatter_eq n own dig val hlen P0 hP0 is (done ++ [i])
    · simpa using hperm
    · simpa using hpw
    · simpa using hb
    · intro th b
      rw [List.countP_append, Table.inc, hP]
      by_cases h : th = own i ∧ b = dig i
      · obtain ⟨rfl, rfl⟩ := h
        simp; omega
      · have h' : ¬ (own i = th ∧ dig i = b) := by rintro ⟨rfl, rfl⟩; exact h ⟨rfl, rfl⟩
        simp [h, h']
    · intro k hk
      rcases List.mem_append.mp hk with hk | hk
      · have hkn : k < n := by
          have := hperm.mem_iff (a := k)
          exact List.mem_range.mp (this.mp (by simp [hk]))
        have hne : slot n dig i ≠ slot n dig k := by
          intro he
          have := slot_inj n dig i k hi hkn he
          subst this
          have hnd : (done ++ i :: is).Nodup := hperm.nodup_iff.mpr List.nodup_range
          have := (List.nodup_append.mp hnd).2.2
          exact this i hk i List.mem_cons_self rfl
        rw [List.getElem?_set_ne hne]
        exact hd k hk
      · have : k = i := by simpa using hk
        subst this
        rw [List.getElem?_set_self hs, hv]

/-- One pass under a static schedule. -/
theorem pass_eq {α : Type} (nt : ℕ) (s : Sched) (key : α → ℕ) (shift : ℕ) (val buf : List α)
    (hb : buf.length = val.length) (hnt : 0 < nt) (hs : Static val.length nt s) :
    ∃ out, pass nt s key shift val buf = some out ∧ out.length = val.length ∧
      ∀ i < val.length, out[slot val.length (fun i => match val[i]? with
        | some v => digit shift (key v) | none => 0) i]? = val[i]? := by
  unfold pass
  generalize hdig : (fun i : ℕ => match val[i]? with | some v => digit shift (key v) | none => 0) = dig
  set n := val.length with hn
  have hbs : ∀ th b, th < nt → countLoop s.own1 dig (clearRows s.team s.old) s.order1 th b =
      (List.range n).countP (fun i => decide (s.own1 i = th ∧ dig i = b)) := by
    intro th b hth
    rw [countLoop_eq, clearRows, if_pos (by rw [hs.team]; exact hth), hs.all1.countP_eq]
    omega
  have hps := prefixSum_eq n nt s.own1 dig _ hnt hs.lt hbs
  have hP0 : ∀ i < n, prefixSum nt (countLoop s.own1 dig (clearRows s.team s.old) s.order1) (dig i) (s.own2 i) +
      (List.range n).countP (fun k => decide (s.own2 k = s.own2 i ∧ dig k = dig i ∧ k < i)) = slot n dig i := by
    intro i hi
    have h1 := hs.same i hi
    rw [hps (dig i) (s.own2 i) (by rw [h1]; exact hs.lt i hi)]
    symm
    apply countP_split
    intro k hk
    have hk' := List.mem_range.mp hk
    have h2 := hs.same k hk'
    have h3 : i ≤ k → s.own1 i ≤ s.own1 k := fun h => hs.mono i k h hk'
    have h4 : k ≤ i → s.own1 k ≤ s.own1 i := fun h => hs.mono k i h hi
    simp only [decide_eq_true_eq]
    rw [h1, h2]
    by_cases hki : k < i
    · have := h4 (by omega); omega
    · have := h3 (by omega); omega
  exact scatter_eq n s.own2 dig val rfl (fun th b => prefixSum nt _ b th) hP0 s.order2 [] _ buf
    (by simpa using hs.all2) (by simpa using hs.inc) hb (fun th b => by simp) (by simp)

/-- Elements ordered by the low `s` bits of their keys, ties by original position. -/
def SortedLow {α : Type} (key : α → ℕ) (v0 : List α) (s : ℕ) (val : List α) : Prop :=
  ∃ idx : List ℕ, idx.Perm (List.range v0.length) ∧ val.map some = idx.map (fun i => v0[i]?) ∧
    idx.Pairwise (fun i j => ∀ a b, v0[i]? = some a → v0[j]? = some b →
      key a % 2 ^ s < key b % 2 ^ s ∨ key a % 2 ^ s = key b % 2 ^ s ∧ i < j)

theorem digit_eq (shift key : ℕ) : digit shift key = key / 2 ^ shift % 2 ^ nbit := by
  rw [digit, mask, Nat.and_two_pow_sub_one_eq_mod, Nat.shiftRight_eq_div_pow]

theorem mod_split (k s : ℕ) : k % 2 ^ (s + nbit) = k % 2 ^ s + 2 ^ s * digit s k := by
  rw [digit_eq, pow_add, Nat.mod_mul]

theorem mod_lt_of_digit {a b s : ℕ} (h : digit s a < digit s b) : a % 2 ^ (s + nbit) < b % 2 ^ (s + nbit) := by
  rw [mod_split, mod_split]
  have h1 : a % 2 ^ s < 2 ^ s := Nat.mod_lt _ (Nat.two_pow_pos s)
  have h2 : 2 ^ s * (digit s a + 1) ≤ 2 ^ s * digit s b := Nat.mul_le_mul_left _ h
  have h3 : 2 ^ s * (digit s a + 1) = 2 ^ s * digit s a + 2 ^ s := by ring
  omega

/-- A pass sorts by `NBIT` more bits. -/
theorem pass_sorted {α : Type} (key : α → ℕ) (v0 val out : List α) (s : ℕ) (h : SortedLow key v0 s val)
    (hl : out.length = val.length)
    (hout : ∀ i < val.length, out[slot val.length (fun i => match val[i]? with
        | some v => digit s (key v) | none => 0) i]? = val[i]?) :
    SortedLow key v0 (s + nbit) out := by
  obtain ⟨idx, hperm, hval, hpw⟩ := h
  set n := val.length with hn
  set dig : ℕ → ℕ := fun i => match val[i]? with | some v => digit s (key v) | none => 0 with hdig
  have hidxl : idx.length = n := by
    have := congrArg List.length hval
    simp only [List.length_map] at this
    omega
  -- the slot as a permutation of the positions
  let f : Fin n → Fin n := fun i => ⟨slot n dig i, slot_lt n dig i i.2⟩
  have hinj : Function.Injective f := by
    intro i j hij
    have : slot n dig i = slot n dig j := by simpa [f] using hij
    exact Fin.ext (slot_inj n dig i j i.2 j.2 this)
  have hbij : Function.Bijective f := Finite.injective_iff_bijective.mp hinj
  let σ : Fin n ≃ Fin n := Equiv.ofBijective f hbij
  have hσ : ∀ i, (σ i : ℕ) = slot n dig i := fun i => rfl
  let idx' : List ℕ := List.ofFn (fun p : Fin n => idx[(σ.symm p : ℕ)]'(by rw [hidxl]; exact (σ.symm p).2))
  have hidx : idx = List.ofFn (fun p : Fin n => idx[(p : ℕ)]'(by rw [hidxl]; exact p.2)) := by
    apply List.ext_getElem
    · simp [hidxl]
    · intro i h1 h2; simp
  have hget : ∀ (i : ℕ) (hi : i < n), val[i]? = v0[idx[i]'(by omega)]? := by
    intro i hi
    have := congrArg (fun l => l[i]?) hval
    simp only [List.getElem?_map] at this
    rw [List.getElem?_eq_getElem (by omega : i < idx.length), List.getElem?_eq_getElem (by omega : i < val.length)]
      at this
    simp only [Option.map_some, Option.some.injEq] at this
    rw [List.getElem?_eq_getElem (by omega : i < val.length), this]
  refine ⟨idx', ?_, ?_, ?_⟩
  · refine List.Perm.trans ?_ hperm
    conv_rhs => rw [hidx]
    exact Equiv.Perm.ofFn_comp_perm σ.symm (fun p : Fin n => idx[(p : ℕ)]'(by rw [hidxl]; exact p.2))
  · apply List.ext_getElem?
    intro p
    by_cases hp : p < n
    · have h1 : σ (σ.symm ⟨p, hp⟩) = ⟨p, hp⟩ := σ.apply_symm_apply _
      have h2 : slot n dig (σ.symm ⟨p, hp⟩) = p := by rw [← hσ, h1]
      have h3 := hout (σ.symm ⟨p, hp⟩) (σ.symm ⟨p, hp⟩).2
      rw [h2, hget _ (σ.symm ⟨p, hp⟩).2] at h3
      rw [List.getElem?_map, List.getElem?_map]
      rw [List.getElem?_eq_getElem (by simp [idx', hp] : p < idx'.length)]
      rw [List.getElem?_eq_getElem (by omega : p < out.length)] at h3 ⊢
      simp only [Option.map_some, Option.some.injEq]
      simp only [idx', List.getElem_ofFn]
      exact h3
    · rw [List.getElem?_eq_none (by simp; omega), List.getElem?_eq_none (by simp [idx']; omega)]
  · rw [List.pairwise_ofFn]
    intro p q hpq a b ha hb
    -- the elements `i`, `j` that went to the slots `p < q`
    set i := σ.symm p with hi
    set j := σ.symm q with hj
    have hp : slot n dig i = p := by rw [← hσ, hi, σ.apply_symm_apply]
    have hq : slot n dig j = q := by rw [← hσ, hj, σ.apply_symm_apply]
    have hai := hget i i.2
    have hbj := hget j j.2
    rw [ha] at hai
    rw [hb] at hbj
    have hdi : dig i = digit s (key a) := by simp [hdig, hai]
    have hdj : dig j = digit s (key b) := by simp [hdig, hbj]
    have hlex : dig i < dig j ∨ dig i = dig j ∧ (i : ℕ) < j := by
      by_contra hcon
      have hne : (i : ℕ) ≠ j := by
        intro he
        have : p = q := by apply Fin.ext; rw [← hp, ← hq, he]
        omega
      have : slot n dig j < slot n dig i := slot_mono n dig j i j.2 (by omega)
      rw [hp, hq] at this
      exact absurd hpq (by simpa using Nat.le_of_lt this)
    rcases hlex with hlt | ⟨heq, hlt⟩
    · left; rw [hdi, hdj] at hlt; exact mod_lt_of_digit hlt
    · rw [hdi, hdj] at heq
      have := List.pairwise_iff_getElem.mp hpw i j (by omega) (by omega) hlt a b ha hb
      rw [mod_split, mod_split, heq]
      omega

theorem Arrays.val_setBuf_swap {α : Type} (a : Arrays α) (l : List α) : (a.setBuf l).swap.val = l := by
  cases h : a.flip <;> simp [Arrays.setBuf, Arrays.swap, Arrays.val, h]

theorem Arrays.buf_setBuf {α : Type} (a : Arrays α) (l : List α) : (a.setBuf l).buf = l := by
  cases h : a.flip <;> simp [Arrays.setBuf, Arrays.buf, h]

theorem Arrays.buf_setBuf_swap {α : Type} (a : Arrays α) (l : List α) : (a.setBuf l).swap.buf = a.val := by
  cases h : a.flip <;> simp [Arrays.setBuf, Arrays.swap, Arrays.val, Arrays.buf, h]

theorem Arrays.flip_setBuf {α : Type} (a : Arrays α) (l : List α) : (a.setBuf l).flip = a.flip := by
  cases h : a.flip <;> simp [Arrays.setBuf, h]

/-- All passes. -/
theorem loops_sorted {α : Type} (nt : ℕ) (hnt : 0 < nt) (s : ℕ → Sched) (key : α → ℕ) (v0 : List α)
    (hs : ∀ l, Static v0.length nt (s l)) :
    ∀ (k loop : ℕ) (a : Arrays α), 0 < k → SortedLow key v0 (loop * nbit) a.val → a.val.length = v0.length →
      a.buf.length = v0.length →
      ∃ r, loops nt s key k loop a = some r ∧ SortedLow key v0 ((loop + k) * nbit) r.buf ∧
        r.flip = (if k % 2 = 0 then !a.flip else a.flip)
  | 0, _, _, h, _, _, _ => absurd h (by omega)
  | k + 1, loop, a, _, hv, hl, hbl => by
    obtain ⟨out, ho, hol, hout⟩ := pass_eq nt (s loop) key (loop * nbit) a.val a.buf (by omega) hnt
      (by rw [hl]; exact hs loop)
    have hsort := pass_sorted key v0 a.val out (loop * nbit) hv hol hout
    have e : loop * nbit + nbit = (loop + 1) * nbit := by ring
    rw [e] at hsort
    simp only [loops, ho]
    by_cases hk : k = 0
    · subst hk
      refine ⟨_, if_pos rfl, ?_, ?_⟩
      · rw [Arrays.buf_setBuf]; exact hsort
      · simp [Arrays.flip_setBuf]
    · rw [if_neg hk]
      obtain ⟨r, hr, h1, h2⟩ := loops_sorted nt hnt s key v0 hs k (loop + 1) (a.setBuf out).swap (by omega)
        (by rw [Arrays.val_setBuf_swap]; exact hsort) (by rw [Arrays.val_setBuf_swap]; omega)
        (by rw [Arrays.buf_setBuf_swap]; omega)
      refine ⟨r, hr, ?_, ?_⟩
      · have e2 : loop + 1 + k = loop + (k + 1) := by ring
        rw [e2] at h1; exact h1
      · rw [h2]
        have h3 : (a.setBuf out).swap.flip = !a.flip := by
          simp [Arrays.swap, Arrays.flip_setBuf]
        rw [h3]
        by_cases hp : k % 2 = 0
        · rw [if_pos hp, if_neg (by omega)]; simp
        · rw [if_neg hp, if_pos (by omega)]

theorem sortedLow_zero {α : Type} (key : α → ℕ) (v : List α) : SortedLow key v 0 v := by
  refine ⟨List.range v.length, List.Perm.refl _, ?_, ?_⟩
  · apply List.ext_getElem
    · simp
    · intro i h1 h2
      simp at h1
      simp [List.getElem?_eq_getElem h1]
  · rw [List.pairwise_iff_getElem]
    intro i j hi hj hij a b _ _
    right
    simp only [pow_zero, Nat.mod_one, List.getElem_range, true_and]
    exact hij

end Verif.Radix
