import Mathlib.Data.List.Nodup
import Verif.Lemmas.MemPoolAlloc
/-! The functions of `ReallocatableArray`. -/
namespace Verif.MemPool

variable {β : Type}

/-- Numbers of segments and buffers are not negative. -/
theorem Inv.nonneg {x : Option ℕ} {S : ℤ → Prop} {m : M β} (h : Inv x S m) : Inv x (fun s => S s ∧ 0 ≤ s) m :=
  { h with
    seg := fun i hi => by
      obtain ⟨o, r, h1, h2, h3⟩ := h.seg i hi
      exact ⟨o, r, h1, h2, h3.imp (fun h4 => ⟨h4.1, h4.2, by omega⟩) id⟩
    em := fun k e he => by
      obtain ⟨h1, h2, h3⟩ := h.em k e he
      refine ⟨h1, h2, fun hu => ?_⟩
      obtain ⟨r, h4, h5⟩ := h3 hu
      exact ⟨r, h4, h5.imp (fun h6 => ⟨h6.1, h6.2, by omega⟩) id⟩ }

theorem HoldsAt.nonneg {m : M β} {o : ℕ} {id : ℤ} {n : ℕ} {a : Addr} (h : HoldsAt m o id n a) : 0 ≤ id := by
  rcases h with ⟨i, h1, -⟩ | ⟨k, e, h1, -⟩ <;> omega

theorem HoldsAt.le {m : M β} {o : ℕ} {id : ℤ} {n k : ℕ} {a : Addr} (h : HoldsAt m o id n a) (hk : k ≤ n) : HoldsAt m o id k a := by
  rcases h with ⟨i, h1, h2, h3, h4, h5⟩ | ⟨j, e, h1, h2, h3, h4, h5, h6⟩
  · exact .inl ⟨i, h1, h2, h3, by omega, h5⟩
  · exact .inr ⟨j, e, h1, h2, h3, h4, by omega, h6⟩

/-- Where an array that is in order has its memory, as `HoldsAt`. -/
theorem Inv.holdsAt {x : Option ℕ} {S : ℤ → Prop} {m : M β} (h : Inv x S m) {o : ℕ} {r : Arr} (ho : m.arr o = some r) (hx : some o ≠ x) :
    (r.data = none ∧ r.id = -1 ∧ r.capacity = 0) ∨ ∃ a, r.data = some a ∧ HoldsAt m o r.id (r.width * r.capacity) a := by
  rcases h.place ho hx with h1 | ⟨b, lo, l, q0, -, -, ⟨i, s1, -, s3, s4, s5, s6, s7⟩ | ⟨k, e, s1, s2, s3, s4, s5, s6, s7⟩⟩
  · exact .inl h1
  · exact .inr ⟨_, q0, .inl ⟨i, s1, s3, s4, s7, by rw [s5, s6]⟩⟩
  · exact .inr ⟨_, q0, .inr ⟨k, e, s1, s2, s3, s4, s7, by rw [s5, s6]⟩⟩

theorem Inv.id_lt {T : ℤ → Prop} {m : M β} (h : Inv none T m) {o : ℕ} {r : Arr} (ho : m.arr o = some r) (i : ℕ) (hi : r.id = i) (hl : i < limit) : i < m.nseg := by
  rcases (h.arrs o r ho (by simp)).2.2 with ⟨-, h1, -⟩ | ⟨j, h1, h2, -⟩ | ⟨k, e, h1, -⟩
  · omega
  · have := h.used_lt h2; omega
  · omega

/-- The memory of different arrays does not overlap. -/
theorem Inv.apart {x : Option ℕ} {S : ℤ → Prop} {m : M β} (h : Inv x S m) {o p : ℕ} {r q : Arr} (ho : m.arr o = some r) (hp : m.arr p = some q) (hox : some o ≠ x) (hpx : some p ≠ x)
    (hop : o ≠ p) {b lo lo' : ℕ} (hr : r.data = some (b, lo)) (hq : q.data = some (b, lo')) : lo + r.width * r.capacity ≤ lo' ∨ lo' + q.width * q.capacity ≤ lo := by
  rcases h.holdsAt ho hox with ⟨h1, -⟩ | ⟨a, h1, h2⟩
  · rw [hr] at h1; exact absurd h1 (by simp)
  rcases h.holdsAt hp hpx with ⟨g1, -⟩ | ⟨a', g1, g2⟩
  · rw [hq] at g1; exact absurd g1 (by simp)
  obtain rfl : a = (b, lo) := by rw [hr] at h1; exact (Option.some.inj h1).symm
  obtain rfl : a' = (b, lo') := by rw [hq] at g1; exact (Option.some.inj g1).symm
  rcases h2 with ⟨i, -, i2, i3, i4, i5⟩ | ⟨k, e, -, k2, -, k4, k5, k6⟩
  · have hb : b = m.bottom := congrArg Prod.fst i5
    have hlo : lo = off m.capSeg i := congrArg Prod.snd i5
    rcases g2 with ⟨j, -, j2, j3, j4, j5⟩ | ⟨k, e, -, k2, -, -, -, k6⟩
    · have hlo' : lo' = off m.capSeg j := congrArg Prod.snd j5
      have hij : i ≠ j := by
        rintro rfl
        rw [i3] at j3
        exact hop (Option.some.inj j3)
      rcases Nat.lt_or_gt_of_ne hij with hlt | hlt
      · have := off_lt m.capSeg hlt; left; omega
      · have := off_lt m.capSeg hlt; right; omega
    · have hb' : b = e.data := congrArg Prod.fst k6
      exact absurd (hb'.symm.trans hb) (h.em k e k2).2.1
  · have hb : b = e.data := congrArg Prod.fst k6
    rcases g2 with ⟨j, -, j2, j3, j4, j5⟩ | ⟨k', e', -, s2, -, s4, -, s6⟩
    · have hb' : b = m.bottom := congrArg Prod.fst j5
      exact absurd (hb.symm.trans hb') (h.em k e k2).2.1
    · have hb' : b = e'.data := congrArg Prod.fst s6
      exfalso
      have hk : k < (m.emerg.map Emerg.data).length := by
        rw [List.length_map]
        by_contra hc
        rw [List.getElem?_eq_none (by omega)] at k2; exact absurd k2 (by simp)
      have e1 : (m.emerg.map Emerg.data)[k]? = some b := by rw [List.getElem?_map, k2, hb]; rfl
      have e2 : (m.emerg.map Emerg.data)[k']? = some b := by rw [List.getElem?_map, s2, hb']; rfl
      have := (List.nodup_iff_getElem?_ne_getElem?.mp h.emd)
      by_cases hkk : k = k'
      · subst hkk
        rw [k2] at s2
        obtain rfl := Option.some.inj s2
        exact hop (k4.symm.trans s4)
      · have hk' : k' < (m.emerg.map Emerg.data).length := by
          rw [List.length_map]
          by_contra hc
          rw [List.getElem?_eq_none (by omega)] at s2; exact absurd s2 (by simp)
        rcases Nat.lt_or_gt_of_ne hkk with hlt | hlt
        · exact this k k' hlt hk' (e1.trans e2.symm)
        · exact this k' k hlt hk (e2.trans e1.symm)

/-- The contents of the blocks do not matter. -/
theorem Inv.set_block {x : Option ℕ} {S : ℤ → Prop} {m : M β} (h : Inv x S m) {b : ℕ} {l l' : List (Option β)} (hb : m.heap b = some l) (hl : l'.length = l.length) :
    Inv x S { m with heap := Function.update m.heap b (some l') } := by
  have hh : ∀ c lc, m.heap c = some lc → ∃ lc', (Function.update m.heap b (some l')) c = some lc' ∧ lc'.length = lc.length := by
    intro c lc hc
    by_cases hcb : c = b
    · subst hcb
      rw [hb] at hc
      obtain rfl := Option.some.inj hc
      exact ⟨l', Function.update_self _ _ _, hl⟩
    · exact ⟨lc, by rw [Function.update_of_ne hcb]; exact hc, rfl⟩
  refine { h with bot := ?_, em := fun k e he => ?_, fresh := fun c hc => ?_, seg := h.seg, arrs := h.arrs }
  · obtain ⟨l0, h1, h2⟩ := h.bot
    obtain ⟨l1, h3, h4⟩ := hh _ _ h1
    exact ⟨l1, h3, h4.trans h2⟩
  · obtain ⟨⟨l0, h1, h2⟩, h5⟩ := h.em k e he
    obtain ⟨l1, h3, h4⟩ := hh _ _ h1
    exact ⟨⟨l1, h3, h4.trans h2⟩, h5⟩
  · have := h.fresh c hc
    show Function.update m.heap b (some l') c = none
    rw [Function.update_of_ne]
    · exact this
    · rintro rfl
      rw [hb] at this; exact absurd this (by simp)

/-- A write into the memory of the array `o`. -/
theorem write_spec {T : ℤ → Prop} {m : M β} (h : Inv none T m) {o : ℕ} {r : Arr} (ho : m.arr o = some r) {b lo : ℕ} (hd : r.data = some (b, lo)) (k : ℕ) (v : List (Option β))
    (hv : k + v.length ≤ r.width * r.capacity) :
    ∃ l m', m.heap b = some l ∧ lo + r.width * r.capacity ≤ l.length ∧ write (some (b, lo + k)) v m = .ok m' ∧ Inv none T m' ∧ m'.arr = m.arr ∧ Keep (some o) m m' ∧
      m'.heap b = some (splice l (lo + k) v) := by
  rcases h.place ho (by simp) with ⟨h1, -⟩ | ⟨b', lo', l, q0, q1, q2, -⟩
  · rw [hd] at h1; exact absurd h1 (by simp)
  rw [hd] at q0
  obtain ⟨rfl, rfl⟩ : b = b' ∧ lo = lo' := by
    have := Option.some.inj q0
    exact ⟨congrArg Prod.fst this, congrArg Prod.snd this⟩
  have hle : lo + k + v.length ≤ l.length := by omega
  refine ⟨l, _, q1, q2, write_block m b (lo + k) v l q1 hle, h.set_block q1 (splice_length _ _ _ hle), rfl, ?_, Function.update_self _ _ _⟩
  intro p hp
  have hpo : p ≠ o := fun hc => hp (by rw [hc])
  refine ⟨id, fun q hq => ⟨q.data, q.id, hq, ?_, id⟩⟩
  have hg := (h.arrs p q hq (by simp)).2.1
  have hmul : q.width * q.size ≤ q.width * q.capacity := Nat.mul_le_mul_left _ hg
  rcases h.place hq (by simp) with ⟨p1, p2, p3⟩ | ⟨c, lo', l2, s0, s1, s2, -⟩
  · have : q.size = 0 := by omega
    rw [this, Nat.mul_zero, read_zero, read_zero]
  · by_cases hcb : c = b
    · subst hcb
      rw [q1] at s1
      obtain rfl := Option.some.inj s1
      have hap := h.apart ho hq (by simp) (by simp) (Ne.symm hpo) hd s0
      rw [s0, read_block m _ _ _ l q1 (by omega), read_block (_ : M β) c lo' _ _ (by exact Function.update_self _ _ _) (by rw [splice_length _ _ _ hle]; omega)]
      rw [slice_splice_out _ _ _ _ _ hle (by omega)]
    · rw [s0, read_block m _ _ _ l2 s1 (by omega), read_block (_ : M β) c lo' _ l2 (by show Function.update _ _ _ _ = _; rw [Function.update_of_ne hcb]; exact s1) (by omega)]

/-- The number of elements changes within the capacity. -/
theorem Inv.set_size {T : ℤ → Prop} {m : M β} (h : Inv none T m) {o : ℕ} {r : Arr} (ho : m.arr o = some r) {n : ℕ} (hn : n ≤ r.capacity) : Inv none T (MemPool.setArr o { r with size := n } m) := by
  obtain ⟨h1, -⟩ := h.open ho
  have hw := (h.arrs o r ho (by simp)).1
  rcases h.holdsAt ho (by simp) with ⟨g1, g2, g3⟩ | ⟨a, g1, g2⟩
  · refine ((h1.nonneg).setArr { r with size := n }).close_empty (fun s hs => by omega) fun r' hr' => ?_
    have hr' : (MemPool.setArr o { r with size := n } m).arr o = some r' := hr'
    rw [show (MemPool.setArr o { r with size := n } m).arr o = some { r with size := n } from Function.update_self _ _ _] at hr'
    obtain rfl := Option.some.inj hr'
    exact ⟨hw, by show n = 0; omega, g1, g2, g3⟩
  · exact (h1.setArr { r with size := n }).close (Function.update_self _ _ _) (fun s hs => hs) hw hn g1 g2

theorem allocData_spec {o : ℕ} {S : ℤ → Prop} {m : M β} (par : Bool) {size : ℕ} (hsize : size ≠ 0) (h : Inv (some o) S m) {r : Arr} (ho : m.arr o = some r)
    (hS : ∀ s, S s → s = r.id) (hown : Owned m o r.id) (hin : ∀ i : ℕ, r.id = i → i < limit → i < m.nseg) (hser : par = false → r.id < limit)
    (hroom : par = false → m.nseg + inUse m ≤ limit) :
    (allocData par size o m = .error .abort ∧ ¬ m.nseg + inUse m + 1 < limit) ∨
      ∃ m' a id', allocData par size o m = .ok m' ∧ Inv (some o) (fun s => s = id' ∨ s = r.id) m' ∧ Keep (some o) m m' ∧
        m'.arr o = some { r with data := some a, id := id' } ∧ HoldsAt m' o id' size a ∧ Owned m' o r.id ∧ (par = false → m'.emerg = []) ∧
        (par = true → ∀ p, p ≠ o → m'.arr p = m.arr p) := by
  unfold allocData
  rcases alloc_spec par hsize h ho hS hown hin hser hroom with ⟨h1, h2⟩ | ⟨m1, a, id', d, h1, h2, h3, h4, h5, h6, h7, h8⟩
  · left; simp only [h1]; exact ⟨trivial, h2⟩
  · right
    simp only [h1, h4]
    refine ⟨_, a, id', rfl, h2.setArr _, h3.setArr _, Function.update_self _ _ _, h5, h6, h7, fun hp p hpo => ?_⟩
    show Function.update _ _ _ _ = _
    rw [Function.update_of_ne hpo]; exact h8 hp p hpo

/-- Reading less. -/
theorem read_take {m : M β} {a : Option Addr} {n k : ℕ} {l : List (Option β)} (h : read a n m = .ok l) (hk : k ≤ n) : read a k m = .ok (l.take k) := by
  unfold read at h ⊢
  by_cases hk0 : k = 0
  · subst hk0; rw [if_pos rfl, List.take_zero]
  · rw [if_neg (by omega)] at h
    rw [if_neg hk0]
    cases a with
    | none => exact absurd h (by simp)
    | some a =>
      obtain ⟨b, lo⟩ := a
      simp only at h ⊢
      cases hb : m.heap b with
      | none => simp only [hb] at h; exact absurd h (by simp)
      | some L =>
        simp only [hb] at h
        by_cases hle : lo + n ≤ L.length
        · rw [if_pos hle] at h
          have h := Except.ok.inj h
          simp only
          rw [if_pos (by omega), ← h, List.take_take, Nat.min_eq_left hk]
        · rw [if_neg hle] at h; exact absurd h (by simp)

theorem read_length {m : M β} {a : Option Addr} {n : ℕ} {l : List (Option β)} (h : read a n m = .ok l) : l.length = n := by
  unfold read at h
  by_cases hn : n = 0
  · rw [if_pos hn] at h; rw [← Except.ok.inj h, hn]; rfl
  · rw [if_neg hn] at h
    cases a with
    | none => exact absurd h (by simp)
    | some a =>
      obtain ⟨b, lo⟩ := a
      simp only at h
      cases hb : m.heap b with
      | none => simp only [hb] at h; exact absurd h (by simp)
      | some L =>
        simp only [hb] at h
        by_cases hle : lo + n ≤ L.length
        · rw [if_pos hle] at h
          rw [← Except.ok.inj h, List.length_take, List.length_drop]; omega
        · rw [if_neg hle] at h; exact absurd h (by simp)

/-- The whole memory of an array can be read. -/
theorem Inv.read_all {x : Option ℕ} {S : ℤ → Prop} {m : M β} (h : Inv x S m) {o : ℕ} {r : Arr} (ho : m.arr o = some r) (hx : some o ≠ x) : ∃ l, read r.data (r.width * r.capacity) m = .ok l := by
  rcases h.place ho hx with ⟨h1, -, h3⟩ | ⟨b, lo, l, q0, q1, q2, -⟩
  · exact ⟨[], by rw [h3, Nat.mul_zero, read_zero]⟩
  · exact ⟨_, by rw [q0]; exact read_block m b lo _ l q1 q2⟩

theorem reallocInner_spec {T : ℤ → Prop} {m : M β} (intended par : Bool) (h : Inv none T m) {o : ℕ} {r : Arr} (ho : m.arr o = some r) {newCap : ℕ} (hcap : r.size ≤ newCap) (hpos : 0 < newCap)
    (hmay : MayMove intended par r) (hroom : par = false → m.nseg + inUse m ≤ limit) :
    (reallocInner intended par o newCap m = .error .abort ∧ ¬ m.nseg + inUse m + 1 < limit) ∨
      ∃ m' a id', reallocInner intended par o newCap m = .ok m' ∧ Inv none T m' ∧ Keep (some o) m m' ∧ m'.arr o = some { r with data := some a, id := id', capacity := newCap } ∧
        read (some a) (r.width * r.size) m' = read r.data (r.width * r.size) m ∧ (par = true → ∀ p, p ≠ o → m'.arr p = m.arr p) := by
  obtain ⟨hw, hsz, -⟩ := h.arrs o r ho (by simp)
  obtain ⟨old, hold⟩ := h.read_all ho (by simp)
  have hmul : r.width * r.size ≤ r.width * r.capacity := Nat.mul_le_mul_left _ hsz
  have hread := read_take hold hmul
  have holdlen := read_length hread
  unfold reallocInner
  simp only [ho, hold]
  obtain ⟨i1, own1⟩ := h.open ho
  have hwn : 0 < r.width * newCap := Nat.mul_pos hw hpos
  rcases allocData_spec par (size := r.width * newCap) (by omega) (i1.setArr { r with capacity := newCap }) (Function.update_self _ _ _) (fun s hs => hs) own1
      (fun i => h.id_lt ho i) hmay.2 hroom with ⟨e1, h2⟩ | ⟨m1, a, id', e1, i2, k2, a2, h2, own2, em2, par2⟩
  · left; simp only [e1]; exact ⟨trivial, h2⟩
  · right
    simp only [e1, a2]
    have i2 : Inv (some o) (fun s => s = id' ∨ s = r.id) m1 := i2
    have own2 : Owned m1 o r.id := own2
    have k2' : Keep (some o) m m1 := by
      refine Keep.trans (Keep.of_others (m' := setArr o { r with capacity := newCap } m) (fun p hp => Function.update_of_ne hp _ _) rfl) k2
    have par2' : par = true → ∀ p, p ≠ o → m1.arr p = m.arr p := by
      intro hp p hpo
      rw [par2 hp p hpo]
      exact Function.update_of_ne hpo _ _
    -- after freeMem
    obtain ⟨m2, e2, i3, k3, a3, par3⟩ : ∃ m2, (if r.id ≠ id' then freeMem intended par r.id m1 else Except.ok m1) = .ok m2 ∧ Inv none T m2 ∧ Keep (some o) m m2 ∧
        (∃ d i, m2.arr o = some { r with data := d, id := i, capacity := newCap }) ∧ (par = true → ∀ p, p ≠ o → m2.arr p = m.arr p) := by
      by_cases hid : r.id = id'
      · rw [if_neg (by simpa using hid)]
        refine ⟨m1, rfl, i2.close a2 (fun s hs => ?_) hw hcap rfl h2, k2', ⟨_, _, a2⟩, par2'⟩
        rcases hs with hs | hs
        · exact hs
        · exact hs.trans hid
      · rw [if_pos hid]
        obtain ⟨m2, e2, i3, a3, hp3, n3, u3, em3, hh3⟩ := freeMem_spec intended par (i2.nonneg) r.id own2 (fun hc => by omega) (by
          intro hi
          obtain ⟨g1, g2⟩ := hmay.1 hi
          refine ⟨?_, g2⟩
          rcases h.holdsAt ho (by simp) with ⟨g3, -⟩ | ⟨b, -, g3⟩
          · exact absurd g3 g1
          · exact g3.nonneg)
        have a2' : m2.arr o = some { r with capacity := newCap, data := some a, id := id' } := by rw [a3]; exact a2
        have i4 : Inv none T m2 := i3.close a2' (fun s hs => by
          rcases hs with ⟨⟨hs | hs, -⟩, hne⟩
          · exact hs
          · exact absurd hs hne) hw hcap rfl (hh3 o id' _ a (fun hc => hid hc.symm) h2)
        have k4 : Keep (some o) m m2 := k2'.trans ((Keep.refl _ m1).of_eq rfl rfl a3 hp3)
        rcases e2 with e2 | e2
        · exact ⟨m2, e2, i4, k4, ⟨_, _, a2'⟩, fun hp p hpo => by rw [a3]; exact par2' hp p hpo⟩
        · obtain ⟨m3, e3, i5, k5, -, u5, -, -, -, -, -⟩ := unifyMem_spec par i4 (fun _ _ _ _ => by simp) (by
            intro hp
            have he := em3 (em2 hp)
            unfold inUse
            rw [he]
            have := i4.lim
            simpa using this)
          refine ⟨m3, by rw [e2, e3], i5, k4.trans (k5.weaken o), ?_, fun hp p hpo => ?_⟩
          · obtain ⟨d, i, h6, -, -⟩ := (k5 o (by simp)).2 _ a2'
            exact ⟨d, i, h6⟩
          · rw [u5 hp, a3]; exact par2' hp p hpo
    simp only [e2]
    obtain ⟨d, i, a3⟩ := a3
    simp only [a3]
    rcases i3.holdsAt a3 (by simp) with ⟨-, -, g3⟩ | ⟨⟨b, lo⟩, g1, -⟩
    · have g3 : newCap = 0 := g3
      omega
    have g1 : d = some (b, lo) := g1
    subst g1
    have hmul2 : r.width * r.size ≤ r.width * newCap := Nat.mul_le_mul_left _ hcap
    obtain ⟨l, m3, w1, w2, w3, w4, w5, w6, w7⟩ := write_spec i3 a3 (b := b) (lo := lo) rfl 0 (old.take (r.width * r.size)) (by rw [holdlen]; show 0 + _ ≤ r.width * newCap; omega)
    have w2 : lo + r.width * newCap ≤ l.length := w2
    refine ⟨m3, (b, lo), i, w3, w4, k3.trans w6, by rw [w5]; exact a3, ?_, fun hp p hpo => by rw [w5]; exact par3 hp p hpo⟩
    rw [hread, read_block m3 b lo _ _ w7 (by rw [splice_length _ _ _ (by rw [holdlen]; omega)]; omega), Nat.add_zero,
      slice_splice_in _ _ _ _ (by rw [holdlen]; omega) (by rw [holdlen]), List.take_take, Nat.min_self]

end Verif.MemPool
