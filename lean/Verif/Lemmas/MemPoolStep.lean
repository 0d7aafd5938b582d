import Verif.Lemmas.MemPoolArray
/-! One call on an array of the memory pool. -/
namespace Verif.MemPool

variable {β : Type}

/-- The invariant between calls. -/
abbrev Ok (m : M β) : Prop := Inv none (fun _ => False) m

/-- After a call on `o`. -/
def After (par : Bool) (o : ℕ) (m m' : M β) : Prop := Ok m' ∧ Keep (some o) m m' ∧ (par = true → ∀ p, p ≠ o → m'.arr p = m.arr p)

theorem After.trans {par : Bool} {o : ℕ} {m m' m'' : M β} (h : After par o m m') (h' : After par o m' m'') : After par o m m'' :=
  ⟨h'.1, h.2.1.trans h'.2.1, fun hp p hpo => (h'.2.2 hp p hpo).trans (h.2.2 hp p hpo)⟩

theorem view_of {m : M β} {o : ℕ} {r : Arr} {l : List (Option β)} (ho : m.arr o = some r) (hl : read r.data (r.width * r.size) m = .ok l) : view m o = some (r.width, l) := by
  unfold view; simp only [ho, hl]

theorem view_inv {m : M β} {o : ℕ} {r : Arr} {w : ℕ} {l : List (Option β)} (ho : m.arr o = some r) (hv : view m o = some (w, l)) : w = r.width ∧ read r.data (r.width * r.size) m = .ok l := by
  unfold view at hv
  simp only [ho] at hv
  cases hr : read r.data (r.width * r.size) m with
  | error x => simp only [hr] at hv; exact absurd hv (by simp)
  | ok l' =>
    simp only [hr] at hv
    have := Option.some.inj hv
    exact ⟨(congrArg Prod.fst this).symm, congrArg Except.ok (congrArg Prod.snd this)⟩

theorem Inv.view_some {m : M β} (h : Ok m) {o : ℕ} {r : Arr} (ho : m.arr o = some r) : ∃ l, view m o = some (r.width, l) ∧ l.length = r.width * r.size := by
  obtain ⟨l, hl⟩ := h.read_all ho (by simp)
  have h1 := read_take hl (Nat.mul_le_mul_left r.width (h.arrs o r ho (by simp)).2.1)
  exact ⟨_, view_of ho h1, read_length h1⟩

theorem Keep.view {o : ℕ} {m m' : M β} (h : Keep (some o) m m') {p : ℕ} (hp : p ≠ o) : view m' p = MemPool.view m p := by
  obtain ⟨h1, h2⟩ := h p (by simpa using hp)
  unfold MemPool.view
  cases hm : m.arr p with
  | none => rw [h1 hm]
  | some r =>
    obtain ⟨d, i, h3, h4, -⟩ := h2 r hm
    simp only [h3, h4]

theorem Inv.open_none {T S : ℤ → Prop} {m : M β} (h : Inv none T m) {o : ℕ} (ho : m.arr o = none) : Inv (some o) S m := by
  refine { h with seg := fun i hi => ?_, em := fun k e he => ?_, arrs := fun p r' hp _ => h.arrs p r' hp (by simp) }
  · obtain ⟨p, r', h1, h2, h3⟩ := h.seg i hi
    rcases h3 with ⟨h3, -⟩ | ⟨-, h3⟩
    · exact absurd h3 (by simp)
    refine ⟨p, r', h1, h2, .inr ⟨?_, h3⟩⟩
    intro hc
    obtain rfl := Option.some.inj hc
    rw [ho] at h2; exact absurd h2 (by simp)
  · obtain ⟨h1, h2, h3⟩ := h.em k e he
    refine ⟨h1, h2, fun hu => ?_⟩
    obtain ⟨r', h4, h5⟩ := h3 hu
    rcases h5 with ⟨h5, -⟩ | ⟨-, h5⟩
    · exact absurd h5 (by simp)
    refine ⟨r', h4, .inr ⟨?_, h5⟩⟩
    intro hc
    have hc := Option.some.inj hc
    rw [hc, ho] at h4; exact absurd h4 (by simp)

theorem initial_ok (cap : ℕ) : Ok (initial cap : M β) := by
  refine ⟨⟨List.replicate cap none, ?_, List.length_replicate⟩, rfl, ?_, Nat.zero_le _, Nat.zero_le _, fun i hi => ?_, fun i _ => ⟨rfl, rfl⟩, fun i hi => ?_, fun k e he => ?_, fun k e he => ?_, ?_,
    fun b hb => ?_, fun o r hr => ?_⟩
  · simp [initial]
  · simp [initial, off]
  · exact absurd hi (by simp [initial])
  · exact absurd hi (by simp [initial])
  · exact absurd he (by simp [initial])
  · exact absurd he (by simp [initial])
  · simp [initial]
  · have hb : 1 ≤ b := hb
    simp only [initial]
    rw [Function.update_of_ne (by omega)]
  · exact absurd hr (by simp [initial])

theorem setSize_spec {m : M β} (par : Bool) (h : Ok m) {o : ℕ} {r : Arr} (ho : m.arr o = some r) {n : ℕ} (hn : n ≤ r.capacity) :
    ∃ m', setSize o n m = .ok m' ∧ After par o m m' ∧ m'.arr o = some { r with size := n } ∧ m'.heap = m.heap := by
  unfold setSize
  simp only [ho]
  exact ⟨_, rfl, ⟨h.set_size ho hn, Keep.of_others (fun p hp => Function.update_of_ne hp _ _) rfl, fun _ p hp => Function.update_of_ne hp _ _⟩, Function.update_self _ _ _, rfl⟩

theorem construct_spec {m : M β} (par : Bool) (h : Ok m) {o : ℕ} (ho : m.arr o = none) {w cap size : ℕ} (hw : 1 ≤ w) (hs : size ≤ cap) (hroom : par = false → m.nseg + inUse m ≤ limit) :
    (construct par o w cap size m = .error .abort ∧ ¬ (m.nseg + inUse m + 1 < limit ∧ cap < capLimit)) ∨
      ∃ m' r', construct par o w cap size m = .ok m' ∧ After par o m m' ∧ m'.arr o = some r' ∧ r'.width = w ∧ r'.size = size ∧ r'.capacity = cap := by
  unfold construct
  by_cases hc : capLimit ≤ cap
  · rw [if_pos hc]; exact .inl ⟨rfl, fun hx => by omega⟩
  rw [if_neg hc]
  have i1 : Inv (some o) (fun _ => False) (setArr o ⟨w, none, size, cap, 0, -1⟩ m) := (h.open_none ho).setArr _
  have k1 : Keep (some o) m (setArr o ⟨w, none, size, cap, 0, -1⟩ m) := Keep.of_others (fun p hp => Function.update_of_ne hp _ _) rfl
  have p1 : ∀ p, p ≠ o → (setArr o ⟨w, none, size, cap, 0, -1⟩ m).arr p = m.arr p := fun p hp => Function.update_of_ne hp _ _
  have a1 : (setArr o ⟨w, none, size, cap, 0, -1⟩ m).arr o = some ⟨w, none, size, cap, 0, -1⟩ := Function.update_self _ _ _
  by_cases hcap : cap = 0
  · subst hcap
    right
    unfold allocData alloc
    rw [Nat.mul_zero, if_pos rfl]
    simp only [a1]
    refine ⟨_, ⟨w, none, size, 0, 0, -1⟩, rfl, ⟨?_, k1.setArr _, fun _ p hp => ?_⟩, Function.update_self _ _ _, rfl, rfl, rfl⟩
    · refine (i1.setArr _).close_empty (fun s hs => hs) fun r' hr' => ?_
      rw [show (setArr o _ (setArr o _ m)).arr o = some _ from Function.update_self _ _ _] at hr'
      obtain rfl := Option.some.inj hr'
      exact ⟨hw, by show size = 0; omega, rfl, rfl, rfl⟩
    · show Function.update _ _ _ _ = _
      rw [Function.update_of_ne hp]; exact p1 p hp
  · have hwc : 0 < w * cap := Nat.mul_pos hw (by omega)
    rcases allocData_spec par (size := w * cap) (by omega) i1 a1 (fun s hs => hs.elim) (.inr (.inr rfl)) (fun i hi => by simp only at hi; omega) (fun _ => by show (-1 : ℤ) < _; unfold limit; omega)
      hroom with ⟨e1, h2⟩ | ⟨m1, a, id', e1, i2, k2, a2, h2, own2, em2, par2⟩
    · left
      exact ⟨e1, fun hx => h2 hx.1⟩
    · right
      refine ⟨m1, _, e1, ⟨i2.nonneg.close a2 (fun s hs => ?_) hw hs rfl h2, k1.trans k2, fun hp p hpo => ?_⟩, a2, rfl, rfl, rfl⟩
      · rcases hs with ⟨hs | hs, hs'⟩
        · exact hs
        · have hs : s = -1 := hs
          omega
      · rw [par2 hp p hpo]; exact p1 p hpo

theorem resize_spec {m : M β} (intended par : Bool) (h : Ok m) {o : ℕ} {r : Arr} (ho : m.arr o = some r) {n : ℕ} (hn : grown n < 2 ^ 31)
    (hmay : r.data ≠ none → r.capacity < n → MayMove intended par r) (hroom : par = false → m.nseg + inUse m ≤ limit) :
    (resize intended par o n m = .error .abort ∧ ¬ (m.nseg + inUse m + 1 < limit ∧ max (grown n) r.capacityOrg < capLimit)) ∨
      ∃ m' d i c, resize intended par o n m = .ok m' ∧ After par o m m' ∧ m'.arr o = some { r with data := d, id := i, capacity := c, size := n } ∧
        n ≤ c ∧ read d (r.width * min r.size n) m' = read r.data (r.width * min r.size n) m := by
  obtain ⟨hw, hsz, -⟩ := h.arrs o r ho (by simp)
  have hg : n < grown n := by unfold grown; omega
  have hgm : grown n ≤ max (grown n) r.capacityOrg := Nat.le_max_left _ _
  unfold resize
  rw [if_neg (by omega)]
  simp only [ho]
  generalize hN : max (grown n) r.capacityOrg = N at *
  by_cases hd : r.data = none
  · obtain ⟨-, hid, hcap⟩ : r.data = none ∧ r.id = -1 ∧ r.capacity = 0 := by
      rcases h.place ho (by simp) with h1 | ⟨b, lo, l, q0, -⟩
      · exact h1
      · rw [hd] at q0; exact absurd q0 (by simp)
    obtain ⟨i1, own1⟩ := h.open ho
    have hwn : 0 < r.width * N := Nat.mul_pos hw (by omega)
    unfold resizeFirst
    rw [if_pos hd]
    rcases allocData_spec par (size := r.width * N) (by omega) i1 ho (fun s hs => hs) own1 (fun i => h.id_lt ho i) (fun _ => by rw [hid]; unfold limit; omega) hroom with
      ⟨e1, h2⟩ | ⟨m1, a, id', e1, i2, k2, a2, h2, own2, em2, par2⟩
    · left; simp only [e1]; exact ⟨trivial, fun hx => h2 hx.1⟩
    · right
      simp only [e1, a2]
      have a3 : (setArr o { r with data := some a, id := id', capacity := N, size := n } m1).arr o = some { r with data := some a, id := id', capacity := N, size := n } := Function.update_self _ _ _
      have i3 : Ok (setArr o { r with data := some a, id := id', capacity := N, size := n } m1) := by
        refine (i2.nonneg.setArr _).close a3 (fun s hs => ?_) hw (by show n ≤ N; omega) rfl h2
        rcases hs with ⟨hs | hs, hs'⟩
        · exact hs
        · have hs : s = r.id := hs
          omega
      unfold resizeGrow
      simp only [a3]
      rw [if_neg (by omega)]
      simp only
      obtain ⟨m4, e4, f4, a4, h4⟩ := setSize_spec par i3 a3 (n := n) (by show n ≤ N; omega)
      refine ⟨m4, some a, id', N, e4, ⟨f4.1, (k2.setArr _).trans f4.2.1, fun hp p hpo => ?_⟩, a4, by omega, ?_⟩
      · rw [f4.2.2 hp p hpo, show (setArr o _ m1).arr p = m1.arr p from Function.update_of_ne hpo _ _, par2 hp p hpo]
      · have : min r.size n = 0 := by omega
        rw [this, Nat.mul_zero, read_zero, read_zero]
  · unfold resizeFirst
    rw [if_neg hd]
    unfold resizeGrow
    simp only [ho]
    by_cases hc : r.capacity < n
    · rw [if_pos hc]
      by_cases hl : capLimit ≤ N
      · rw [if_pos hl]; exact .inl ⟨rfl, fun hx => by omega⟩
      · rw [if_neg hl]
        rcases reallocInner_spec intended par h ho (newCap := N) (by omega) (by omega) (hmay hd hc) hroom with ⟨e1, h2⟩ | ⟨m1, a, id', e1, i2, k2, a2, h2, par2⟩
        · left; simp only [e1]; exact ⟨trivial, fun hx => h2 hx.1⟩
        · right
          simp only [e1]
          obtain ⟨m4, e4, f4, a4, h4⟩ := setSize_spec par i2 a2 (n := n) (by show n ≤ N; omega)
          refine ⟨m4, some a, id', N, e4, After.trans ⟨i2, k2, par2⟩ f4, a4, by omega, ?_⟩
          rw [show min r.size n = r.size by omega]
          rw [← h2]; unfold read; rw [h4]
    · rw [if_neg hc]
      simp only
      right
      obtain ⟨m4, e4, f4, a4, h4⟩ := setSize_spec par h ho (n := n) (by omega)
      refine ⟨m4, r.data, r.id, r.capacity, e4, f4, a4, by omega, ?_⟩
      unfold read; rw [h4]

theorem setElem_spec {m : M β} (par : Bool) (h : Ok m) {o : ℕ} {r : Arr} (ho : m.arr o = some r) {i : ℕ} (hi : i < r.size) {v : List (Option β)} (hv : v.length = r.width) {l : List (Option β)}
    (hl : read r.data (r.width * r.size) m = .ok l) :
    ∃ m', setElem o i v m = .ok m' ∧ After par o m m' ∧ m'.arr o = some r ∧ read r.data (r.width * r.size) m' = .ok (l.take (r.width * i) ++ v ++ l.drop (r.width * i + r.width)) := by
  obtain ⟨hw, hsz, -⟩ := h.arrs o r ho (by simp)
  unfold setElem
  simp only [ho]
  rcases h.holdsAt ho (by simp) with ⟨-, -, g3⟩ | ⟨⟨b, lo⟩, g1, -⟩
  · omega
  simp only [g1]
  have h1 : r.width * i + r.width ≤ r.width * r.size := by rw [← Nat.mul_succ]; exact Nat.mul_le_mul_left _ hi
  have h2 : r.width * r.size ≤ r.width * r.capacity := Nat.mul_le_mul_left _ hsz
  obtain ⟨L, m3, w1, w2, w3, w4, w5, w6, w7⟩ := write_spec h ho g1 (r.width * i) v (by rw [hv]; omega)
  refine ⟨m3, w3, ⟨w4, w6, fun _ p _ => by rw [w5]⟩, by rw [w5]; exact ho, ?_⟩
  have hspl : lo + r.width * i + v.length ≤ L.length := by rw [hv]; omega
  rw [g1, read_block m b lo _ L w1 (by omega)] at hl
  have hl := Except.ok.inj hl
  rw [read_block m3 b lo _ _ w7 (by rw [splice_length _ _ _ hspl]; omega)]
  congr 1
  have hll : l.length = r.width * r.size := by rw [← hl, List.length_take, List.length_drop]; omega
  have key : l.take (r.width * i) ++ v ++ l.drop (r.width * i + r.width) = splice l (r.width * i) v := by unfold splice; rw [hv]
  rw [key]
  apply List.ext_getElem?
  intro j
  rw [slice_get, splice_get _ _ _ _ hspl, splice_get _ _ _ _ (by rw [hv, hll]; omega), hv]
  have hlj : l[j]? = if j < r.width * r.size then L[lo + j]? else none := by rw [← hl, slice_get]
  rw [hlj]
  by_cases hj : j < r.width * r.size
  · rw [if_pos hj, if_pos hj]
    by_cases hm : r.width * i ≤ j ∧ j < r.width * i + r.width
    · rw [if_pos hm, if_pos (by omega), show lo + j - (lo + r.width * i) = j - r.width * i by omega]
    · rw [if_neg hm, if_neg (by omega)]
  · rw [if_neg hj, if_neg hj, if_neg (by omega)]

theorem freed_spec {m : M β} (intended par : Bool) (h : Ok m) {o : ℕ} {r : Arr} (ho : m.arr o = some r) (hmay : MayFree intended r) (hroom : par = false → m.nseg + inUse m ≤ limit) :
    ∃ m' d, freeMem intended par r.id m = .ok m' ∧ Inv (some o) (fun _ => False) m' ∧ Keep (some o) m m' ∧ m'.arr o = some { r with data := d } ∧
      (par = true → ∀ p, p ≠ o → m'.arr p = m.arr p) := by
  obtain ⟨i1, own1⟩ := h.open ho
  obtain ⟨m2, e2, i3, a3, hp3, n3, u3, em3, hh3⟩ := freeMem_spec intended par i1.nonneg r.id own1 (fun hc => by omega) (by
    intro hi
    obtain ⟨g1, g2⟩ := hmay hi
    refine ⟨?_, g2⟩
    rcases h.holdsAt ho (by simp) with ⟨g3, -⟩ | ⟨b, -, g3⟩
    · exact absurd g3 g1
    · exact g3.nonneg)
  have i4 : Inv (some o) (fun _ => False) m2 := i3.mono fun s hs => hs.2 hs.1.1
  have k4 : Keep (some o) m m2 := (Keep.refl _ m).of_eq rfl rfl a3 hp3
  have a4 : m2.arr o = some r := by rw [a3]; exact ho
  rcases e2 with e2 | e2
  · exact ⟨m2, r.data, e2, i4, k4, a4, fun _ p _ => by rw [a3]⟩
  · obtain ⟨m3, e3, i5, k5, -, u5, -, u6, -, -, -⟩ := unifyMem_spec par i4 (fun hp e he hu hc => by
        obtain ⟨k, hk⟩ := List.mem_iff_getElem?.mp he
        obtain ⟨-, -, h3⟩ := i4.em k e hk
        obtain ⟨r', -, h5⟩ := h3 hu
        rcases h5 with ⟨-, h5⟩ | ⟨h5, -⟩
        · exact h5
        · exact h5 hc) (fun hp => by have := hroom hp; omega)
    obtain ⟨d, h6⟩ := u6 o r rfl a4
    exact ⟨m3, d, by rw [e2, e3], i5, k4.trans k5, h6, fun hp p _ => by rw [u5 hp, a3]⟩

theorem atLeast_spec {m : M β} (intended par : Bool) (h : Ok m) {o : ℕ} {r : Arr} (ho : m.arr o = some r) {n : ℕ} (hn : grown n < 2 ^ 31) (hmay : r.capacity ≤ n → MayMove intended par r)
    (hroom : par = false → m.nseg + inUse m ≤ limit) :
    (reserveAtLeast intended par o n m = .error .abort ∧ ¬ (m.nseg + inUse m + 1 < limit ∧ grown n < capLimit)) ∨
      ∃ m', reserveAtLeast intended par o n m = .ok m' ∧ (view m' o = view m o ∧ ∃ r', m'.arr o = some r' ∧ r'.size = r.size ∧ n < r'.capacity) ∧ After par o m m' := by
  have hg : n < grown n := by unfold grown; omega
  obtain ⟨hw, hsz, -⟩ := h.arrs o r ho (by simp)
  unfold reserveAtLeast
  simp only [ho]
  by_cases hc : r.capacity ≤ n
  · rw [if_pos hc, if_neg (by omega)]
    by_cases hl : capLimit ≤ grown n
    · rw [if_pos hl]; exact .inl ⟨rfl, fun hx => by omega⟩
    rw [if_neg hl]
    rcases reallocInner_spec intended par h ho (newCap := grown n) (by omega) (by omega) (hmay hc) hroom with ⟨e1, h2⟩ | ⟨m1, a, id', e1, i2, k2, a2, h2, par2⟩
    · left; exact ⟨e1, fun hx => h2 hx.1⟩
    · right
      refine ⟨m1, e1, ⟨?_, _, a2, rfl, hg⟩, i2, k2, par2⟩
      obtain ⟨l, hv, -⟩ := h.view_some ho
      obtain ⟨-, hr⟩ := view_inv ho hv
      rw [hv]
      exact view_of (r := { r with data := some a, id := id', capacity := grown n }) a2 (h2.trans hr)
  · rw [if_neg hc]
    exact .inr ⟨m, rfl, ⟨rfl, r, ho, rfl, by omega⟩, h, Keep.refl _ _, fun _ _ _ => rfl⟩

/-- One safe call. -/
theorem step_spec {m : M β} (intended par : Bool) (h : Ok m) (op : Op β) (hs : Safe intended par m op) :
    (step intended par m op = .error .abort ∧ ¬ Fits m op) ∨ ∃ m', step intended par m op = .ok m' ∧ Effect m m' op ∧ After par op.target m m' := by
  obtain ⟨hroom, hs⟩ := hs
  cases op with
  | construct o w cap size =>
    obtain ⟨ho, hw, hsz⟩ := hs
    rcases construct_spec par h ho hw hsz hroom with h1 | ⟨m', r', e1, f1, a1, rfl, rfl, rfl⟩
    · exact .inl h1
    · exact .inr ⟨m', e1, f1.1.view_some a1, f1⟩
  | resize o n =>
    obtain ⟨r, ho, hn, hmay⟩ := hs
    rcases resize_spec intended par h ho hn hmay hroom with ⟨h1, h2⟩ | ⟨m', d, i, c, e1, f1, a1, hc, hr⟩
    · exact .inl ⟨h1, fun hx => h2 ⟨hx.1, hx.2 r ho⟩⟩
    · refine .inr ⟨m', e1, fun w l hv => ?_, f1⟩
      obtain ⟨rfl, hl⟩ := view_inv ho hv
      have hll := read_length hl
      obtain ⟨l', hv', hl'⟩ := f1.1.view_some a1
      obtain ⟨-, hr'⟩ := view_inv a1 hv'
      have hl' : l'.length = r.width * n := hl'
      have hr' : read d (r.width * n) m' = .ok l' := hr'
      refine ⟨l', hv', hl', ?_⟩
      rw [read_take hl (Nat.mul_le_mul_left _ (Nat.min_le_left _ _)), read_take hr' (Nat.mul_le_mul_left _ (Nat.min_le_right _ _))] at hr
      have hr := Except.ok.inj hr
      rw [hll]
      rcases Nat.le_total r.size n with hc | hc
      · rw [Nat.min_eq_left hc] at hr
        rw [hr, List.take_of_length_le (by omega), List.take_of_length_le (by rw [hll]; exact Nat.mul_le_mul_left _ hc)]
      · rw [Nat.min_eq_right hc] at hr
        rw [← hr, List.take_of_length_le (by rw [hl']; exact Nat.mul_le_mul_left _ hc), List.take_of_length_le (by omega)]
  | set o i v =>
    obtain ⟨r, ho, hi, hv⟩ := hs
    right
    obtain ⟨l, hvw, -⟩ := h.view_some ho
    obtain ⟨-, hl⟩ := view_inv ho hvw
    obtain ⟨m', e1, f1, a1, hr⟩ := setElem_spec par h ho hi hv hl
    refine ⟨m', e1, fun w l' hv' => ?_, f1⟩
    rw [hvw] at hv'
    obtain ⟨rfl, rfl⟩ : r.width = w ∧ l = l' := by have := Option.some.inj hv'; exact ⟨congrArg Prod.fst this, congrArg Prod.snd this⟩
    exact view_of a1 hr
  | pushBack o v =>
    obtain ⟨r, ho, hv, hn, hmay⟩ := hs
    show (pushBack intended par o v m = .error .abort ∧ _) ∨ ∃ m', pushBack intended par o v m = .ok m' ∧ _
    unfold pushBack
    simp only [ho]
    rcases resize_spec intended par h ho hn hmay hroom with ⟨h1, h2⟩ | ⟨m1, d, i, c, e1, f1, a1, hc, hr⟩
    · left; simp only [h1]; exact ⟨trivial, fun hx => h2 ⟨hx.1, hx.2 r ho⟩⟩
    · right
      simp only [e1]
      obtain ⟨l', hv', hl'⟩ := f1.1.view_some a1
      obtain ⟨-, hr'⟩ := view_inv a1 hv'
      obtain ⟨m2, e2, f2, a2, h2⟩ := setElem_spec par f1.1 a1 (i := r.size) (by show r.size < r.size + 1; omega) (v := v) hv hr'
      refine ⟨m2, e2, fun w l hvw => ?_, f1.trans f2⟩
      obtain ⟨rfl, hl⟩ := view_inv ho hvw
      have h3 := view_of a2 h2
      refine h3.trans ?_
      have hll := read_length hl
      have hl' : l'.length = r.width * (r.size + 1) := hl'
      have hr' : read d (r.width * (r.size + 1)) m1 = .ok l' := hr'
      rw [show min r.size (r.size + 1) = r.size by omega, hl, read_take hr' (Nat.mul_le_mul_left _ (by omega))] at hr
      have hr := Except.ok.inj hr
      show some (r.width, l'.take (r.width * r.size) ++ v ++ l'.drop (r.width * r.size + r.width)) = _
      rw [hr, List.drop_eq_nil_of_le (by rw [hl', Nat.mul_succ]), List.append_nil]
  | pushBackNoCheck o v =>
    obtain ⟨r, ho, hv, hc⟩ := hs
    right
    show ∃ m', pushBackNoCheck o v m = .ok m' ∧ _
    unfold pushBackNoCheck
    simp only [ho]
    obtain ⟨m1, e1, f1, a1, hp1⟩ := setSize_spec par h ho (n := r.size + 1) (by omega)
    unfold setSize at e1
    simp only [ho] at e1
    have e1 := Except.ok.inj e1
    rw [e1]
    obtain ⟨l', hv', hl'⟩ := f1.1.view_some a1
    obtain ⟨-, hr'⟩ := view_inv a1 hv'
    obtain ⟨m2, e2, f2, a2, h2⟩ := setElem_spec par f1.1 a1 (i := r.size) (by show r.size < r.size + 1; omega) (v := v) hv hr'
    refine ⟨m2, e2, fun w l hvw => ?_, f1.trans f2⟩
    obtain ⟨rfl, hl⟩ := view_inv ho hvw
    refine (view_of a2 h2).trans ?_
    have hl' : l'.length = r.width * (r.size + 1) := hl'
    have hr' : read r.data (r.width * (r.size + 1)) m1 = .ok l' := hr'
    have hr2 := read_take hr' (Nat.mul_le_mul_left r.width (Nat.le_succ r.size))
    have hl2 : read r.data (r.width * r.size) m1 = .ok l := by rw [← hl]; unfold read; rw [hp1]
    rw [hl2] at hr2
    have hr2 := Except.ok.inj hr2
    show some (r.width, l'.take (r.width * r.size) ++ v ++ l'.drop (r.width * r.size + r.width)) = _
    rw [← hr2, List.drop_eq_nil_of_le (by rw [hl', Nat.mul_succ]), List.append_nil]
  | clearSize o =>
    obtain ⟨r, ho⟩ := hs
    right
    obtain ⟨m1, e1, f1, a1, hp1⟩ := setSize_spec par h ho (n := 0) (by omega)
    refine ⟨m1, e1, fun w l hvw => ?_, f1⟩
    obtain ⟨rfl, -⟩ := view_inv ho hvw
    have hz : read r.data (r.width * 0) m1 = .ok [] := by rw [Nat.mul_zero, read_zero]
    exact view_of (r := { r with size := 0 }) a1 hz
  | reserveAtLeast o n =>
    obtain ⟨r, ho, hn, hmay⟩ := hs
    rcases atLeast_spec intended par h ho hn hmay hroom with h1 | ⟨m', e1, ⟨h1, r', a1, -, h2⟩, f1⟩
    · exact .inl h1
    · refine .inr ⟨m', e1, ⟨h1, fun q hq => ?_⟩, f1⟩
      rw [a1] at hq
      obtain rfl := Option.some.inj hq
      exact h2
  | reserveEmpty o n =>
    obtain ⟨r, ho, hn, hmay⟩ := hs
    show (reserveEmpty intended par o n m = .error .abort ∧ _) ∨ ∃ m', reserveEmpty intended par o n m = .ok m' ∧ _
    unfold reserveEmpty
    simp only [ho]
    rcases atLeast_spec intended par h ho hn hmay hroom with ⟨h1, h2⟩ | ⟨m', e1, ⟨h1, r', a1, h3, h2⟩, f1⟩
    · exact .inl ⟨h1, fun hx => h2 ⟨hx.1, hx.2 r ho⟩⟩
    · refine .inr ⟨m', e1, ⟨h1, fun q hq => ?_⟩, f1⟩
      rw [a1] at hq
      obtain rfl := Option.some.inj hq
      rw [h3]; exact h2
  | reserve o n =>
    obtain ⟨r, ho, hn⟩ := hs
    right
    refine ⟨m, ?_, ⟨rfl, fun q hq => ?_⟩, h, Keep.refl _ _, fun _ _ _ => rfl⟩
    · show reserve intended par o n m = _
      unfold reserve
      simp only [ho]
      rw [if_neg (by omega)]
    · rw [ho] at hq
      obtain rfl := Option.some.inj hq
      exact hn
  | freeArr o =>
    obtain ⟨r, ho, hmay⟩ := hs
    right
    show ∃ m', freeArr intended par o m = .ok m' ∧ _
    unfold freeArr
    simp only [ho]
    obtain ⟨hw, hsz, -⟩ := h.arrs o r ho (by simp)
    by_cases hd : r.data = none
    · rw [if_pos hd]
      refine ⟨m, rfl, fun w l hv => ?_, h, Keep.refl _ _, fun _ _ _ => rfl⟩
      rcases h.holdsAt ho (by simp) with ⟨-, -, g3⟩ | ⟨a, g1, -⟩
      · obtain ⟨rfl, hl⟩ := view_inv ho hv
        have : r.size = 0 := by omega
        rw [this, Nat.mul_zero, read_zero] at hl
        rw [hv, Except.ok.inj hl]
      · rw [hd] at g1; exact absurd g1 (by simp)
    · rw [if_neg hd]
      obtain ⟨m1, d, e1, i1, k1, a1, p1⟩ := freed_spec intended par h ho (hmay hd) hroom
      simp only [e1, a1]
      refine ⟨_, rfl, fun w l hv => ?_, (i1.setArr _).close_empty (fun s hs => hs) fun q hq => ?_, k1.setArr _, fun hp p hpo => ?_⟩
      · obtain ⟨rfl, -⟩ := view_inv ho hv
        have hz : read (β := β) none (r.width * 0) (setArr o { r with capacityOrg := r.capacity, capacity := 0, size := 0, data := none, id := -1 } m1) = .ok [] := by rw [Nat.mul_zero, read_zero]
        exact view_of (r := { r with capacityOrg := r.capacity, capacity := 0, size := 0, data := none, id := -1 }) (Function.update_self _ _ _) hz
      · rw [show (setArr o _ m1).arr o = some _ from Function.update_self _ _ _] at hq
        obtain rfl := Option.some.inj hq
        exact ⟨hw, rfl, rfl, rfl, rfl⟩
      · exact (Function.update_of_ne hpo _ _).trans (p1 hp p hpo)
  | destroy o =>
    obtain ⟨r, ho, hmay⟩ := hs
    right
    show ∃ m', destroy intended par o m = .ok m' ∧ _
    unfold destroy
    simp only [ho]
    obtain ⟨m1, d, e1, i1, k1, a1, p1⟩ := freed_spec intended par h ho hmay hroom
    simp only [e1]
    refine ⟨_, rfl, ?_, i1.remove (fun s hs => hs), k1.trans (Keep.of_others (fun p hp => Function.update_of_ne hp _ _) rfl), fun hp p hpo => ?_⟩
    · show view { m1 with arr := Function.update m1.arr o none } o = none
      unfold view
      simp only [Function.update_self]
    · exact (Function.update_of_ne hpo _ _).trans (p1 hp p hpo)

theorem Reach.ok {intended : Bool} {cap : ℕ} {m : M β} (h : Reach intended cap m) : Ok m := by
  induction h with
  | start => exact initial_ok cap
  | @call m m' par op _ hs he ih =>
    rcases step_spec intended par ih op hs with ⟨h1, -⟩ | ⟨m2, h1, -, h3⟩
    · rw [h1] at he; exact absurd he (by simp)
    · rw [h1] at he
      obtain rfl := Except.ok.inj he
      exact h3.1

theorem Inv.placed {m : M β} (h : Ok m) : Placed m := by
  refine ⟨fun o r ho => ⟨(h.arrs o r ho (by simp)).2.1, fun hd => ?_, h.view_some ho⟩, ?_, ?_⟩
  · rcases h.holdsAt ho (by simp) with ⟨-, -, g3⟩ | ⟨a, g1, -⟩
    · exact g3
    · rw [hd] at g1; exact absurd g1 (by simp)
  · rintro o b lo hi ⟨r, ho, hd, rfl⟩
    rcases h.place ho (by simp) with ⟨h1, -⟩ | ⟨b', lo', l, q0, q1, q2, -⟩
    · rw [hd] at h1; exact absurd h1 (by simp)
    · rw [hd] at q0
      have := Option.some.inj q0
      obtain ⟨rfl, rfl⟩ : b = b' ∧ lo = lo' := ⟨congrArg Prod.fst this, congrArg Prod.snd this⟩
      exact ⟨l, q1, q2⟩
  · rintro o p b lo hi lo' hi' hop ⟨r, ho, hd, rfl⟩ ⟨q, hp, hq, rfl⟩
    exact h.apart ho hp (by simp) (by simp) hop hd hq

end Verif.MemPool
