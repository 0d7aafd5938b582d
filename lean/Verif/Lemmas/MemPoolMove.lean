import Verif.Lemmas.MemPool
/-! `reInitialize` and `unifyMem` keep the arrays. -/
namespace Verif.MemPool

variable {β : Type}

theorem relocate_spec (b : ℕ) : ∀ (k i cum : ℕ) (m : M β), i + k ≤ limit → cum = off m.capSeg i →
    (∀ j, i ≤ j → j < i + k → m.usedSeg j = true → ∃ o r, m.ptrSeg j = some o ∧ m.arr o = some r) →
    ∃ A, relocate b k i cum m = .ok { m with arr := A } ∧ ∀ o, (m.arr o = none → A o = none) ∧
      ∀ r, m.arr o = some r → ∃ d, A o = some { r with data := d } ∧
        ((∀ j, i ≤ j → j < i + k → m.usedSeg j = true → m.ptrSeg j ≠ some o) → d = r.data) ∧
        (∀ j, i ≤ j → j < i + k → m.usedSeg j = true → m.ptrSeg j = some o →
          (∀ j', i ≤ j' → j' < i + k → m.usedSeg j' = true → m.ptrSeg j' = some o → j' = j) → d = some (b, off m.capSeg j)) := by
  intro k
  induction k with
  | zero =>
    intro i cum m _ _ _
    exact ⟨m.arr, rfl, fun o => ⟨id, fun r hr => ⟨r.data, hr, fun _ => rfl, fun j h1 h2 => by omega⟩⟩⟩
  | succ k ih =>
    intro i cum m hl hc hp
    unfold relocate
    rw [if_neg (by omega)]
    by_cases hu : m.usedSeg i = true
    · obtain ⟨o, r, ho, hr⟩ := hp i le_rfl (by omega) hu
      rw [if_pos hu]
      simp only [ptrWrite, ho, hr]
      obtain ⟨A, hA, h⟩ := ih (i + 1) (cum + m.capSeg i) { m with arr := Function.update m.arr o (some { r with data := some (b, cum) }) } (by omega)
        (by show _ = off m.capSeg (i + 1); simp only [off]; omega)
        (by
          intro j h1 h2 hj
          obtain ⟨o', r', ho', hr'⟩ := hp j (by omega) (by omega) hj
          by_cases hoo : o' = o
          · exact ⟨o', _, ho', by rw [hoo]; exact Function.update_self _ _ _⟩
          · exact ⟨o', r', ho', by show Function.update _ _ _ _ = _; rw [Function.update_of_ne hoo]; exact hr'⟩)
      refine ⟨A, hA, fun o' => ?_⟩
      obtain ⟨h1, h2⟩ := h o'
      by_cases hoo : o' = o
      · subst hoo
        refine ⟨fun hn => by rw [hr] at hn; exact absurd hn (by simp), fun r' hr' => ?_⟩
        obtain rfl : r = r' := by rw [hr] at hr'; exact Option.some.inj hr'
        obtain ⟨d, hd, h3, h4⟩ := h2 _ (Function.update_self _ _ _)
        refine ⟨d, hd, fun hno => absurd ho (hno i le_rfl (by omega) hu), fun j hj1 hj2 hj3 hj4 huniq => ?_⟩
        by_cases hji : j = i
        · subst hji
          rw [h3 fun j' a1 a2 a3 a4 => by have := huniq j' (by omega) (by omega) a3 a4; omega, hc]
        · exact absurd (huniq i le_rfl (by omega) hu ho) (by omega)
      · have e : (Function.update m.arr o (some { r with data := some (b, cum) })) o' = m.arr o' := Function.update_of_ne hoo _ _
        refine ⟨fun hn => h1 (e.trans hn), fun r' hr' => ?_⟩
        obtain ⟨d, hd, h3, h4⟩ := h2 r' (e.trans hr')
        refine ⟨d, hd, fun hno => h3 fun j a1 a2 => hno j (by omega) (by omega), fun j hj1 hj2 hj3 hj4 huniq => ?_⟩
        have hji : j ≠ i := by
          rintro rfl
          rw [ho] at hj4
          exact hoo (Option.some.inj hj4).symm
        exact h4 j (by omega) (by omega) hj3 hj4 fun j' a1 a2 => huniq j' (by omega) (by omega)
    · rw [if_neg hu]
      obtain ⟨A, hA, h⟩ := ih (i + 1) (cum + m.capSeg i) m (by omega) (by simp only [off]; omega) (fun j h1 h2 => hp j (by omega) (by omega))
      refine ⟨A, hA, fun o' => ⟨(h o').1, fun r' hr' => ?_⟩⟩
      obtain ⟨d, hd, h3, h4⟩ := (h o').2 r' hr'
      refine ⟨d, hd, fun hno => h3 fun j a1 a2 => hno j (by omega) (by omega), fun j hj1 hj2 hj3 hj4 huniq => ?_⟩
      have hji : j ≠ i := by rintro rfl; exact hu hj3
      exact h4 j (by omega) (by omega) hj3 hj4 fun j' a1 a2 => huniq j' (by omega) (by omega)

/-- Two segments in use of the same array that is in order are one. -/
theorem Inv.seg_unique {x : Option ℕ} {S : ℤ → Prop} {m : M β} (h : Inv x S m) {i j o : ℕ} (hi : m.usedSeg i = true) (hj : m.usedSeg j = true)
    (pi : m.ptrSeg i = some o) (pj : m.ptrSeg j = some o) (hx : some o ≠ x) : i = j := by
  obtain ⟨o1, r1, p1, a1, h1⟩ := h.seg i hi
  obtain ⟨o2, r2, p2, a2, h2⟩ := h.seg j hj
  obtain rfl : o = o1 := by rw [pi] at p1; exact Option.some.inj p1
  obtain rfl : o = o2 := by rw [pj] at p2; exact Option.some.inj p2
  obtain rfl : r1 = r2 := by rw [a1] at a2; exact Option.some.inj a2
  rcases h1 with ⟨h1, -⟩ | ⟨-, h1, -⟩
  · exact absurd h1 hx
  rcases h2 with ⟨h2, -⟩ | ⟨-, h2, -⟩
  · exact absurd h2 hx
  omega

theorem reInitialize_spec {x : Option ℕ} {S : ℤ → Prop} {m : M β} (h : Inv x S m) (a : ℕ) :
    ∃ m', reInitialize a m = .ok m' ∧ Inv x S m' ∧ Keep x m m' ∧ m'.size = m.size ∧ m'.nseg = m.nseg ∧ m'.capSeg = m.capSeg ∧ m'.usedSeg = m.usedSeg ∧
      m'.ptrSeg = m.ptrSeg ∧ m'.emerg = m.emerg ∧ m.cap + a ≤ m'.cap ∧ (∀ o r, m.arr o = some r → ∃ d, m'.arr o = some { r with data := d }) := by
  obtain ⟨l, hl, hlen⟩ := h.bot
  have hfb : m.fresh ≠ m.bottom := by
    intro e
    have := h.fresh m.bottom (by omega)
    rw [hl] at this; exact absurd this (by simp)
  have hal : m.cap ≤ align (m.cap + a) := le_trans (by omega) (align_le _)
  set m2 : M β := { malloc (align (m.cap + a)) m with bottom := m.fresh, cap := align (m.cap + a) } with hm2
  have h2b : m2.heap m.bottom = some l := by
    show Function.update _ _ _ _ = _
    rw [Function.update_of_ne (Ne.symm hfb)]; exact hl
  have h2f : m2.heap m.fresh = some (List.replicate (align (m.cap + a)) none) := Function.update_self _ _ _
  have hread : read (some (m.bottom, 0)) m.cap m2 = .ok l := by
    rw [read_block m2 m.bottom 0 m.cap l h2b (by omega)]
    rw [List.drop_zero, List.take_of_length_le (by omega)]
  have hwrite := write_block m2 m.fresh 0 l _ h2f (by rw [List.length_replicate]; omega)
  set L := splice (List.replicate (align (m.cap + a)) (none : Option β)) 0 l with hL
  have hLlen : L.length = align (m.cap + a) := by
    rw [hL, splice_length _ _ _ (by rw [List.length_replicate]; omega), List.length_replicate]
  set m3 : M β := { m2 with heap := Function.update m2.heap m.fresh (some L) } with hm3
  obtain ⟨A, hA, hAs⟩ := relocate_spec m.fresh m.nseg 0 0 m3 (by have := h.lim; omega) rfl (by
    intro j _ _ hj
    obtain ⟨o, r, h1, h2, -⟩ := h.seg j hj
    exact ⟨o, r, h1, h2⟩)
  have h3b : m3.heap m.bottom = some l := by
    show Function.update _ _ _ _ = _
    rw [Function.update_of_ne (Ne.symm hfb)]; exact h2b
  have h3f : m3.heap m.fresh = some L := Function.update_self _ _ _
  -- heap at the end
  have hheap : ∀ b, b ≠ m.bottom → b ≠ m.fresh → (Function.update m3.heap m.bottom none) b = m.heap b := by
    intro b h1 h2
    rw [Function.update_of_ne h1]
    show Function.update _ _ _ _ = _
    rw [Function.update_of_ne h2]
    show Function.update _ _ _ _ = _
    rw [Function.update_of_ne h2]
  have hheapf : (Function.update m3.heap m.bottom none) m.fresh = some L := by rw [Function.update_of_ne hfb]; exact h3f
  refine ⟨{ m3 with arr := A, heap := Function.update m3.heap m.bottom none }, ?_, ?_, ?_, rfl, rfl, rfl, rfl, rfl, rfl, ?_, ?_⟩
  · show (match read (some (m.bottom, 0)) m.cap m2 with
      | .error e => Except.error e
      | .ok v =>
        match write (some (m.fresh, 0)) v m2 with
        | .error e => Except.error e
        | .ok m3 =>
          match relocate m.fresh m.nseg 0 0 m3 with
          | .error e => Except.error e
          | .ok m4 => free m.bottom m4) = _
    simp only [hread, hwrite, hA, ← hL, ← hm3]
    simp only [free, h3b]
  · -- invariant
    have hlast : ∀ o r, m.arr o = some r → some o ≠ x → ∀ i, m.usedSeg i = true → m.ptrSeg i = some o → A o = some { r with data := some (m.fresh, off m.capSeg i) } := by
      intro o r ho hx i hu hp
      obtain ⟨d, hd, -, h2⟩ := (hAs o).2 r ho
      rw [hd, h2 i (by omega) (by have := h.used_lt hu; omega) hu hp fun j' _ _ a3 a4 => h.seg_unique a3 hu a4 hp hx]; rfl
    have hnot : ∀ o r, m.arr o = some r → (∀ i, m.usedSeg i = true → m.ptrSeg i ≠ some o) → A o = some r := by
      intro o r ho hno
      obtain ⟨d, hd, h1, -⟩ := (hAs o).2 r ho
      rw [hd, h1 fun j _ _ hj => hno j hj]
    refine ⟨⟨L, hheapf, hLlen⟩, h.top, h.size, le_trans h.cap hal, h.lim, h.pos, h.zero, ?_, ?_, h.emc, h.emd, ?_, ?_⟩
    · intro i hi
      obtain ⟨o, r, hp, ho, h1⟩ := h.seg i hi
      rcases h1 with ⟨h1, h2⟩ | ⟨h1, h2, h3⟩
      · obtain ⟨d, hd, -⟩ := (hAs o).2 r ho
        exact ⟨o, _, hp, hd, .inl ⟨h1, h2⟩⟩
      · exact ⟨o, _, hp, hlast o r ho h1 i hi hp, .inr ⟨h1, h2, rfl⟩⟩
    · intro k e he
      obtain ⟨⟨l', hl', hlen'⟩, hne, h1⟩ := h.em k e he
      have hnf : e.data ≠ m.fresh := by
        intro hc
        have := h.fresh e.data (by omega)
        rw [hl'] at this; exact absurd this (by simp)
      refine ⟨⟨l', (hheap _ hne hnf).trans hl', hlen'⟩, hnf, fun hu => ?_⟩
      obtain ⟨r, ho, h2⟩ := h1 hu
      rcases h2 with ⟨h2, h3⟩ | ⟨h2, h3, h4⟩
      · obtain ⟨d, hd, -⟩ := (hAs e.owner).2 r ho
        exact ⟨_, hd, .inl ⟨h2, h3⟩⟩
      · refine ⟨r, hnot e.owner r ho (fun i hu' hp' => ?_), .inr ⟨h2, h3, h4⟩⟩
        obtain ⟨o', r', p', a', h5⟩ := h.seg i hu'
        obtain rfl : e.owner = o' := by rw [hp'] at p'; exact Option.some.inj p'
        obtain rfl : r = r' := by rw [ho] at a'; exact Option.some.inj a'
        rcases h5 with ⟨h5, -⟩ | ⟨-, h5, -⟩
        · exact absurd h5 h2
        · have := h.used_lt hu'; have := h.lim; omega
    · intro b hb
      have hb' : m.fresh + 1 ≤ b := hb
      have hbb : b ≠ m.bottom := by
        rintro rfl
        have := h.fresh m.bottom (by omega)
        rw [hl] at this; exact absurd this (by simp)
      exact (hheap b hbb (by omega)).trans (h.fresh b (by omega))
    · intro o r' ho' hx
      have ho'' : A o = some r' := ho'
      cases ho : m.arr o with
      | none => rw [(hAs o).1 ho] at ho''; exact absurd ho'' (by simp)
      | some r =>
        obtain ⟨d, hd, h1, -⟩ := (hAs o).2 r ho
        rw [hd] at ho''
        obtain rfl := Option.some.inj ho''
        obtain ⟨g1, g2, g3⟩ := h.arrs o r ho hx
        refine ⟨g1, g2, ?_⟩
        rcases g3 with ⟨g3, g4, g5⟩ | g3
        · left
          refine ⟨?_, g4, g5⟩
          show d = none
          rw [h1 fun j _ _ hj hp => ?_, g3]
          obtain ⟨o', r', p', a', h5⟩ := h.seg j hj
          have hp2 : m.ptrSeg j = some o := hp
          obtain rfl : o = o' := by rw [hp2] at p'; exact Option.some.inj p'
          obtain rfl : r = r' := by rw [ho] at a'; exact Option.some.inj a'
          rcases h5 with ⟨h5, -⟩ | ⟨-, h5, -⟩
          · exact hx h5
          · omega
        · right; exact g3
  · -- contents
    intro p hx
    refine ⟨(hAs p).1, fun r hr => ?_⟩
    obtain ⟨d, hd, h1, h2⟩ := (hAs p).2 r hr
    have hsz := (h.arrs p r hr hx).2.1
    have hmul : r.width * r.size ≤ r.width * r.capacity := Nat.mul_le_mul_left _ hsz
    refine ⟨d, r.id, hd, ?_⟩
    rcases h.place hr hx with ⟨p1, p2, p3⟩ | ⟨b, lo, l', hd', hb, hle, h3⟩
    · have hz : r.size = 0 := by omega
      refine ⟨by rw [hz, Nat.mul_zero, read_zero, read_zero], fun hdn => ?_⟩
      rw [h1 fun j _ _ hj hp => ?_, p1]
      obtain ⟨o', r', p', a', h5⟩ := h.seg j hj
      have hp2 : m.ptrSeg j = some p := hp
      obtain rfl : p = o' := by rw [hp2] at p'; exact Option.some.inj p'
      obtain rfl : r = r' := by rw [hr] at a'; exact Option.some.inj a'
      rcases h5 with ⟨h5, -⟩ | ⟨-, h5, -⟩
      · exact hx h5
      · omega
    · refine ⟨?_, fun hdn => by rw [hd'] at hdn; exact absurd hdn (by simp)⟩
      rcases h3 with ⟨i, q1, q2, q3, q4, q5, q6, q7⟩ | ⟨k, e, q1, q2, q3, q4, q5, q6, q7⟩
      · have hdd : d = some (m.fresh, off m.capSeg i) := h2 i (by omega) (by omega) q3 q4 fun j' _ _ a3 a4 => h.seg_unique a3 q3 a4 q4 hx
        have hlb : l' = l := by rw [q5, hl] at hb; exact (Option.some.inj hb).symm
        subst hlb
        rw [hdd, hd', read_block _ _ _ _ L hheapf (by omega), q5, q6, read_block m _ _ _ l' hl (by omega)]
        congr 1
        apply List.ext_getElem?
        intro t
        rw [slice_get, slice_get]
        by_cases ht : t < r.width * r.size
        · rw [if_pos ht, if_pos ht, hL, splice_get _ _ _ _ (by rw [List.length_replicate]; omega), if_pos (by omega), Nat.sub_zero]
        · rw [if_neg ht, if_neg ht]
      · have hdd : d = r.data := by
          apply h1
          intro j _ _ hj hp
          obtain ⟨o', r', p', a', h5⟩ := h.seg j hj
          have hp2 : m.ptrSeg j = some p := hp
          obtain rfl : p = o' := by rw [hp2] at p'; exact Option.some.inj p'
          obtain rfl : r = r' := by rw [hr] at a'; exact Option.some.inj a'
          rcases h5 with ⟨h5, -⟩ | ⟨-, h5, -⟩
          · exact hx h5
          · have := h.used_lt hj; have := h.lim; omega
        obtain ⟨-, hne, -⟩ := h.em k e q2
        have hnf : b ≠ m.fresh := by
          intro hc
          have := h.fresh b (by omega)
          rw [hb] at this; exact absurd this (by simp)
        rw [hdd, hd', read_block m b lo _ l' hb (by omega), read_block _ b lo _ l' ((hheap b (by rw [q5]; exact hne) hnf).trans hb) (by omega)]
  · exact align_le _
  · intro o r ho
    obtain ⟨d, hd, -⟩ := (hAs o).2 r ho
    exact ⟨d, hd⟩

theorem moveOne_spec {x : Option ℕ} {S : ℤ → Prop} {m : M β} {L : List Emerg} {K : ℕ} {e : Emerg} (h : Inv x S { m with emerg := L }) (hK : L[K]? = some e)
    (hu : e.used = true) (hx : some e.owner ≠ x) (hcap : m.size + e.cap ≤ m.cap) (hlim : m.nseg < limit) :
    ∃ m', moveOne m e = .ok m' ∧ Inv x S { m' with emerg := L.set K { e with used := false } } ∧ Keep x m m' ∧ m'.size = m.size + e.cap ∧ m'.cap = m.cap ∧
      m'.nseg = m.nseg + 1 ∧ (∀ o, some o = x → m'.arr o = m.arr o) ∧ (∀ i, i < m.nseg → m'.usedSeg i = m.usedSeg i ∧ m'.ptrSeg i = m.ptrSeg i) := by
  obtain ⟨l, hl, hlen⟩ := h.bot
  obtain ⟨⟨le, hle, hlene⟩, hne, h1⟩ := h.em K e hK
  obtain ⟨r, ho, h1⟩ := h1 hu
  rcases h1 with ⟨h1, -⟩ | ⟨-, hid, hdata⟩
  · exact absurd h1 hx
  have hl : m.heap m.bottom = some l := hl
  have hle : m.heap e.data = some le := hle
  have ho : m.arr e.owner = some r := ho
  have hlen : l.length = m.cap := hlen
  have htop : m.top = m.size := h.top
  have hsize : m.size = off m.capSeg m.nseg := h.size
  have hne : e.data ≠ m.bottom := hne
  have hid : r.id = (limit + K : ℕ) := hid
  have hpos : 0 < e.cap := h.emc K e hK
  have hlenK : K < L.length := by
    by_contra hc
    rw [List.getElem?_eq_none (by omega)] at hK; exact absurd hK (by simp)
  set r' : Arr := { r with data := some (m.bottom, m.top), id := m.nseg } with hr'
  set m' : M β := { m with
        top := m.top + e.cap, size := m.size + e.cap, nseg := m.nseg + 1
        capSeg := Function.update m.capSeg m.nseg e.cap
        usedSeg := Function.update m.usedSeg m.nseg true
        ptrSeg := Function.update m.ptrSeg m.nseg (some e.owner)
        heap := Function.update m.heap m.bottom (some (splice l m.top le))
        arr := Function.update m.arr e.owner (some r') } with hm'
  -- segments in use are of other arrays
  have hother : ∀ i o, m.usedSeg i = true → m.ptrSeg i = some o → o ≠ e.owner := by
    intro i o hi hp
    rintro rfl
    obtain ⟨o', r2, p2, a2, h2⟩ := h.seg i hi
    have p2 : m.ptrSeg i = some o' := p2
    obtain rfl : e.owner = o' := by rw [hp] at p2; exact Option.some.inj p2
    have a2 : m.arr e.owner = some r2 := a2
    obtain rfl : r = r2 := by rw [ho] at a2; exact Option.some.inj a2
    rcases h2 with ⟨h2, -⟩ | ⟨-, h2, -⟩
    · exact hx h2
    · have := h.used_lt hi
      have h3 : i < m.nseg := this
      omega
  have hotherE : ∀ k e', L[k]? = some e' → k ≠ K → e'.used = true → e'.owner ≠ e.owner := by
    intro k e' he' hk hu' hc
    obtain ⟨-, -, h2⟩ := h.em k e' he'
    obtain ⟨r2, a2, h2⟩ := h2 hu'
    have a2 : m.arr e'.owner = some r2 := a2
    rw [hc] at a2 h2
    obtain rfl : r = r2 := by rw [ho] at a2; exact Option.some.inj a2
    rcases h2 with ⟨h2, -⟩ | ⟨-, h2, -⟩
    · exact hx h2
    · omega
  have hheap : ∀ b, b ≠ m.bottom → m'.heap b = m.heap b := fun b hb => Function.update_of_ne hb _ _
  have hheapb : m'.heap m.bottom = some (splice l m.top le) := Function.update_self _ _ _
  have hsl : (splice l m.top le).length = m.cap := by rw [splice_length _ _ _ (by omega), hlen]
  have harr : ∀ o, o ≠ e.owner → m'.arr o = m.arr o := fun o hne => Function.update_of_ne hne _ _
  have harro : m'.arr e.owner = some r' := Function.update_self _ _ _
  have husedn : ∀ i, i ≠ m.nseg → m'.usedSeg i = m.usedSeg i := fun i hi => Function.update_of_ne hi _ _
  have hptrn : ∀ i, i ≠ m.nseg → m'.ptrSeg i = m.ptrSeg i := fun i hi => Function.update_of_ne hi _ _
  have hcapn : ∀ i, i ≠ m.nseg → m'.capSeg i = m.capSeg i := fun i hi => Function.update_of_ne hi _ _
  have hcapnn : m'.capSeg m.nseg = e.cap := Function.update_self _ _ _
  have hoff : ∀ i, i ≤ m.nseg → off m'.capSeg i = off m.capSeg i := fun i hi => off_update _ _ _ _ hi
  refine ⟨m', ?_, ?_, ?_, rfl, rfl, rfl, fun o hox => harr o (by rintro rfl; exact hx hox),
    fun i hi => ⟨husedn i (by omega), hptrn i (by omega)⟩⟩
  · unfold moveOne
    rw [if_pos hu, if_neg (by omega)]
    have e1 : read (some (e.data, 0)) e.cap ({ m with
        top := m.top + e.cap, size := m.size + e.cap, nseg := m.nseg + 1
        capSeg := Function.update m.capSeg m.nseg e.cap
        usedSeg := Function.update m.usedSeg m.nseg true
        ptrSeg := Function.update m.ptrSeg m.nseg (some e.owner) } : M β) = .ok le := by
      rw [read_block (_ : M β) e.data 0 e.cap le (by exact hle) (by omega), List.drop_zero, List.take_of_length_le (by omega)]
    have e2 := write_block ({ m with
        top := m.top + e.cap, size := m.size + e.cap, nseg := m.nseg + 1
        capSeg := Function.update m.capSeg m.nseg e.cap
        usedSeg := Function.update m.usedSeg m.nseg true
        ptrSeg := Function.update m.ptrSeg m.nseg (some e.owner) } : M β) m.bottom m.top le l hl (by omega)
    simp only [e1, e2, ptrWrite, ho, idWrite, Function.update_self, Function.update_idem]
    rfl
  · refine ⟨⟨_, hheapb, hsl⟩, ?_, ?_, hcap, (by show m.nseg + 1 ≤ limit; omega), ?_, ?_, ?_, ?_, ?_, ?_, ?_, ?_⟩
    · show m.top + e.cap = m.size + e.cap; omega
    · show m.size + e.cap = off m'.capSeg (m.nseg + 1)
      simp only [off]
      rw [hoff _ le_rfl, ← hsize]
      rw [hcapnn]
    · intro i hi
      have hi : i < m.nseg + 1 := hi
      show 0 < m'.capSeg i
      by_cases hin : i = m.nseg
      · subst hin; rw [hcapnn]; exact hpos
      · rw [hcapn i hin]; exact h.pos i (by show i < m.nseg; omega)
    · intro i hi
      have hi : m.nseg + 1 ≤ i := hi
      show m'.capSeg i = 0 ∧ m'.usedSeg i = false
      rw [hcapn i (by omega), husedn i (by omega)]
      exact h.zero i (by show m.nseg ≤ i; omega)
    · intro i hi
      have hi : m'.usedSeg i = true := hi
      show ∃ o r, m'.ptrSeg i = some o ∧ m'.arr o = some r ∧ ((some o = x ∧ S i) ∨ (some o ≠ x ∧ r.id = i ∧ r.data = some (m.bottom, off m'.capSeg i)))
      by_cases hin : i = m.nseg
      · subst hin
        exact ⟨e.owner, r', Function.update_self _ _ _, harro, .inr ⟨hx, rfl, by rw [hoff _ le_rfl, ← hsize, ← htop]⟩⟩
      · rw [husedn i hin] at hi
        have hlt : i < m.nseg := h.used_lt hi
        obtain ⟨o, r2, p2, a2, h2⟩ := h.seg i hi
        refine ⟨o, r2, (hptrn i hin).trans p2, (harr o (hother i o hi p2)).trans a2, ?_⟩
        rw [hoff i (by omega)]
        exact h2
    · intro k e' he'
      rw [List.getElem?_set] at he'
      have hcase : k ≠ K ∧ L[k]? = some e' ∨ k = K ∧ e' = { e with used := false } := by
        by_cases hk : K = k
        · rw [if_pos hk, if_pos (by omega)] at he'
          exact .inr ⟨hk.symm, (Option.some.inj he').symm⟩
        · rw [if_neg hk] at he'
          exact .inl ⟨fun hc => hk hc.symm, he'⟩
      rcases hcase with ⟨hk, he'⟩ | ⟨rfl, rfl⟩
      · obtain ⟨⟨l2, hl2, hlen2⟩, hne2, h2⟩ := h.em k e' he'
        refine ⟨⟨l2, (hheap _ hne2).trans hl2, hlen2⟩, hne2, fun hu' => ?_⟩
        obtain ⟨r2, a2, h2⟩ := h2 hu'
        exact ⟨r2, (harr _ (hotherE k e' he' hk hu')).trans a2, h2⟩
      · exact ⟨⟨le, (hheap _ hne).trans hle, hlene⟩, hne, fun hu' => absurd hu' (by simp)⟩
    · intro k e' he'
      rw [List.getElem?_set] at he'
      by_cases hk : K = k
      · rw [if_pos hk, if_pos (by omega)] at he'
        obtain rfl := Option.some.inj he'
        exact hpos
      · rw [if_neg hk] at he'
        exact h.emc k e' he'
    · have : (L.set K { e with used := false }).map Emerg.data = L.map Emerg.data := by
        apply List.ext_getElem?
        intro k
        rw [List.getElem?_map, List.getElem?_map, List.getElem?_set]
        by_cases hk : K = k
        · subst hk; rw [if_pos rfl, if_pos hlenK, hK]; rfl
        · rw [if_neg hk]
      show ((L.set K { e with used := false }).map Emerg.data).Nodup
      rw [this]; exact h.emd
    · intro b hb
      have hb : m.fresh ≤ b := hb
      have hz := h.fresh b hb
      have hbb : b ≠ m.bottom := by
        rintro rfl
        have hz : m.heap m.bottom = none := hz
        rw [hl] at hz; exact absurd hz (by simp)
      exact (hheap b hbb).trans hz
    · intro o r2 ho2 hox
      have ho2 : m'.arr o = some r2 := ho2
      by_cases hoo : o = e.owner
      · subst hoo
        rw [harro] at ho2
        obtain rfl := Option.some.inj ho2
        obtain ⟨g1, g2, g3⟩ := h.arrs e.owner r ho hox
        refine ⟨g1, g2, .inr (.inl ⟨m.nseg, rfl, Function.update_self _ _ _, Function.update_self _ _ _, ?_⟩)⟩
        show r.width * r.capacity ≤ Function.update m.capSeg m.nseg e.cap m.nseg
        rw [Function.update_self]
        rcases g3 with ⟨-, g3, -⟩ | ⟨i, g3, gu, gp, -⟩ | ⟨k, e', g3, g4, -, -, g5⟩
        · omega
        · exact absurd rfl (hother i e.owner gu gp)
        · obtain rfl : k = K := by omega
          have g4 : L[k]? = some e' := g4
          rw [hK] at g4
          obtain rfl := Option.some.inj g4
          exact g5
      · rw [harr o hoo] at ho2
        obtain ⟨g1, g2, g3⟩ := h.arrs o r2 ho2 hox
        refine ⟨g1, g2, ?_⟩
        rcases g3 with g3 | ⟨i, g3, gu, gp, gc⟩ | ⟨k, e', g3, g4, gu, gp, g5⟩
        · exact .inl g3
        · have hlt : i < m.nseg := h.used_lt gu
          refine .inr (.inl ⟨i, g3, ?_, ?_, ?_⟩)
          · show m'.usedSeg i = true; rw [husedn i (by omega)]; exact gu
          · show m'.ptrSeg i = _; rw [hptrn i (by omega)]; exact gp
          · show _ ≤ m'.capSeg i; rw [hcapn i (by omega)]; exact gc
        · have g4 : L[k]? = some e' := g4
          have hk : k ≠ K := by
            rintro rfl
            rw [hK] at g4
            obtain rfl := Option.some.inj g4
            exact hoo gp.symm
          refine .inr (.inr ⟨k, e', g3, ?_, gu, gp, g5⟩)
          show (L.set K _)[k]? = _
          rw [List.getElem?_set, if_neg (Ne.symm hk)]; exact g4
  · intro p hp
    by_cases hpo : p = e.owner
    · subst hpo
      refine ⟨fun hn => by rw [ho] at hn; exact absurd hn (by simp), fun r2 hr2 => ?_⟩
      obtain rfl : r = r2 := by rw [ho] at hr2; exact Option.some.inj hr2
      refine ⟨some (m.bottom, m.top), m.nseg, harro, ?_, fun hn => by rw [hdata] at hn; exact absurd hn (by simp)⟩
      have hg := h.arrs e.owner r ho hx
      have hmul : r.width * r.size ≤ r.width * r.capacity := Nat.mul_le_mul_left _ hg.2.1
      rcases h.place ho hx with ⟨p1, -, -⟩ | ⟨b, lo, l2, q0, q1, q2, -⟩
      · rw [hdata] at p1; exact absurd p1 (by simp)
      · rw [hdata] at q0
        obtain ⟨rfl, rfl⟩ : e.data = b ∧ 0 = lo := by
          have := Option.some.inj q0
          exact ⟨congrArg Prod.fst this, congrArg Prod.snd this⟩
        have q1 : m.heap e.data = some l2 := q1
        obtain rfl : le = l2 := by rw [hle] at q1; exact Option.some.inj q1
        rw [hdata, read_block m _ 0 _ le hle (by omega), read_block m' _ _ _ _ hheapb (by omega), slice_splice_in _ _ _ _ (by omega) (by omega), List.drop_zero]
    · refine ⟨fun hn => (harr p hpo).trans hn, fun r2 hr2 => ⟨r2.data, r2.id, (harr p hpo).trans hr2, ?_, id⟩⟩
      have hg := h.arrs p r2 hr2 hp
      have hmul : r2.width * r2.size ≤ r2.width * r2.capacity := Nat.mul_le_mul_left _ hg.2.1
      rcases h.place hr2 hp with ⟨p1, p2, p3⟩ | ⟨b, lo, l2, q0, q1, q2, q3⟩
      · have : r2.size = 0 := by have := hg.2.1; omega
        rw [this, Nat.mul_zero, read_zero, read_zero]
      · have q1 : m.heap b = some l2 := q1
        rcases q3 with ⟨i, -, s1, s2, s3, s4, s5, s6⟩ | ⟨k, e', -, s2, -, -, s4, -, -⟩
        · have s4 : b = m.bottom := s4
          subst s4
          obtain rfl : l = l2 := by rw [hl] at q1; exact Option.some.inj q1
          have s1 : i < m.nseg := s1
          have s5 : lo = off m.capSeg i := s5
          have s6 : r2.width * r2.capacity ≤ m.capSeg i := s6
          have := off_lt m.capSeg s1
          rw [q0, read_block m _ _ _ l hl (by omega), read_block m' _ _ _ _ hheapb (by omega), slice_splice_out _ _ _ _ _ (by omega) (by omega)]
        · obtain ⟨-, hne2, -⟩ := h.em k e' s2
          rw [q0, read_block m _ _ _ l2 q1 (by omega), read_block m' _ _ _ l2 ((hheap b (by rw [s4]; exact hne2)).trans q1) (by omega)]

theorem moveAll_spec {x : Option ℕ} {S : ℤ → Prop} : ∀ (es : List Emerg) (K : ℕ) (L : List Emerg) (m : M β), Inv x S { m with emerg := L } → L.drop K = es →
    (∀ j e, L[j]? = some e → j < K → e.used = false) → (∀ e ∈ es, e.used = true → some e.owner ≠ x) → m.size + sizeAdd es ≤ m.cap →
    m.nseg + (es.filter fun e => e.used).length ≤ limit →
    ∃ m' L', moveAll es m = .ok m' ∧ Inv x S { m' with emerg := L' } ∧ (∀ (j : ℕ) (e : Emerg), L'[j]? = some e → e.used = false) ∧ L'.map Emerg.data = L.map Emerg.data ∧ Keep x m m' ∧
      m'.nseg = m.nseg + (es.filter fun e => e.used).length ∧ (∀ o, some o = x → m'.arr o = m.arr o) ∧ (∀ i, i < m.nseg → m'.usedSeg i = m.usedSeg i ∧ m'.ptrSeg i = m.ptrSeg i) := by
  intro es
  induction es with
  | nil =>
    intro K L m h hd hK _ _ _
    refine ⟨m, L, rfl, h, fun j e he => ?_, rfl, Keep.refl _ _, rfl, fun _ _ => rfl, fun _ _ => ⟨rfl, rfl⟩⟩
    refine hK j e he ?_
    have h1 := List.drop_eq_nil_iff.mp hd
    have h2 : j < L.length := by
      by_contra hc
      rw [List.getElem?_eq_none (by omega)] at he; exact absurd he (by simp)
    omega
  | cons e es ih =>
    intro K L m h hd hK hx hcap hlim
    have hLK : L[K]? = some e := by
      have := congrArg (fun l => l[0]?) hd
      simpa [List.getElem?_drop] using this
    have hd' : L.drop (K + 1) = es := by
      have := congrArg List.tail hd
      simpa [List.tail_drop] using this
    by_cases hu : e.used = true
    · have hsa : sizeAdd (e :: es) = e.cap + sizeAdd es := by simp [sizeAdd, hu]
      have hfl : ((e :: es).filter fun e => e.used).length = (es.filter fun e => e.used).length + 1 := by simp [hu]
      obtain ⟨m1, h1, i1, k1, s1, c1, n1, a1, g1⟩ := moveOne_spec h hLK hu (hx e (List.mem_cons_self ..) hu) (by omega) (by omega)
      have hLlen : K < L.length := by
        by_contra hc
        rw [List.getElem?_eq_none (by omega)] at hLK; exact absurd hLK (by simp)
      obtain ⟨m2, L2, h2, i2, u2, d2, k2, n2, a2, g2⟩ := ih (K + 1) (L.set K { e with used := false }) m1 i1
        (by rw [List.drop_set_of_lt (by omega), hd'])
        (by
          intro j e' he' hj
          rw [List.getElem?_set] at he'
          by_cases hjk : K = j
          · rw [if_pos hjk, if_pos (by omega)] at he'
            obtain rfl := Option.some.inj he'; rfl
          · rw [if_neg hjk] at he'
            exact hK j e' he' (by omega))
        (fun e' he' => hx e' (List.mem_cons_of_mem _ he')) (by omega) (by omega)
      refine ⟨m2, L2, ?_, i2, u2, ?_, k1.trans k2, by omega, fun o ho => (a2 o ho).trans (a1 o ho), fun i hi => ?_⟩
      · unfold moveAll; simp only [h1]; exact h2
      · rw [d2]
        apply List.ext_getElem?
        intro k
        rw [List.getElem?_map, List.getElem?_map, List.getElem?_set]
        by_cases hk : K = k
        · subst hk; rw [if_pos rfl, if_pos hLlen, hLK]; rfl
        · rw [if_neg hk]
      · have h1 := g1 i hi
        have h2 := g2 i (by omega)
        exact ⟨h2.1.trans h1.1, h2.2.trans h1.2⟩
    · have hu' : e.used = false := by simpa using hu
      have hsa : sizeAdd (e :: es) = sizeAdd es := by simp [sizeAdd, hu']
      have hfl : ((e :: es).filter fun e => e.used).length = (es.filter fun e => e.used).length := by simp [hu']
      obtain ⟨m2, L2, h2, i2, u2, d2, k2, n2, a2, g2⟩ := ih (K + 1) L m h hd'
        (by
          intro j e' he' hj
          by_cases hjk : K = j
          · subst hjk; rw [hLK] at he'; obtain rfl := Option.some.inj he'; exact hu'
          · exact hK j e' he' (by omega))
        (fun e' he' => hx e' (List.mem_cons_of_mem _ he')) (by omega) (by omega)
      refine ⟨m2, L2, ?_, i2, u2, d2, k2, by omega, a2, g2⟩
      unfold moveAll moveOne
      rw [if_neg hu]
      exact h2

theorem freeAll_spec : ∀ (es : List Emerg) (m : M β), (∀ e ∈ es, ∃ l, m.heap e.data = some l) → (es.map Emerg.data).Nodup →
    ∃ H, freeAll es m = .ok { m with heap := H } ∧ (∀ b, b ∉ es.map Emerg.data → H b = m.heap b) ∧ (∀ b, m.heap b = none → H b = none) := by
  intro es
  induction es with
  | nil => intro m _ _; exact ⟨m.heap, rfl, fun _ _ => rfl, fun _ h => h⟩
  | cons e es ih =>
    intro m hl hnd
    rw [List.map_cons, List.nodup_cons] at hnd
    obtain ⟨l, hl0⟩ := hl e (List.mem_cons_self ..)
    obtain ⟨H, h1, h2, h3⟩ := ih { m with heap := Function.update m.heap e.data none }
      (by
        intro e' he'
        obtain ⟨l', hl'⟩ := hl e' (List.mem_cons_of_mem _ he')
        refine ⟨l', ?_⟩
        show Function.update _ _ _ _ = _
        rw [Function.update_of_ne (fun hc => hnd.1 (by rw [← hc]; exact List.mem_map_of_mem he'))]
        exact hl') hnd.2
    refine ⟨H, ?_, fun b hb => ?_, fun b hb => ?_⟩
    · unfold freeAll free; simp only [hl0]; exact h1
    · rw [List.map_cons, List.mem_cons, not_or] at hb
      rw [h2 b hb.2]
      exact Function.update_of_ne hb.1 _ _
    · apply h3
      show Function.update _ _ _ _ = _
      by_cases hbe : b = e.data
      · subst hbe; exact Function.update_self _ _ _
      · rw [Function.update_of_ne hbe]; exact hb

/-- Once all buffers are unused, they can be forgotten. -/
theorem Inv.drop_buffers {x : Option ℕ} {S : ℤ → Prop} {m : M β} {L : List Emerg} (h : Inv x S { m with emerg := L }) (hu : ∀ (j : ℕ) (e : Emerg), L[j]? = some e → e.used = false)
    {H : ℕ → Option (List (Option β))} (h1 : ∀ b, b ∉ L.map Emerg.data → H b = m.heap b) (h2 : ∀ b, m.heap b = none → H b = none) :
    Inv x S { m with emerg := [], heap := H } ∧ Keep x m { m with emerg := [], heap := H } := by
  have hbot : m.bottom ∉ L.map Emerg.data := by
    intro hc
    obtain ⟨e, he, heb⟩ := List.mem_map.mp hc
    obtain ⟨k, hk⟩ := List.mem_iff_getElem?.mp he
    exact (h.em k e hk).2.1 heb
  obtain ⟨l, hl, hlen⟩ := h.bot
  have hl : m.heap m.bottom = some l := hl
  have hHb : H m.bottom = some l := by rw [h1 _ hbot]; exact hl
  constructor
  · refine ⟨⟨l, hHb, hlen⟩, h.top, h.size, h.cap, h.lim, h.pos, h.zero, h.seg, ?_, ?_, List.nodup_nil, fun b hb => h2 b (h.fresh b hb), fun o r ho hx => ?_⟩
    · intro k e he; exact absurd he (by simp)
    · intro k e he; exact absurd he (by simp)
    · obtain ⟨g1, g2, g3⟩ := h.arrs o r ho hx
      refine ⟨g1, g2, ?_⟩
      rcases g3 with g3 | g3 | ⟨k, e, -, g4, g5, -⟩
      · exact .inl g3
      · exact .inr (.inl g3)
      · rw [hu k e g4] at g5; exact absurd g5 (by simp)
  · intro p hp
    refine ⟨id, fun r hr => ⟨r.data, r.id, hr, ?_, id⟩⟩
    have hg := (h.arrs p r hr hp).2.1
    have hmul : r.width * r.size ≤ r.width * r.capacity := Nat.mul_le_mul_left _ hg
    rcases h.place hr hp with ⟨p1, p2, p3⟩ | ⟨b, lo, l2, q0, q1, q2, q3⟩
    · have : r.size = 0 := by omega
      rw [this, Nat.mul_zero, read_zero, read_zero]
    · rcases q3 with ⟨i, -, -, -, -, s4, -, -⟩ | ⟨k, e', -, s2, s3, -⟩
      · have s4 : b = m.bottom := s4
        subst s4
        have q1 : m.heap m.bottom = some l2 := q1
        obtain rfl : l = l2 := by rw [hl] at q1; exact Option.some.inj q1
        rw [q0, read_block m _ _ _ l hl (by omega), read_block _ _ _ _ l hHb (by omega)]
      · rw [hu k e' s2] at s3; exact absurd s3 (by simp)

theorem unifyMem_spec {x : Option ℕ} {S : ℤ → Prop} {m : M β} (par : Bool) (h : Inv x S m)
    (hx : par = false → ∀ e ∈ m.emerg, e.used = true → some e.owner ≠ x) (hroom : par = false → m.nseg + inUse m ≤ limit) :
    ∃ m', unifyMem par m = .ok m' ∧ Inv x S m' ∧ Keep x m m' ∧ (par = false → m'.emerg = []) ∧ (par = true → m' = m) ∧ (m.emerg = [] → m' = m) ∧
      (∀ o r, some o = x → m.arr o = some r → ∃ d, m'.arr o = some { r with data := d }) ∧ m'.nseg ≤ m.nseg + inUse m ∧ m.nseg ≤ m'.nseg ∧ (∀ i, i < m.nseg → m'.usedSeg i = m.usedSeg i ∧ m'.ptrSeg i = m.ptrSeg i) := by
  unfold unifyMem
  by_cases hc : par = false ∧ 0 < m.emerg.length
  · rw [if_pos hc]
    obtain ⟨hpar, hlen⟩ := hc
    obtain ⟨m1, e1, i1, k1, r1, r2, r3, r4, r5, r6⟩ : ∃ m1, (if m.cap < m.size + sizeAdd m.emerg then reInitialize (sizeAdd m.emerg) m else Except.ok m) = .ok m1 ∧ Inv x S m1 ∧ Keep x m m1 ∧
        m1.size + sizeAdd m.emerg ≤ m1.cap ∧ m1.nseg = m.nseg ∧ m1.emerg = m.emerg ∧ (∀ o r, m.arr o = some r → ∃ d, m1.arr o = some { r with data := d }) ∧
        m1.usedSeg = m.usedSeg ∧ m1.ptrSeg = m.ptrSeg := by
      by_cases hcap : m.cap < m.size + sizeAdd m.emerg
      · rw [if_pos hcap]
        obtain ⟨m1, a1, a2, a3, a4, a5, -, b1, b2, a6, a7, a8⟩ := reInitialize_spec h (sizeAdd m.emerg)
        exact ⟨m1, a1, a2, a3, by have := h.cap; omega, a5, a6, a8, b1, b2⟩
      · rw [if_neg hcap]
        exact ⟨m, rfl, h, Keep.refl _ _, by omega, rfl, rfl, fun o r hr => ⟨r.data, hr⟩, rfl, rfl⟩
    simp only [e1]
    have hroom := hroom hpar
    obtain ⟨m2, L2, e2, i2, u2, d2, k2, n2, a2, g2⟩ := moveAll_spec (x := x) (S := S) m.emerg 0 m.emerg m1
      (by rw [← r3]; exact i1) rfl (fun j e _ hj => absurd hj (by omega)) (hx hpar) r1 (by rw [r2]; exact hroom)
    simp only [e2]
    obtain ⟨H, e3, h31, h32⟩ := freeAll_spec m.emerg m2
      (by
        intro e he
        have : e.data ∈ L2.map Emerg.data := by rw [d2]; exact List.mem_map_of_mem he
        obtain ⟨e', he', hee⟩ := List.mem_map.mp this
        obtain ⟨k, hk⟩ := List.mem_iff_getElem?.mp he'
        obtain ⟨⟨l, hl, -⟩, -⟩ := i2.em k e' hk
        exact ⟨l, by rw [← hee]; exact hl⟩)
      (by rw [← d2]; exact i2.emd)
    simp only [e3]
    obtain ⟨i3, k3⟩ := i2.drop_buffers u2 (H := H) (by rw [d2]; exact h31) h32
    refine ⟨_, rfl, i3, (k1.trans k2).trans k3, fun _ => rfl, fun hp => ?_, fun he => ?_, fun o r ho hr => ?_, ?_, ?_, ?_⟩
    · rw [hpar] at hp; exact absurd hp (by simp)
    · rw [he] at hlen; exact absurd hlen (by simp)
    · obtain ⟨d, hd⟩ := r4 o r hr
      exact ⟨d, (a2 o ho).trans hd⟩
    · show m2.nseg ≤ _
      rw [n2, r2]; exact le_rfl
    · show m.nseg ≤ m2.nseg
      rw [n2, r2]; omega
    · intro i hi
      have := g2 i (by omega)
      rw [r5, r6] at this
      exact this
  · rw [if_neg hc]
    refine ⟨m, rfl, h, Keep.refl _ _, fun hp => ?_, fun _ => rfl, fun _ => rfl, fun o r _ hr => ⟨r.data, hr⟩, by omega, le_rfl, fun _ _ => ⟨rfl, rfl⟩⟩
    have : ¬ 0 < m.emerg.length := fun h' => hc ⟨hp, h'⟩
    exact List.length_eq_zero_iff.mp (by omega)

end Verif.MemPool
