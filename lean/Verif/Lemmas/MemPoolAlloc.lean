import Verif.Lemmas.MemPoolMove
/-! `alloc` and `freeMem`. -/
namespace Verif.MemPool

variable {β : Type}

/-- The array `o` has `n` bytes at `a`. -/
def HoldsAt (m : M β) (o : ℕ) (id : ℤ) (n : ℕ) (a : Addr) : Prop :=
  (∃ i : ℕ, id = i ∧ m.usedSeg i = true ∧ m.ptrSeg i = some o ∧ n ≤ m.capSeg i ∧ a = (m.bottom, off m.capSeg i)) ∨
    ∃ (k : ℕ) (e : Emerg), id = (limit + k : ℕ) ∧ m.emerg[k]? = some e ∧ e.used = true ∧ e.owner = o ∧ n ≤ e.cap ∧ a = (e.data, 0)

/-- Nobody but `o` uses the segment or buffer `id`. -/
def Owned (m : M β) (o : ℕ) (id : ℤ) : Prop :=
  (∃ i : ℕ, id = i ∧ i < limit ∧ (m.usedSeg i = true → m.ptrSeg i = some o)) ∨
    (∃ (k : ℕ) (e : Emerg), id = (limit + k : ℕ) ∧ m.emerg[k]? = some e ∧ (e.used = true → e.owner = o)) ∨ id = -1

theorem Inv.mono {x : Option ℕ} {S T : ℤ → Prop} {m : M β} (h : Inv x S m) (hST : ∀ s, S s → T s) : Inv x T m :=
  { h with
    seg := fun i hi => by
      obtain ⟨o, r, h1, h2, h3⟩ := h.seg i hi
      exact ⟨o, r, h1, h2, h3.imp (fun h4 => ⟨h4.1, hST _ h4.2⟩) id⟩
    em := fun k e he => by
      obtain ⟨h1, h2, h3⟩ := h.em k e he
      refine ⟨h1, h2, fun hu => ?_⟩
      obtain ⟨r, h4, h5⟩ := h3 hu
      exact ⟨r, h4, h5.imp (fun h6 => ⟨h6.1, hST _ h6.2⟩) id⟩ }

/-- The members of the array that is out of order do not matter. -/
theorem Inv.setArr {o : ℕ} {S : ℤ → Prop} {m : M β} (h : Inv (some o) S m) (r : Arr) : Inv (some o) S (setArr o r m) := by
  have harr : ∀ p, p ≠ o → (MemPool.setArr o r m).arr p = m.arr p := fun p hp => Function.update_of_ne hp _ _
  have harro : (MemPool.setArr o r m).arr o = some r := Function.update_self _ _ _
  refine ⟨h.bot, h.top, h.size, h.cap, h.lim, h.pos, h.zero, fun i hi => ?_, fun k e he => ?_, h.emc, h.emd, h.fresh, fun p r' hp hx => ?_⟩
  · obtain ⟨p, r', h1, h2, h3⟩ := h.seg i hi
    by_cases hpo : p = o
    · subst hpo
      rcases h3 with h3 | ⟨h3, -⟩
      · exact ⟨p, r, h1, harro, .inl h3⟩
      · exact absurd rfl h3
    · exact ⟨p, r', h1, (harr p hpo).trans h2, h3⟩
  · obtain ⟨h1, h2, h3⟩ := h.em k e he
    refine ⟨h1, h2, fun hu => ?_⟩
    obtain ⟨r', h4, h5⟩ := h3 hu
    by_cases hpo : e.owner = o
    · rw [hpo] at h5 ⊢
      rcases h5 with h5 | ⟨h5, -⟩
      · exact ⟨r, harro, .inl h5⟩
      · exact absurd rfl h5
    · exact ⟨r', (harr _ hpo).trans h4, h5⟩
  · have hpo : p ≠ o := fun hc => hx (by rw [hc])
    rw [harr p hpo] at hp
    exact h.arrs p r' hp hx

theorem Keep.setArr {o : ℕ} {m m' : M β} (h : Keep (some o) m m') (r : Arr) : Keep (some o) m (setArr o r m') := by
  intro p hp
  have hpo : p ≠ o := fun hc => hp (by rw [hc])
  have harr : (MemPool.setArr o r m').arr p = m'.arr p := Function.update_of_ne hpo _ _
  rw [harr]
  exact h p hp

/-- The state without the members of the array `o` is the same. -/
theorem Keep.of_others {o : ℕ} {m m' : M β} (h1 : ∀ p, p ≠ o → m'.arr p = m.arr p) (h2 : m'.heap = m.heap) : Keep (some o) m m' := by
  intro p hp
  have hpo : p ≠ o := fun hc => hp (by rw [hc])
  rw [h1 p hpo]
  refine ⟨id, fun r hr => ⟨r.data, r.id, hr, ?_, id⟩⟩
  unfold read; rw [h2]

/-- A state in order, seen with the array `o` out of order. -/
theorem Inv.open {T : ℤ → Prop} {m : M β} (h : Inv none T m) {o : ℕ} {r : Arr} (ho : m.arr o = some r) : Inv (some o) (fun s => s = r.id) m ∧ Owned m o r.id := by
  constructor
  · refine { h with seg := fun i hi => ?_, em := fun k e he => ?_, arrs := fun p r' hp _ => h.arrs p r' hp (by simp) }
    · obtain ⟨p, r', h1, h2, h3⟩ := h.seg i hi
      rcases h3 with ⟨h3, -⟩ | ⟨-, h3⟩
      · exact absurd h3 (by simp)
      by_cases hpo : p = o
      · subst hpo
        obtain rfl : r = r' := by rw [ho] at h2; exact Option.some.inj h2
        exact ⟨p, r, h1, h2, .inl ⟨rfl, h3.1.symm⟩⟩
      · exact ⟨p, r', h1, h2, .inr ⟨by simpa using hpo, h3⟩⟩
    · obtain ⟨h1, h2, h3⟩ := h.em k e he
      refine ⟨h1, h2, fun hu => ?_⟩
      obtain ⟨r', h4, h5⟩ := h3 hu
      rcases h5 with ⟨h5, -⟩ | ⟨-, h5⟩
      · exact absurd h5 (by simp)
      by_cases hpo : e.owner = o
      · have h4' := h4
        rw [hpo, ho] at h4'
        obtain rfl := Option.some.inj h4'
        exact ⟨r, h4, .inl ⟨by rw [hpo], h5.1.symm⟩⟩
      · exact ⟨r', h4, .inr ⟨by simpa using hpo, h5⟩⟩
  · rcases (h.arrs o r ho (by simp)).2.2 with ⟨-, h1, -⟩ | ⟨i, h1, h2, h3, -⟩ | ⟨k, e, h1, h2, h3, h4, -⟩
    · exact .inr (.inr h1)
    · exact .inl ⟨i, h1, by have := h.used_lt h2; have := h.lim; omega, fun _ => h3⟩
    · exact .inr (.inl ⟨k, e, h1, h2, fun _ => h4⟩)

/-- The array `o` is in order again. -/
theorem Inv.close {o : ℕ} {S T : ℤ → Prop} {m : M β} (h : Inv (some o) S m) {r : Arr} (ho : m.arr o = some r) (hS : ∀ s, S s → s = r.id)
    (hw : 1 ≤ r.width) (hs : r.size ≤ r.capacity) {a : Addr} (hd : r.data = some a) (ha : HoldsAt m o r.id (r.width * r.capacity) a) : Inv none T m := by
  refine { h with seg := fun i hi => ?_, em := fun k e he => ?_, arrs := fun p r' hp _ => ?_ }
  · obtain ⟨p, r', h1, h2, h3⟩ := h.seg i hi
    refine ⟨p, r', h1, h2, .inr ⟨by simp, ?_⟩⟩
    rcases h3 with ⟨h3, h4⟩ | ⟨-, h3⟩
    · obtain rfl := Option.some.inj h3
      obtain rfl : r = r' := by rw [ho] at h2; exact Option.some.inj h2
      have h5 := hS _ h4
      refine ⟨h5.symm, ?_⟩
      rw [hd]
      rcases ha with ⟨j, j1, -, -, -, j2⟩ | ⟨k, e, k1, -⟩
      · rw [j2, show j = i by omega]
      · have := h.used_lt hi; have := h.lim; omega
    · exact h3
  · obtain ⟨h1, h2, h3⟩ := h.em k e he
    refine ⟨h1, h2, fun hu => ?_⟩
    obtain ⟨r', h4, h5⟩ := h3 hu
    refine ⟨r', h4, .inr ⟨by simp, ?_⟩⟩
    rcases h5 with ⟨h5, h6⟩ | ⟨-, h5⟩
    · have h5 := Option.some.inj h5
      rw [h5, ho] at h4
      obtain rfl := Option.some.inj h4
      have h7 := hS _ h6
      refine ⟨h7.symm, ?_⟩
      rw [hd]
      rcases ha with ⟨j, j1, j2, -⟩ | ⟨k', e', k1, k2, -, -, -, k3⟩
      · have := h.used_lt j2; have := h.lim; omega
      · obtain rfl : k' = k := by omega
        rw [he] at k2
        obtain rfl := Option.some.inj k2
        rw [k3]
    · exact h5
  · by_cases hpo : p = o
    · subst hpo
      obtain rfl : r = r' := by rw [ho] at hp; exact Option.some.inj hp
      refine ⟨hw, hs, .inr ?_⟩
      rcases ha with ⟨j, j1, j2, j3, j4, -⟩ | ⟨k', e', k1, k2, k3, k4, k5, -⟩
      · exact .inl ⟨j, j1, j2, j3, j4⟩
      · exact .inr ⟨k', e', k1, k2, k3, k4, k5⟩
    · exact h.arrs p r' hp (by simpa using hpo)

/-- The array `o` is gone or has no memory. -/
theorem Inv.close_empty {o : ℕ} {S T : ℤ → Prop} {m : M β} (h : Inv (some o) S m) (hS : ∀ s, ¬ S s)
    (ho : ∀ r, m.arr o = some r → 1 ≤ r.width ∧ r.size = 0 ∧ r.data = none ∧ r.id = -1 ∧ r.capacity = 0) : Inv none T m := by
  refine { h with seg := fun i hi => ?_, em := fun k e he => ?_, arrs := fun p r' hp _ => ?_ }
  · obtain ⟨p, r', h1, h2, h3⟩ := h.seg i hi
    rcases h3 with ⟨-, h4⟩ | ⟨-, h3⟩
    · exact absurd h4 (hS _)
    · exact ⟨p, r', h1, h2, .inr ⟨by simp, h3⟩⟩
  · obtain ⟨h1, h2, h3⟩ := h.em k e he
    refine ⟨h1, h2, fun hu => ?_⟩
    obtain ⟨r', h4, h5⟩ := h3 hu
    rcases h5 with ⟨-, h5⟩ | ⟨-, h5⟩
    · exact absurd h5 (hS _)
    · exact ⟨r', h4, .inr ⟨by simp, h5⟩⟩
  · by_cases hpo : p = o
    · subst hpo
      obtain ⟨g1, g2, g3, g4, g5⟩ := ho r' hp
      exact ⟨g1, by omega, .inl ⟨g3, g4, g5⟩⟩
    · exact h.arrs p r' hp (by simpa using hpo)

/-- Removing the array `o`, which has no memory any more. -/
theorem Inv.remove {o : ℕ} {S T : ℤ → Prop} {m : M β} (h : Inv (some o) S m) (hS : ∀ s, ¬ S s) : Inv none T { m with arr := Function.update m.arr o none } := by
  have harr : ∀ p, p ≠ o → (Function.update m.arr o none) p = m.arr p := fun p hp => Function.update_of_ne hp _ _
  have h2 : Inv (some o) S { m with arr := Function.update m.arr o none } := by
    refine ⟨h.bot, h.top, h.size, h.cap, h.lim, h.pos, h.zero, fun i hi => ?_, fun k e he => ?_, h.emc, h.emd, h.fresh, fun p r' hp hx => ?_⟩
    · obtain ⟨p, r', h1, h2, h3⟩ := h.seg i hi
      rcases h3 with ⟨-, h4⟩ | ⟨h4, h3⟩
      · exact absurd h4 (hS _)
      · exact ⟨p, r', h1, (harr p (fun hc => h4 (by rw [hc]))).trans h2, .inr ⟨h4, h3⟩⟩
    · obtain ⟨h1, h2, h3⟩ := h.em k e he
      refine ⟨h1, h2, fun hu => ?_⟩
      obtain ⟨r', h4, h5⟩ := h3 hu
      rcases h5 with ⟨-, h5⟩ | ⟨h6, h5⟩
      · exact absurd h5 (hS _)
      · exact ⟨r', (harr _ (fun hc => h6 (by rw [hc]))).trans h4, .inr ⟨h6, h5⟩⟩
    · have hp : (Function.update m.arr o none) p = some r' := hp
      rw [harr p (fun hc => hx (by rw [hc]))] at hp
      exact h.arrs p r' hp hx
  refine h2.close_empty hS fun r hr => ?_
  have hr : (Function.update m.arr o none) o = some r := hr
  rw [Function.update_self] at hr
  exact absurd hr (by simp)

theorem firstFit_spec (m : M β) (sz : ℕ) : ∀ (k i cum : ℕ), cum = off m.capSeg i → ∀ j c, firstFit m sz k i cum = some (j, c) →
    j < i + k ∧ m.usedSeg j = false ∧ sz ≤ m.capSeg j ∧ c = off m.capSeg j := by
  intro k
  induction k with
  | zero => intro i cum _ j c h; exact absurd h (by simp [firstFit])
  | succ k ih =>
    intro i cum hc j c h
    unfold firstFit at h
    by_cases h1 : m.usedSeg i = false ∧ sz ≤ m.capSeg i
    · rw [if_pos h1] at h
      have h := Option.some.inj h
      obtain rfl : i = j := congrArg Prod.fst h
      obtain rfl : cum = c := congrArg Prod.snd h
      exact ⟨by omega, h1.1, h1.2, hc⟩
    · rw [if_neg h1] at h
      obtain ⟨h2, h3⟩ := ih (i + 1) (cum + m.capSeg i) (by simp only [off]; omega) j c h
      exact ⟨by omega, h3⟩

/-- A free segment for the array `o`. -/
theorem Inv.take_seg {o : ℕ} {S : ℤ → Prop} {m : M β} (h : Inv (some o) S m) {r : Arr} (ho : m.arr o = some r) {j : ℕ} (hj : j < m.nseg) (hu : m.usedSeg j = false) :
    Inv (some o) (fun s => s = j ∨ S s) { m with usedSeg := Function.update m.usedSeg j true, ptrSeg := Function.update m.ptrSeg j (some o) } := by
  have hun : ∀ i, i ≠ j → (Function.update m.usedSeg j true) i = m.usedSeg i := fun i hi => Function.update_of_ne hi _ _
  have hpn : ∀ i, i ≠ j → (Function.update m.ptrSeg j (some o)) i = m.ptrSeg i := fun i hi => Function.update_of_ne hi _ _
  have h' := h.mono (T := fun s => s = j ∨ S s) fun s hs => .inr hs
  refine ⟨h.bot, h.top, h.size, h.cap, h.lim, h.pos, fun i hi => ?_, fun i hi => ?_, h'.em, h.emc, h.emd, h.fresh, fun p r' hp hx => ?_⟩
  · have hi : m.nseg ≤ i := hi
    show m.capSeg i = 0 ∧ (Function.update m.usedSeg j true) i = false
    rw [hun i (by omega)]; exact h.zero i hi
  · have hi : (Function.update m.usedSeg j true) i = true := hi
    show ∃ o' r, (Function.update m.ptrSeg j (some o)) i = some o' ∧ _
    by_cases hij : i = j
    · subst hij
      exact ⟨o, r, Function.update_self _ _ _, ho, .inl ⟨rfl, .inl rfl⟩⟩
    · rw [hun i hij] at hi
      rw [hpn i hij]
      exact h'.seg i hi
  · obtain ⟨g1, g2, g3⟩ := h.arrs p r' hp hx
    refine ⟨g1, g2, ?_⟩
    rcases g3 with g3 | ⟨i, g3, gu, gp, gc⟩ | g3
    · exact .inl g3
    · have hij : i ≠ j := by rintro rfl; rw [hu] at gu; exact absurd gu (by simp)
      exact .inr (.inl ⟨i, g3, (hun i hij).trans gu, (hpn i hij).trans gp, gc⟩)
    · exact .inr (.inr g3)

/-- The last segment is given up, if nobody else uses it. -/
theorem Inv.pop {o : ℕ} {S : ℤ → Prop} {m : M β} (h : Inv (some o) S m) (hn : 0 < m.nseg) (hp : m.usedSeg (m.nseg - 1) = true → m.ptrSeg (m.nseg - 1) = some o) :
    Inv (some o) (fun s => S s ∧ s ≠ (m.nseg - 1 : ℕ)) { m with
      nseg := m.nseg - 1, top := m.top - m.capSeg (m.nseg - 1), size := m.size - m.capSeg (m.nseg - 1)
      capSeg := Function.update m.capSeg (m.nseg - 1) 0
      usedSeg := Function.update m.usedSeg (m.nseg - 1) false
      ptrSeg := Function.update m.ptrSeg (m.nseg - 1) none } := by
  set n := m.nseg - 1 with hnn
  have hun : ∀ i, i ≠ n → (Function.update m.usedSeg n false) i = m.usedSeg i := fun i hi => Function.update_of_ne hi _ _
  have hpn : ∀ i, i ≠ n → (Function.update m.ptrSeg n none) i = m.ptrSeg i := fun i hi => Function.update_of_ne hi _ _
  have hcn : ∀ i, i ≠ n → (Function.update m.capSeg n 0) i = m.capSeg i := fun i hi => Function.update_of_ne hi _ _
  have hoff : ∀ i, i ≤ n → off (Function.update m.capSeg n 0) i = off m.capSeg i := fun i hi => off_update _ _ _ _ hi
  have hsize := h.size
  rw [show m.nseg = n + 1 by omega] at hsize
  simp only [off] at hsize
  have hlim := h.lim
  refine ⟨h.bot, ?_, ?_, ?_, ?_, fun i hi => ?_, fun i hi => ?_, fun i hi => ?_, fun k e he => ?_, h.emc, h.emd, h.fresh, fun p r' hpp hx => ?_⟩
  · show m.top - _ = m.size - _; rw [h.top]
  · show m.size - m.capSeg n = off (Function.update m.capSeg n 0) n
    rw [hoff n le_rfl]; omega
  · show m.size - m.capSeg n ≤ m.cap
    have := h.cap; omega
  · show n ≤ limit; omega
  · have hi : i < n := hi
    show 0 < (Function.update m.capSeg n 0) i
    rw [hcn i (by omega)]; exact h.pos i (by omega)
  · have hi : n ≤ i := hi
    show (Function.update m.capSeg n 0) i = 0 ∧ (Function.update m.usedSeg n false) i = false
    by_cases hin : i = n
    · subst hin; exact ⟨Function.update_self _ _ _, Function.update_self _ _ _⟩
    · rw [hcn i hin, hun i hin]; exact h.zero i (by omega)
  · have hi : (Function.update m.usedSeg n false) i = true := hi
    have hin : i ≠ n := by
      rintro rfl
      rw [Function.update_self] at hi; exact absurd hi (by simp)
    rw [hun i hin] at hi
    have hlt := h.used_lt hi
    obtain ⟨p, r', h1, h2, h3⟩ := h.seg i hi
    refine ⟨p, r', (hpn i hin).trans h1, h2, ?_⟩
    show _ ∨ _ ∧ _ ∧ r'.data = some (m.bottom, off (Function.update m.capSeg n 0) i)
    rw [hoff i (by omega)]
    exact h3.imp (fun h4 => ⟨h4.1, h4.2, by omega⟩) id
  · obtain ⟨h1, h2, h3⟩ := h.em k e he
    refine ⟨h1, h2, fun hu => ?_⟩
    obtain ⟨r', h4, h5⟩ := h3 hu
    exact ⟨r', h4, h5.imp (fun h6 => ⟨h6.1, h6.2, by omega⟩) id⟩
  · obtain ⟨g1, g2, g3⟩ := h.arrs p r' hpp hx
    refine ⟨g1, g2, ?_⟩
    rcases g3 with g3 | ⟨i, g3, gu, gp, gc⟩ | g3
    · exact .inl g3
    · have hij : i ≠ n := by
        rintro rfl
        rw [hp gu] at gp
        exact hx (by rw [Option.some.inj gp])
      refine .inr (.inl ⟨i, g3, (hun i hij).trans gu, (hpn i hij).trans gp, ?_⟩)
      show _ ≤ (Function.update m.capSeg n 0) i
      rw [hcn i hij]; exact gc
    · exact .inr (.inr g3)

/-- A new segment at the end for the array `o`. -/
theorem Inv.push {o : ℕ} {S : ℤ → Prop} {m : M β} (h : Inv (some o) S m) {r : Arr} (ho : m.arr o = some r) {sz : ℕ} (hsz : 0 < sz) (hcap : m.size + sz ≤ m.cap) (hlim : m.nseg < limit) :
    Inv (some o) (fun s => s = m.nseg ∨ S s) { m with
      top := m.top + sz, size := m.size + sz, nseg := m.nseg + 1
      capSeg := Function.update m.capSeg m.nseg sz
      usedSeg := Function.update m.usedSeg m.nseg true
      ptrSeg := Function.update m.ptrSeg m.nseg (some o) } := by
  set n := m.nseg with hnn
  have hun : ∀ i, i ≠ n → (Function.update m.usedSeg n true) i = m.usedSeg i := fun i hi => Function.update_of_ne hi _ _
  have hpn : ∀ i, i ≠ n → (Function.update m.ptrSeg n (some o)) i = m.ptrSeg i := fun i hi => Function.update_of_ne hi _ _
  have hcn : ∀ i, i ≠ n → (Function.update m.capSeg n sz) i = m.capSeg i := fun i hi => Function.update_of_ne hi _ _
  have hoff : ∀ i, i ≤ n → off (Function.update m.capSeg n sz) i = off m.capSeg i := fun i hi => off_update _ _ _ _ hi
  have hsize : m.size = off m.capSeg n := h.size
  have h' := h.mono (T := fun s => s = n ∨ S s) fun s hs => .inr hs
  refine ⟨h.bot, ?_, ?_, hcap, ?_, fun i hi => ?_, fun i hi => ?_, fun i hi => ?_, h'.em, h.emc, h.emd, h.fresh, fun p r' hpp hx => ?_⟩
  · show m.top + sz = m.size + sz; rw [h.top]
  · show m.size + sz = off (Function.update m.capSeg n sz) (n + 1)
    simp only [off]
    rw [hoff n le_rfl, Function.update_self]; omega
  · show n + 1 ≤ limit; omega
  · have hi : i < n + 1 := hi
    show 0 < (Function.update m.capSeg n sz) i
    by_cases hin : i = n
    · subst hin; rw [Function.update_self]; exact hsz
    · rw [hcn i hin]; exact h.pos i (by omega)
  · have hi : n + 1 ≤ i := hi
    show (Function.update m.capSeg n sz) i = 0 ∧ (Function.update m.usedSeg n true) i = false
    rw [hcn i (by omega), hun i (by omega)]; exact h.zero i (by omega)
  · have hi : (Function.update m.usedSeg n true) i = true := hi
    show ∃ p r', (Function.update m.ptrSeg n (some o)) i = some p ∧ m.arr p = some r' ∧ ((some p = some o ∧ ((i : ℤ) = n ∨ S i)) ∨
      (some p ≠ some o ∧ r'.id = i ∧ r'.data = some (m.bottom, off (Function.update m.capSeg n sz) i)))
    by_cases hin : i = n
    · subst hin
      exact ⟨o, r, Function.update_self _ _ _, ho, .inl ⟨rfl, .inl rfl⟩⟩
    · rw [hun i hin] at hi
      have hlt := h.used_lt hi
      rw [hpn i hin, hoff i (by omega)]
      exact h'.seg i hi
  · obtain ⟨g1, g2, g3⟩ := h.arrs p r' hpp hx
    refine ⟨g1, g2, ?_⟩
    rcases g3 with g3 | ⟨i, g3, gu, gp, gc⟩ | g3
    · exact .inl g3
    · have hij : i ≠ n := by have := h.used_lt gu; omega
      refine .inr (.inl ⟨i, g3, (hun i hij).trans gu, (hpn i hij).trans gp, ?_⟩)
      show _ ≤ (Function.update m.capSeg n sz) i
      rw [hcn i hij]; exact gc
    · exact .inr (.inr g3)

theorem getElem?_snoc {α : Type} (l : List α) (a b : α) (k : ℕ) (h : (l ++ [a])[k]? = some b) : (k < l.length ∧ l[k]? = some b) ∨ (k = l.length ∧ b = a) := by
  by_cases hk : k < l.length
  · rw [List.getElem?_append_left hk] at h
    exact .inl ⟨hk, h⟩
  · rw [List.getElem?_append_right (by omega)] at h
    by_cases hk2 : k - l.length = 0
    · rw [hk2] at h
      exact .inr ⟨by omega, (Option.some.inj h).symm⟩
    · rw [List.getElem?_eq_none (by simp; omega)] at h
      exact absurd h (by simp)

/-- A new emergency buffer for the array `o`. -/
theorem Inv.buffer {o : ℕ} {S : ℤ → Prop} {m : M β} (h : Inv (some o) S m) {r : Arr} (ho : m.arr o = some r) {sz : ℕ} (hsz : 0 < sz) :
    Inv (some o) (fun s => s = (limit + m.emerg.length : ℕ) ∨ S s) { malloc sz m with emerg := m.emerg ++ [⟨m.fresh, sz, true, o⟩] } ∧
      Keep (some o) m { malloc sz m with emerg := m.emerg ++ [⟨m.fresh, sz, true, o⟩] } := by
  have hlive : ∀ b l, m.heap b = some l → b ≠ m.fresh := by
    rintro b l hb rfl
    rw [h.fresh _ le_rfl] at hb; exact absurd hb (by simp)
  have hheap : ∀ b, b ≠ m.fresh → (malloc sz m).heap b = m.heap b := fun b hb => Function.update_of_ne hb _ _
  have hheapf : (malloc sz m).heap m.fresh = some (List.replicate sz none) := Function.update_self _ _ _
  have h' := h.mono (T := fun s => s = (limit + m.emerg.length : ℕ) ∨ S s) fun s hs => .inr hs
  obtain ⟨l, hl, hlen⟩ := h.bot
  constructor
  · refine ⟨⟨l, (hheap _ (hlive _ _ hl)).trans hl, hlen⟩, h.top, h.size, h.cap, h.lim, h.pos, h.zero, h'.seg, fun k e he => ?_, fun k e he => ?_, ?_, fun b hb => ?_, fun p r' hp hx => ?_⟩
    · rcases getElem?_snoc _ _ _ _ he with ⟨-, he⟩ | ⟨hk, rfl⟩
      · obtain ⟨⟨l2, hl2, hlen2⟩, h2, h3⟩ := h'.em k e he
        exact ⟨⟨l2, (hheap _ (hlive _ _ hl2)).trans hl2, hlen2⟩, h2, h3⟩
      · exact ⟨⟨_, hheapf, List.length_replicate⟩, Ne.symm (hlive _ _ hl), fun _ => ⟨r, ho, .inl ⟨rfl, .inl (by rw [hk])⟩⟩⟩
    · rcases getElem?_snoc _ _ _ _ he with ⟨-, he⟩ | ⟨-, rfl⟩
      · exact h.emc k e he
      · exact hsz
    · show ((m.emerg ++ [(⟨m.fresh, sz, true, o⟩ : Emerg)]).map Emerg.data).Nodup
      rw [List.map_append, List.nodup_append]
      refine ⟨h.emd, by simp, fun a ha b hb => ?_⟩
      obtain rfl : b = m.fresh := by simpa using hb
      obtain ⟨e, he, rfl⟩ := List.mem_map.mp ha
      obtain ⟨k, hk⟩ := List.mem_iff_getElem?.mp he
      obtain ⟨⟨l2, hl2, -⟩, -⟩ := h.em k e hk
      exact hlive _ _ hl2
    · have hb : m.fresh + 1 ≤ b := hb
      exact (hheap b (by omega)).trans (h.fresh b (by omega))
    · obtain ⟨g1, g2, g3⟩ := h.arrs p r' hp hx
      refine ⟨g1, g2, ?_⟩
      rcases g3 with g3 | g3 | ⟨k, e, k1, k2, k3⟩
      · exact .inl g3
      · exact .inr (.inl g3)
      · refine .inr (.inr ⟨k, e, k1, ?_, k3⟩)
        show (m.emerg ++ _)[k]? = _
        have : k < m.emerg.length := by
          by_contra hc
          rw [List.getElem?_eq_none (by omega)] at k2; exact absurd k2 (by simp)
        rw [List.getElem?_append_left this]; exact k2
  · intro p hp
    refine ⟨id, fun r' hr' => ⟨r'.data, r'.id, hr', ?_, id⟩⟩
    have hg := (h.arrs p r' hr' hp).2.1
    have hmul : r'.width * r'.size ≤ r'.width * r'.capacity := Nat.mul_le_mul_left _ hg
    rcases h.place hr' hp with ⟨p1, p2, p3⟩ | ⟨b, lo, l2, q0, q1, q2, -⟩
    · have : r'.size = 0 := by omega
      rw [this, Nat.mul_zero, read_zero, read_zero]
    · rw [q0, read_block m _ _ _ l2 q1 (by omega), read_block (_ : M β) b lo _ l2 (by exact (hheap b (hlive _ _ q1)).trans q1) (by omega)]

theorem append_spec {o : ℕ} {S : ℤ → Prop} {m : M β} (h : Inv (some o) S m) {r : Arr} (ho : m.arr o = some r) {sz : ℕ} (hsz : 0 < sz) (hcap : m.size + sz ≤ m.cap) (hlim : m.nseg < limit)
    (id : ℤ) (hown : Owned m o id) :
    ∃ m' a, append sz o m = .ok (m', some a) ∧ Inv (some o) (fun s => s = m.nseg ∨ S s) m' ∧ Keep (some o) m m' ∧ m'.arr o = some { r with id := m.nseg } ∧
      HoldsAt m' o m.nseg sz a ∧ Owned m' o id ∧ m'.emerg = m.emerg ∧ (∀ p, p ≠ o → m'.arr p = m.arr p) := by
  refine ⟨setArr o { r with id := m.nseg } { m with
      top := m.top + sz, size := m.size + sz, nseg := m.nseg + 1
      capSeg := Function.update m.capSeg m.nseg sz
      usedSeg := Function.update m.usedSeg m.nseg true
      ptrSeg := Function.update m.ptrSeg m.nseg (some o) }, (m.bottom, m.top), ?_, (h.push ho hsz hcap hlim).setArr _, ?_, Function.update_self _ _ _, ?_, ?_, rfl, ?_⟩
  · unfold append idWrite
    simp only [ho]
    rfl
  · exact Keep.of_others (fun p hp => Function.update_of_ne hp _ _) rfl
  · refine .inl ⟨m.nseg, rfl, Function.update_self _ _ _, Function.update_self _ _ _, ?_, ?_⟩
    · show sz ≤ Function.update m.capSeg m.nseg sz m.nseg
      rw [Function.update_self]
    · show (m.bottom, m.top) = (m.bottom, off (Function.update m.capSeg m.nseg sz) m.nseg)
      rw [off_update _ _ _ _ le_rfl, h.top, h.size]
  · rcases hown with ⟨i, h1, h2, h3⟩ | hown
    · refine .inl ⟨i, h1, h2, fun hu => ?_⟩
      by_cases hin : i = m.nseg
      · subst hin; exact Function.update_self _ _ _
      · have hu : Function.update m.usedSeg m.nseg true i = true := hu
        rw [Function.update_of_ne hin] at hu
        show Function.update m.ptrSeg m.nseg (some o) i = some o
        rw [Function.update_of_ne hin]; exact h3 hu
    · exact .inr hown
  · exact fun p hp => Function.update_of_ne hp _ _

theorem emergency_spec {o : ℕ} {S : ℤ → Prop} {m : M β} (h : Inv (some o) S m) {r : Arr} (ho : m.arr o = some r) {sz : ℕ} (hsz : 0 < sz) (id : ℤ) (hown : Owned m o id) :
    ∃ m' a, emergency sz o m = .ok (m', some a) ∧ Inv (some o) (fun s => s = (limit + m.emerg.length : ℕ) ∨ S s) m' ∧ Keep (some o) m m' ∧
      m'.arr o = some { r with id := (limit + m.emerg.length : ℕ) } ∧
      HoldsAt m' o (limit + m.emerg.length : ℕ) sz a ∧ Owned m' o id ∧ (∀ p, p ≠ o → m'.arr p = m.arr p) := by
  obtain ⟨h1, h2⟩ := h.buffer ho hsz
  refine ⟨setArr o { r with id := (limit + m.emerg.length : ℕ) } { malloc sz m with emerg := m.emerg ++ [⟨m.fresh, sz, true, o⟩] }, (m.fresh, 0), ?_, h1.setArr _,
    h2.setArr _, Function.update_self _ _ _, ?_, ?_, fun p hp => Function.update_of_ne hp _ _⟩
  · unfold emergency idWrite
    have : (malloc sz m).arr o = some r := ho
    simp only [this]
    rfl
  · refine .inr ⟨m.emerg.length, ⟨m.fresh, sz, true, o⟩, rfl, ?_, rfl, rfl, le_rfl, rfl⟩
    show (m.emerg ++ _)[m.emerg.length]? = _
    rw [List.getElem?_append_right le_rfl, Nat.sub_self]; rfl
  · rcases hown with hown | ⟨k, e, k1, k2, k3⟩ | hown
    · exact .inl hown
    · refine .inr (.inl ⟨k, e, k1, ?_, k3⟩)
      show (m.emerg ++ _)[k]? = _
      have : k < m.emerg.length := by
        by_contra hc
        rw [List.getElem?_eq_none (by omega)] at k2; exact absurd k2 (by simp)
      rw [List.getElem?_append_left this]; exact k2
    · exact .inr (.inr hown)

theorem popOwn_spec {o : ℕ} {S : ℤ → Prop} {m : M β} (h : Inv (some o) S m) (id : ℤ) (hown : Owned m o id) :
    Inv (some o) S (popOwn id m) ∧ (popOwn id m).arr = m.arr ∧ (popOwn id m).heap = m.heap ∧ (popOwn id m).emerg = m.emerg ∧ (popOwn id m).nseg ≤ m.nseg ∧ Owned (popOwn id m) o id := by
  unfold popOwn
  by_cases hc : id < limit ∧ 0 < m.nseg ∧ id = (m.nseg : ℤ) - 1
  · rw [if_pos hc]
    obtain ⟨h1, h2, h3⟩ := hc
    refine ⟨(h.pop h2 fun hu => ?_).mono fun s hs => hs.1, rfl, rfl, rfl, by show m.nseg - 1 ≤ m.nseg; omega, .inl ⟨m.nseg - 1, by omega, by omega, fun hu => ?_⟩⟩
    · rcases hown with ⟨i, i1, i2, i3⟩ | ⟨k, e, k1, -⟩ | hown
      · obtain rfl : i = m.nseg - 1 := by omega
        exact i3 hu
      · omega
      · omega
    · have hu : Function.update m.usedSeg (m.nseg - 1) false (m.nseg - 1) = true := hu
      rw [Function.update_self] at hu; exact absurd hu (by simp)
  · rw [if_neg hc]
    exact ⟨h, rfl, rfl, rfl, le_rfl, hown⟩

theorem alloc_spec {o : ℕ} {S : ℤ → Prop} {m : M β} (par : Bool) {size : ℕ} (hsize : size ≠ 0) (h : Inv (some o) S m) {r : Arr} (ho : m.arr o = some r)
    (hS : ∀ s, S s → s = r.id) (hown : Owned m o r.id) (hin : ∀ i : ℕ, r.id = i → i < limit → i < m.nseg) (hser : par = false → r.id < limit)
    (hroom : par = false → m.nseg + inUse m ≤ limit) :
    (alloc par size o m = .error .abort ∧ ¬ m.nseg + inUse m + 1 < limit) ∨
      ∃ m' a id' d, alloc par size o m = .ok (m', some a) ∧ Inv (some o) (fun s => s = id' ∨ s = r.id) m' ∧ Keep (some o) m m' ∧
        m'.arr o = some { r with data := d, id := id' } ∧ HoldsAt m' o id' size a ∧ Owned m' o r.id ∧ (par = false → m'.emerg = []) ∧
        (par = true → ∀ p, p ≠ o → m'.arr p = m.arr p) := by
  unfold alloc
  rw [if_neg hsize]
  obtain ⟨m1, e1, i1, k1, u1, u2, -, u3, u4, u5, u6⟩ := unifyMem_spec par h (by
    intro hp e he hu hc
    obtain ⟨k, hk⟩ := List.mem_iff_getElem?.mp he
    obtain ⟨-, -, h3⟩ := h.em k e hk
    obtain ⟨r', -, h5⟩ := h3 hu
    rcases h5 with ⟨-, h5⟩ | ⟨h5, -⟩
    · have := hS _ h5; have := hser hp; omega
    · exact h5 hc) hroom
  obtain ⟨d1, hd1⟩ := u3 o r rfl ho
  have hown1 : Owned m1 o r.id := by
    cases par with
    | true => rw [u2 rfl]; exact hown
    | false =>
      rcases hown with ⟨i, j1, j2, j3⟩ | ⟨k, e, j1, -⟩ | hown
      · have hlt := hin i j1 j2
        refine .inl ⟨i, j1, j2, fun hu => ?_⟩
        rw [(u6 i hlt).1] at hu
        rw [(u6 i hlt).2]; exact j3 hu
      · have := hser rfl; omega
      · exact .inr (.inr hown)
  have hpar1 : par = true → ∀ p, m1.arr p = m.arr p := fun hp p => by rw [u2 hp]
  simp only [e1]
  have hal : size ≤ align size := align_le _
  cases hff : firstFit m1 (align size) m1.nseg 0 0 with
  | some jc =>
    right
    obtain ⟨j, c⟩ := jc
    obtain ⟨f1, f2, f3, f4⟩ := firstFit_spec m1 (align size) m1.nseg 0 0 rfl j c hff
    have i2 := (i1.take_seg hd1 (j := j) (by omega) f2).setArr { r with data := d1, id := j }
    refine ⟨_, (m1.bottom, c), j, d1, ?_, i2.mono ?_, ?_, Function.update_self _ _ _, ?_, ?_, u1, ?_⟩
    · simp only [idWrite, hd1]; rfl
    · intro s hs; exact hs.imp id (hS s)
    · exact k1.trans (Keep.of_others (fun p hp => Function.update_of_ne hp _ _) rfl)
    · refine .inl ⟨j, rfl, Function.update_self _ _ _, Function.update_self _ _ _, by show size ≤ m1.capSeg j; omega, by rw [f4]; rfl⟩
    · rcases hown1 with ⟨i, j1, j2, j3⟩ | hown1
      · refine .inl ⟨i, j1, j2, fun hu => ?_⟩
        by_cases hij : i = j
        · subst hij; exact Function.update_self _ _ _
        · have hu : Function.update m1.usedSeg j true i = true := hu
          rw [Function.update_of_ne hij] at hu
          show Function.update m1.ptrSeg j (some o) i = _
          rw [Function.update_of_ne hij]; exact j3 hu
      · exact .inr hown1
    · intro hp p hpo
      show Function.update m1.arr o _ p = _
      rw [Function.update_of_ne hpo, hpar1 hp]
  | none =>
    simp only [hd1]
    unfold allocTail
    by_cases hlim : m1.nseg + 1 < limit
    · right
      rw [if_pos hlim]
      obtain ⟨i2, a2, hp2, em2, n2, own2⟩ := popOwn_spec i1 r.id hown1
      have ho2 : (popOwn r.id m1).arr o = some { r with data := d1 } := by rw [a2]; exact hd1
      have k2 : Keep (some o) m (popOwn r.id m1) := k1.trans ((Keep.refl _ m1).of_eq rfl rfl a2 hp2)
      by_cases hcap : (popOwn r.id m1).cap < (popOwn r.id m1).size + align size
      · simp only [if_pos hcap]
        cases par with
        | true =>
          rw [if_pos rfl]
          obtain ⟨m', a, b1, b2, b3, b4, b5, b6, b7⟩ := emergency_spec i2 ho2 (align_pos size) r.id own2
          refine ⟨m', a, _, d1, b1, b2.mono fun s hs => hs.imp id (hS s), k2.trans b3, b4, ?_, b6, fun hc => absurd hc (by simp), fun _ p hpo => ?_⟩
          · rcases b5 with ⟨i, c1, c2, c3, c4, c5⟩ | ⟨k, e, c1, c2, c3, c4, c5, c6⟩
            · exact .inl ⟨i, c1, c2, c3, by omega, c5⟩
            · exact .inr ⟨k, e, c1, c2, c3, c4, by omega, c6⟩
          · rw [b7 p hpo, a2, hpar1 rfl]
        | false =>
          rw [if_neg (by simp)]
          obtain ⟨m3, a1, i3, k3, s1, s2, s3, s4, s5, s6, s7, s8⟩ := reInitialize_spec i2 (align size)
          simp only [a1]
          obtain ⟨d3, hd3⟩ := s8 o _ ho2
          have own3 : Owned m3 o r.id := by
            rcases own2 with ⟨i, j1, j2, j3⟩ | ⟨k, e, j1, j2, j3⟩ | own2
            · exact .inl ⟨i, j1, j2, by rw [s4, s5]; exact j3⟩
            · exact .inr (.inl ⟨k, e, j1, by rw [s6]; exact j2, j3⟩)
            · exact .inr (.inr own2)
          obtain ⟨m', a, b1, b2, b3, b4, b5, b6, b7, b8⟩ := append_spec i3 hd3 (align_pos size) (by have := i2.cap; omega) (by omega) r.id own3
          refine ⟨m', a, _, d3, b1, b2.mono fun s hs => hs.imp id (hS s), (k2.trans k3).trans b3, b4, ?_, b6, fun _ => ?_, fun hc => absurd hc (by simp)⟩
          · rcases b5 with ⟨i, c1, c2, c3, c4, c5⟩ | ⟨k, e, c1, c2, c3, c4, c5, c6⟩
            · exact .inl ⟨i, c1, c2, c3, by omega, c5⟩
            · exact .inr ⟨k, e, c1, c2, c3, c4, by omega, c6⟩
          · rw [b7, s6, em2]; exact u1 rfl
      · simp only [if_neg hcap]
        obtain ⟨m', a, b1, b2, b3, b4, b5, b6, b7, b8⟩ := append_spec i2 ho2 (align_pos size) (by omega) (by omega) r.id own2
        refine ⟨m', a, _, d1, b1, b2.mono fun s hs => hs.imp id (hS s), k2.trans b3, b4, ?_, b6, fun hp => ?_, fun hp p hpo => ?_⟩
        · rcases b5 with ⟨i, c1, c2, c3, c4, c5⟩ | ⟨k, e, c1, c2, c3, c4, c5, c6⟩
          · exact .inl ⟨i, c1, c2, c3, by omega, c5⟩
          · exact .inr ⟨k, e, c1, c2, c3, c4, by omega, c6⟩
        · rw [b7, em2]; exact u1 hp
        · rw [b8 p hpo, a2, hpar1 hp]
    · left
      rw [if_neg hlim]
      exact ⟨rfl, by omega⟩

/-! ### Giving memory back -/

theorem trim_spec {o : ℕ} {S : ℤ → Prop} : ∀ (k : ℕ) (m : M β), k = m.nseg → Inv (some o) S { m with top := m.size } →
    Inv (some o) S { trim k m with top := (trim k m).size } ∧ (trim k m).arr = m.arr ∧ (trim k m).heap = m.heap ∧ (trim k m).emerg = m.emerg ∧ (trim k m).nseg ≤ m.nseg ∧
      (∀ o' id' n a, HoldsAt m o' id' n a → HoldsAt (trim k m) o' id' n a) := by
  intro k
  induction k with
  | zero => intro m _ h; exact ⟨h, rfl, rfl, rfl, le_rfl, fun _ _ _ _ h => h⟩
  | succ k ih =>
    intro m hk h
    unfold trim
    by_cases hu : m.usedSeg k = true
    · rw [if_pos hu]; exact ⟨h, rfl, rfl, rfl, le_rfl, fun _ _ _ _ h => h⟩
    · rw [if_neg hu]
      have hu' : m.usedSeg k = false := by simpa using hu
      have hn : m.nseg - 1 = k := by omega
      have h2 := h.pop (by show 0 < m.nseg; omega) (by
        intro hc
        have hc : m.usedSeg (m.nseg - 1) = true := hc
        rw [hn] at hc
        exact absurd hc hu)
      have e : (Function.update m.usedSeg k false) = m.usedSeg := by rw [← hu', Function.update_eq_self]
      obtain ⟨j1, j2, j3, j4, j5, j6⟩ := ih { m with
        size := m.size - m.capSeg k, nseg := m.nseg - 1
        capSeg := Function.update m.capSeg k 0
        ptrSeg := Function.update m.ptrSeg k none } (by show k = m.nseg - 1; omega) (by
          have h3 := h2.mono (T := S) fun s hs => hs.1
          simp only [hn, e] at h3
          rw [hn]
          exact h3)
      refine ⟨j1, j2, j3, j4, le_trans j5 (by show m.nseg - 1 ≤ m.nseg; omega), fun o' id' n a ha => j6 o' id' n a ?_⟩
      rcases ha with ⟨j, g1, g2, g3, g4, g5⟩ | ha
      · have hjk : j ≠ k := by rintro rfl; exact hu g2
        have hlt : j < m.nseg := h.used_lt g2
        refine .inl ⟨j, g1, g2, ?_, ?_, ?_⟩
        · show Function.update m.ptrSeg k none j = _
          rw [Function.update_of_ne hjk]; exact g3
        · show _ ≤ Function.update m.capSeg k 0 j
          rw [Function.update_of_ne hjk]; exact g4
        · show a = (m.bottom, off (Function.update m.capSeg k 0) j)
          rw [off_update _ _ _ _ (by omega)]; exact g5
      · exact .inr ha

/-- The segment `i`, which nobody but `o` uses, becomes free. -/
theorem Inv.free_seg {o : ℕ} {S : ℤ → Prop} {m : M β} (h : Inv (some o) S m) {i : ℕ} (hi : i < limit) (hp : m.usedSeg i = true → m.ptrSeg i = some o) :
    Inv (some o) (fun s => S s ∧ s ≠ i) { m with usedSeg := Function.update m.usedSeg i false } := by
  have hun : ∀ j, j ≠ i → (Function.update m.usedSeg i false) j = m.usedSeg j := fun j hj => Function.update_of_ne hj _ _
  have hui : (Function.update m.usedSeg i false) i = false := Function.update_self _ _ _
  refine ⟨h.bot, h.top, h.size, h.cap, h.lim, h.pos, fun j hj => ?_, fun j hj => ?_, fun k e he => ?_, h.emc, h.emd, h.fresh, fun p r' hpp hx => ?_⟩
  · refine ⟨(h.zero j hj).1, ?_⟩
    show (Function.update m.usedSeg i false) j = false
    by_cases hji : j = i
    · rw [hji]; exact hui
    · rw [hun j hji]; exact (h.zero j hj).2
  · have hj : (Function.update m.usedSeg i false) j = true := hj
    have hji : j ≠ i := by
      rintro rfl
      rw [hui] at hj; exact absurd hj (by simp)
    rw [hun j hji] at hj
    obtain ⟨p, r', h1, h2, h3⟩ := h.seg j hj
    exact ⟨p, r', h1, h2, h3.imp (fun h4 => ⟨h4.1, h4.2, by omega⟩) id⟩
  · obtain ⟨h1, h2, h3⟩ := h.em k e he
    refine ⟨h1, h2, fun hu => ?_⟩
    obtain ⟨r', h4, h5⟩ := h3 hu
    exact ⟨r', h4, h5.imp (fun h6 => ⟨h6.1, h6.2, by omega⟩) id⟩
  · obtain ⟨g1, g2, g3⟩ := h.arrs p r' hpp hx
    refine ⟨g1, g2, ?_⟩
    rcases g3 with g3 | ⟨j, g3, gu, gp, gc⟩ | g3
    · exact .inl g3
    · have hji : j ≠ i := by
        rintro rfl
        rw [hp gu] at gp
        exact hx (by rw [Option.some.inj gp])
      exact .inr (.inl ⟨j, g3, (hun j hji).trans gu, gp, gc⟩)
    · exact .inr (.inr g3)

theorem release_spec {o : ℕ} {S : ℤ → Prop} {m : M β} (h : Inv (some o) S m) {i : ℕ} (hi : i < limit) (hp : m.usedSeg i = true → m.ptrSeg i = some o) :
    Inv (some o) (fun s => S s ∧ s ≠ i) (release i m) ∧ (release i m).arr = m.arr ∧ (release i m).heap = m.heap ∧ (release i m).emerg = m.emerg ∧ (release i m).nseg ≤ m.nseg ∧
      (∀ o' id' n a, id' ≠ (i : ℤ) → HoldsAt m o' id' n a → HoldsAt (release i m) o' id' n a) := by
  have h1 := h.free_seg hi hp
  have htop : ({ m with usedSeg := Function.update m.usedSeg i false } : M β) = { ({ m with usedSeg := Function.update m.usedSeg i false } : M β) with top := m.size } := by
    rw [← h.top]
  rw [htop] at h1
  have hh : ∀ o' id' n a, id' ≠ (i : ℤ) → HoldsAt m o' id' n a → HoldsAt ({ m with usedSeg := Function.update m.usedSeg i false } : M β) o' id' n a := by
    intro o' id' n a hne ha
    rcases ha with ⟨j, g1, g2, g3, g4, g5⟩ | ha
    · refine .inl ⟨j, g1, ?_, g3, g4, g5⟩
      show Function.update m.usedSeg i false j = true
      rw [Function.update_of_ne (by omega)]; exact g2
    · exact .inr ha
  unfold release
  by_cases hc : i + 1 = m.nseg
  · simp only [if_pos hc]
    obtain ⟨j1, j2, j3, j4, j5, j6⟩ := trim_spec (i + 1) ({ m with usedSeg := Function.update m.usedSeg i false } : M β) hc h1
    exact ⟨j1, j2, j3, j4, j5, fun o' id' n a hne ha => j6 o' id' n a (hh o' id' n a hne ha)⟩
  · simp only [if_neg hc]
    exact ⟨h1, trivial, trivial, trivial, le_rfl, hh⟩

/-- The buffer `K`, which nobody but `o` uses, becomes free. -/
theorem Inv.free_buffer {o : ℕ} {S : ℤ → Prop} {m : M β} (h : Inv (some o) S m) {K : ℕ} {e : Emerg} (hK : m.emerg[K]? = some e) (hp : e.used = true → e.owner = o) :
    Inv (some o) (fun s => S s ∧ s ≠ (limit + K : ℕ)) { m with emerg := m.emerg.set K { e with used := false } } := by
  have hlen : K < m.emerg.length := by
    by_contra hc
    rw [List.getElem?_eq_none (by omega)] at hK; exact absurd hK (by simp)
  have hcase : ∀ k e', (m.emerg.set K { e with used := false })[k]? = some e' → (k ≠ K ∧ m.emerg[k]? = some e') ∨ (k = K ∧ e' = { e with used := false }) := by
    intro k e' he'
    rw [List.getElem?_set] at he'
    by_cases hk : K = k
    · rw [if_pos hk, if_pos (by omega)] at he'
      exact .inr ⟨hk.symm, (Option.some.inj he').symm⟩
    · rw [if_neg hk] at he'
      exact .inl ⟨fun hc => hk hc.symm, he'⟩
  refine ⟨h.bot, h.top, h.size, h.cap, h.lim, h.pos, h.zero, fun j hj => ?_, fun k e' he => ?_, fun k e' he => ?_, ?_, h.fresh, fun p r' hpp hx => ?_⟩
  · obtain ⟨p, r', h1, h2, h3⟩ := h.seg j hj
    have := h.used_lt hj
    have := h.lim
    exact ⟨p, r', h1, h2, h3.imp (fun h4 => ⟨h4.1, h4.2, by omega⟩) id⟩
  · rcases hcase k e' he with ⟨hk, he⟩ | ⟨hk, rfl⟩
    · obtain ⟨h1, h2, h3⟩ := h.em k e' he
      refine ⟨h1, h2, fun hu => ?_⟩
      obtain ⟨r', h4, h5⟩ := h3 hu
      exact ⟨r', h4, h5.imp (fun h6 => ⟨h6.1, h6.2, by omega⟩) id⟩
    · obtain ⟨h1, h2, h3⟩ := h.em K e hK
      exact ⟨h1, h2, fun hu => absurd hu (by simp)⟩
  · rcases hcase k e' he with ⟨hk, he⟩ | ⟨hk, rfl⟩
    · exact h.emc k e' he
    · exact h.emc K e hK
  · have : (m.emerg.set K { e with used := false }).map Emerg.data = m.emerg.map Emerg.data := by
      apply List.ext_getElem?
      intro k
      rw [List.getElem?_map, List.getElem?_map, List.getElem?_set]
      by_cases hk : K = k
      · subst hk; rw [if_pos rfl, if_pos hlen, hK]; rfl
      · rw [if_neg hk]
    show ((m.emerg.set K { e with used := false }).map Emerg.data).Nodup
    rw [this]; exact h.emd
  · obtain ⟨g1, g2, g3⟩ := h.arrs p r' hpp hx
    refine ⟨g1, g2, ?_⟩
    rcases g3 with g3 | g3 | ⟨k, e', k1, k2, k3, k4, k5⟩
    · exact .inl g3
    · exact .inr (.inl g3)
    · refine .inr (.inr ⟨k, e', k1, ?_, k3, k4, k5⟩)
      have hk : k ≠ K := by
        rintro rfl
        rw [hK] at k2
        obtain rfl := Option.some.inj k2
        exact hx (by rw [← k4, hp k3])
      show (m.emerg.set K _)[k]? = _
      rw [List.getElem?_set, if_neg (Ne.symm hk)]; exact k2

theorem filter_set_length (l : List Emerg) (K : ℕ) (e : Emerg) (hK : l[K]? = some e) :
    ((l.set K { e with used := false }).filter fun e => e.used).length ≤ (l.filter fun e => e.used).length := by
  induction l generalizing K with
  | nil => simp
  | cons a l ih =>
    cases K with
    | zero =>
      simp only [List.set_cons_zero, List.filter_cons]
      rw [if_neg (by simp)]
      split
      · simp
      · exact le_rfl
    | succ K =>
      have := ih K (by simpa using hK)
      simp only [List.set_cons_succ, List.filter_cons]
      split <;> simp_all

/-- `freeMem` releases a segment or buffer of the array `o`, and then calls `unifyMem` or not. -/
theorem freeMem_spec {o : ℕ} {S : ℤ → Prop} {m : M β} (intended par : Bool) (h : Inv (some o) S m) (id : ℤ) (hown : Owned m o id) (hS : ¬ S (-1))
    (hstrict : intended = false → 0 ≤ id ∧ id < limit) :
    ∃ m1, (freeMem intended par id m = .ok m1 ∨ freeMem intended par id m = unifyMem par m1) ∧ Inv (some o) (fun s => S s ∧ s ≠ id) m1 ∧ m1.arr = m.arr ∧
      m1.heap = m.heap ∧ m1.nseg ≤ m.nseg ∧ inUse m1 ≤ inUse m ∧ (m.emerg = [] → m1.emerg = []) ∧
      (∀ o' id' n a, id' ≠ id → HoldsAt m o' id' n a → HoldsAt m1 o' id' n a) := by
  unfold freeMem
  by_cases hc : 0 ≤ id ∧ id < limit
  · rw [if_pos hc]
    obtain ⟨i, hi, hlt, hp⟩ : ∃ i : ℕ, id = i ∧ i < limit ∧ (m.usedSeg i = true → m.ptrSeg i = some o) := by
      rcases hown with hown | ⟨k, e, k1, -⟩ | hown
      · exact hown
      · omega
      · omega
    subst hi
    rw [Int.toNat_natCast]
    by_cases hz : m.capSeg i = 0
    · rw [if_pos hz]
      have hu : m.usedSeg i = false := by
        by_contra hu
        have := h.pos i (h.used_lt (by simpa using hu))
        omega
      have h2 := h.free_seg hlt hp
      rw [← hu, Function.update_eq_self] at h2
      exact ⟨m, .inl rfl, h2, rfl, rfl, le_rfl, le_rfl, fun hc => hc, fun _ _ _ _ _ h => h⟩
    · rw [if_neg hz]
      obtain ⟨j1, j2, j3, j4, j5, j6⟩ := release_spec h hlt hp
      exact ⟨release i m, .inr rfl, j1, j2, j3, j5, by unfold inUse; rw [j4], by rw [j4]; exact fun hc => hc, j6⟩
  · rw [if_neg hc]
    have hint : intended = true := by
      by_contra hh
      exact hc (hstrict (by simpa using hh))
    rw [if_pos hint]
    by_cases h1 : id = -1
    · rw [if_pos h1]
      refine ⟨m, .inl rfl, h.mono fun s hs => ⟨hs, ?_⟩, rfl, rfl, le_rfl, le_rfl, fun hc => hc, fun _ _ _ _ _ h => h⟩
      rintro rfl
      rw [h1] at hs
      exact hS hs
    · rw [if_neg h1]
      obtain ⟨k, e, k1, k2, k3⟩ : ∃ (k : ℕ) (e : Emerg), id = (limit + k : ℕ) ∧ m.emerg[k]? = some e ∧ (e.used = true → e.owner = o) := by
        rcases hown with ⟨i, i1, i2, -⟩ | hown | hown
        · omega
        · exact hown
        · exact absurd hown h1
      have hk : id.toNat - limit = k := by omega
      rw [if_neg (by omega), hk]
      simp only [k2]
      refine ⟨_, .inr rfl, (h.free_buffer k2 k3).mono fun s hs => ⟨hs.1, by omega⟩, rfl, rfl, le_rfl, filter_set_length _ _ _ k2, fun he => ?_, fun o' id' n a hne ha => ?_⟩
      · rw [he] at k2; exact absurd k2 (by simp)
      · rcases ha with ha | ⟨k', e', g1, g2, g3, g4, g5, g6⟩
        · exact .inl ha
        · refine .inr ⟨k', e', g1, ?_, g3, g4, g5, g6⟩
          show (m.emerg.set k _)[k']? = _
          rw [List.getElem?_set, if_neg (by omega)]; exact g2

end Verif.MemPool
