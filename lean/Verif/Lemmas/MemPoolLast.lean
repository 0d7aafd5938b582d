import Verif.Lemmas.MemPoolStep
/-! The last segment is in use, unless an array is in an emergency buffer. -/
namespace Verif.MemPool

variable {β : Type}

/-- The last segment is in use. -/
def Last (m : M β) : Prop := m.nseg = 0 ∨ m.usedSeg (m.nseg - 1) = true

/-- The last segment is in use, or an emergency buffer is. -/
def Tail (m : M β) : Prop := Last m ∨ ∃ e ∈ m.emerg, e.used = true

/-- The tables of segments and buffers are the same, apart from the owners. -/
def Same (m m' : M β) : Prop := m'.nseg = m.nseg ∧ m'.usedSeg = m.usedSeg ∧ m'.emerg = m.emerg

theorem Same.refl (m : M β) : Same m m := ⟨rfl, rfl, rfl⟩
theorem Same.trans {m m' m'' : M β} (h : Same m m') (h' : Same m' m'') : Same m m'' := ⟨h'.1.trans h.1, h'.2.1.trans h.2.1, h'.2.2.trans h.2.2⟩
theorem Same.last {m m' : M β} (h : Same m m') (hl : Last m) : Last m' := by unfold Last; rw [h.1, h.2.1]; exact hl
theorem Same.tail {m m' : M β} (h : Same m m') (hl : Tail m) : Tail m' := hl.imp h.last (by rw [h.2.2]; exact id)

theorem ptrWrite_same {o : Option ℕ} {a : Addr} {m m' : M β} (h : ptrWrite o a m = .ok m') : Same m m' := by
  unfold ptrWrite at h
  split at h
  · exact absurd h (by simp)
  split at h
  · exact absurd h (by simp)
  obtain rfl := Except.ok.inj h; exact .refl _

theorem idWrite_same {o : ℕ} {a : ℤ} {m m' : M β} (h : idWrite o a m = .ok m') : Same m m' := by
  unfold idWrite at h
  split at h
  · exact absurd h (by simp)
  obtain rfl := Except.ok.inj h; exact .refl _

theorem write_same {a : Option Addr} {v : List (Option β)} {m m' : M β} (h : write a v m = .ok m') : Same m m' := by
  unfold write at h
  split at h
  · obtain rfl := Except.ok.inj h; exact .refl _
  split at h
  · exact absurd h (by simp)
  split at h
  · exact absurd h (by simp)
  split at h
  · obtain rfl := Except.ok.inj h; exact .refl _
  · exact absurd h (by simp)

theorem free_same {b : ℕ} {m m' : M β} (h : free b m = .ok m') : Same m m' := by
  unfold free at h
  split at h
  · exact absurd h (by simp)
  obtain rfl := Except.ok.inj h; exact .refl _

theorem relocate_same {b : ℕ} : ∀ (k i cum : ℕ) {m m' : M β}, relocate b k i cum m = .ok m' → Same m m' := by
  intro k
  induction k with
  | zero => intro i cum m m' h; obtain rfl := Except.ok.inj h; exact .refl _
  | succ k ih =>
    intro i cum m m' h
    unfold relocate at h
    split at h
    · exact absurd h (by simp)
    split at h
    · exact absurd h (by simp)
    · rename_i m1 h1
      refine Same.trans ?_ (ih _ _ h)
      split at h1
      · exact ptrWrite_same h1
      · obtain rfl := Except.ok.inj h1; exact .refl _

theorem reInitialize_same {n : ℕ} {m m' : M β} (h : reInitialize n m = .ok m') : Same m m' := by
  unfold reInitialize at h
  dsimp only at h
  split at h
  · exact absurd h (by simp)
  split at h
  · exact absurd h (by simp)
  rename_i h2
  split at h
  · exact absurd h (by simp)
  rename_i h3
  have h1 := write_same h2
  have h4 : Same m _ := ⟨h1.1, h1.2.1, h1.2.2⟩
  exact (h4.trans (relocate_same _ _ _ h3)).trans (free_same h)

theorem moveOne_last {e : Emerg} {m m' : M β} (h : moveOne m e = .ok m') (hl : Last m ∨ e.used = true) : Last m' := by
  unfold moveOne at h
  split at h
  · split at h
    · exact absurd h (by simp)
    dsimp only at h
    split at h
    · exact absurd h (by simp)
    split at h
    · exact absurd h (by simp)
    rename_i h2
    split at h
    · exact absurd h (by simp)
    rename_i h3
    refine (((write_same h2).trans (ptrWrite_same h3)).trans (idWrite_same h)).last (.inr ?_)
    show Function.update m.usedSeg m.nseg true (m.nseg + 1 - 1) = true
    rw [Nat.add_sub_cancel, Function.update_self]
  · rename_i hu
    obtain rfl := Except.ok.inj h
    exact hl.resolve_right hu

theorem moveAll_last : ∀ (es : List Emerg) {m m' : M β}, moveAll es m = .ok m' → (Last m ∨ ∃ e ∈ es, e.used = true) → Last m' := by
  intro es
  induction es with
  | nil => intro m m' h hl; obtain rfl := Except.ok.inj h; exact hl.resolve_right (by simp)
  | cons e es ih =>
    intro m m' h hl
    unfold moveAll at h
    split at h
    · exact absurd h (by simp)
    rename_i m1 h1
    refine ih h ?_
    by_cases hc : Last m ∨ e.used = true
    · exact .inl (moveOne_last h1 hc)
    · refine hl.imp (fun h2 => absurd (.inl h2) hc) ?_
      rintro ⟨e', he, hu⟩
      rcases List.mem_cons.mp he with rfl | he
      · exact absurd (.inr hu) hc
      · exact ⟨e', he, hu⟩

theorem freeAll_same : ∀ (es : List Emerg) {m m' : M β}, freeAll es m = .ok m' → Same m m' := by
  intro es
  induction es with
  | nil => intro m m' h; obtain rfl := Except.ok.inj h; exact .refl _
  | cons e es ih =>
    intro m m' h
    unfold freeAll at h
    split at h
    · exact absurd h (by simp)
    rename_i m1 h1
    exact (free_same h1).trans (ih h)

theorem unifyMem_tail {par : Bool} {m m' : M β} (h : unifyMem par m = .ok m') (hl : Tail m) : Tail m' := by
  unfold unifyMem at h
  split at h
  · split at h
    · exact absurd h (by simp)
    rename_i m1 h1
    split at h
    · exact absurd h (by simp)
    rename_i m2 h2
    split at h
    · exact absurd h (by simp)
    rename_i m3 h3
    have hs : Same m m1 := by
      split at h1
      · exact reInitialize_same h1
      · obtain rfl := Except.ok.inj h1; exact .refl _
    have h4 : Last m3 := (freeAll_same _ h3).last (moveAll_last _ h2 (hl.imp hs.last id))
    obtain rfl := Except.ok.inj h
    exact .inl h4
  · obtain rfl := Except.ok.inj h; exact hl

theorem append_last {sz o : ℕ} {m m' : M β} {a : Option Addr} (h : append sz o m = .ok (m', a)) : Last m' := by
  unfold append at h
  dsimp only at h
  split at h
  · exact absurd h (by simp)
  rename_i m2 h2
  obtain ⟨rfl, -⟩ : m2 = m' ∧ _ := Prod.mk.inj (Except.ok.inj h)
  refine (idWrite_same h2).last (.inr ?_)
  show Function.update m.usedSeg m.nseg true (m.nseg + 1 - 1) = true
  rw [Nat.add_sub_cancel, Function.update_self]

theorem emergency_tail {sz o : ℕ} {m m' : M β} {a : Option Addr} (h : emergency sz o m = .ok (m', a)) : Tail m' := by
  unfold emergency at h
  dsimp only at h
  split at h
  · exact absurd h (by simp)
  rename_i m2 h2
  obtain ⟨rfl, -⟩ : m2 = m' ∧ _ := Prod.mk.inj (Except.ok.inj h)
  refine (idWrite_same h2).tail (.inr ⟨⟨m.fresh, sz, true, o⟩, ?_, rfl⟩)
  show _ ∈ m.emerg ++ _
  simp

theorem alloc_tail {par : Bool} {size o : ℕ} {m m' : M β} {a : Option Addr} (h : alloc par size o m = .ok (m', a)) (hl : Tail m) : Tail m' := by
  unfold alloc at h
  split at h
  · obtain ⟨rfl, -⟩ : m = m' ∧ _ := Prod.mk.inj (Except.ok.inj h)
    exact hl
  split at h
  · exact absurd h (by simp)
  rename_i m1 h1
  have hl1 := unifyMem_tail h1 hl
  split at h
  · split at h
    · exact absurd h (by simp)
    rename_i i cum _ _ m2 h2
    obtain ⟨rfl, -⟩ : m2 = m' ∧ _ := Prod.mk.inj (Except.ok.inj h)
    refine (idWrite_same h2).tail (hl1.imp (fun hc => hc.imp id fun hc => ?_) id)
    show Function.update m1.usedSeg i true (m1.nseg - 1) = true
    by_cases hi : m1.nseg - 1 = i
    · rw [hi, Function.update_self]
    · rw [Function.update_of_ne hi]; exact hc
  · split at h
    · exact absurd h (by simp)
    unfold allocTail at h
    split at h
    · dsimp only at h
      split at h
      · split at h
        · exact emergency_tail h
        · split at h
          · exact absurd h (by simp)
          · exact .inl (append_last h)
      · exact .inl (append_last h)
    · exact absurd h (by simp)

theorem allocData_tail {par : Bool} {size o : ℕ} {m m' : M β} (h : allocData par size o m = .ok m') (hl : Tail m) : Tail m' := by
  unfold allocData at h
  split at h
  · exact absurd h (by simp)
  rename_i m1 ret h1
  split at h
  · exact absurd h (by simp)
  obtain rfl := Except.ok.inj h
  exact (Same.refl m1 : Same m1 _).tail (alloc_tail h1 hl)

theorem trim_last : ∀ (k : ℕ) (m : M β), m.nseg = k → Last (trim k m) := by
  intro k
  induction k with
  | zero => intro m hm; exact .inl hm
  | succ k ih =>
    intro m hm
    unfold trim
    split
    · rename_i hu
      exact .inr (by rw [hm]; exact hu)
    · exact ih _ (by show m.nseg - 1 = k; omega)

theorem trim_emerg : ∀ (k : ℕ) (m : M β), (trim k m).emerg = m.emerg := by
  intro k
  induction k with
  | zero => intro m; rfl
  | succ k ih =>
    intro m
    unfold trim
    split
    · rfl
    · rw [ih]

theorem release_tail (i : ℕ) {m : M β} (hl : Tail m) : Tail (release i m) := by
  unfold release
  dsimp only
  by_cases hi : i + 1 = m.nseg
  · rw [if_pos hi]
    exact .inl (trim_last (i + 1) { m with usedSeg := Function.update m.usedSeg i false } hi.symm)
  · rw [if_neg hi]
    refine hl.imp (fun hc => ?_) id
    by_cases h0 : m.nseg = 0
    · exact .inl h0
    · refine .inr ?_
      show Function.update m.usedSeg i false (m.nseg - 1) = true
      rw [Function.update_of_ne (by omega)]
      exact hc.resolve_left h0

theorem freeMem_tail {par : Bool} {id : ℤ} {m m' : M β} (h : freeMem false par id m = .ok m') (hl : Tail m) : Tail m' := by
  unfold freeMem at h
  split at h
  · split at h
    · obtain rfl := Except.ok.inj h; exact hl
    · exact unifyMem_tail h (release_tail _ hl)
  · exact absurd h (by simp)

theorem setArr_tail {o : ℕ} {r : Arr} {m : M β} (hl : Tail m) : Tail (setArr o r m) := hl

theorem reallocInner_tail {par : Bool} {o n : ℕ} {m m' : M β} (h : reallocInner false par o n m = .ok m') (hl : Tail m) : Tail m' := by
  unfold reallocInner at h
  split at h
  · exact absurd h (by simp)
  split at h
  · exact absurd h (by simp)
  split at h
  · exact absurd h (by simp)
  rename_i m1 h1
  split at h
  · exact absurd h (by simp)
  split at h
  · exact absurd h (by simp)
  rename_i m2 h2
  split at h
  · exact absurd h (by simp)
  have t1 := allocData_tail h1 (setArr_tail hl)
  refine (write_same h).tail ?_
  split at h2
  · exact freeMem_tail h2 t1
  · obtain rfl := Except.ok.inj h2; exact t1

theorem setSize_tail {o n : ℕ} {m m' : M β} (h : setSize o n m = .ok m') (hl : Tail m) : Tail m' := by
  unfold setSize at h
  split at h
  · exact absurd h (by simp)
  obtain rfl := Except.ok.inj h; exact hl

theorem resize_tail {par : Bool} {o n : ℕ} {m m' : M β} (h : resize false par o n m = .ok m') (hl : Tail m) : Tail m' := by
  unfold resize at h
  split at h
  · exact absurd h (by simp)
  split at h
  · exact absurd h (by simp)
  split at h
  · exact absurd h (by simp)
  rename_i m1 h1
  split at h
  · exact absurd h (by simp)
  rename_i m2 h2
  refine setSize_tail h ?_
  have t1 : Tail m1 := by
    unfold resizeFirst at h1
    split at h1
    · split at h1
      · exact absurd h1 (by simp)
      rename_i m3 h3
      split at h1
      · exact absurd h1 (by simp)
      obtain rfl := Except.ok.inj h1
      exact setArr_tail (allocData_tail h3 hl)
    · obtain rfl := Except.ok.inj h1; exact hl
  unfold resizeGrow at h2
  split at h2
  · exact absurd h2 (by simp)
  split at h2
  · split at h2
    · exact absurd h2 (by simp)
    · exact reallocInner_tail h2 t1
  · obtain rfl := Except.ok.inj h2; exact t1

theorem setElem_tail {o i : ℕ} {v : List (Option β)} {m m' : M β} (h : setElem o i v m = .ok m') (hl : Tail m) : Tail m' := by
  unfold setElem at h
  split at h
  · exact absurd h (by simp)
  split at h
  · exact absurd h (by simp)
  exact (write_same h).tail hl

theorem reserveAtLeast_tail {par : Bool} {o n : ℕ} {m m' : M β} (h : reserveAtLeast false par o n m = .ok m') (hl : Tail m) : Tail m' := by
  unfold reserveAtLeast at h
  split at h
  · exact absurd h (by simp)
  split at h
  · split at h
    · exact absurd h (by simp)
    split at h
    · exact absurd h (by simp)
    · exact reallocInner_tail h hl
  · obtain rfl := Except.ok.inj h; exact hl

theorem step_tail {par : Bool} {op : Op β} {m m' : M β} (h : step false par m op = .ok m') (hl : Tail m) : Tail m' := by
  cases op with
  | construct o w cap size =>
    replace h : construct par o w cap size m = .ok m' := h
    unfold construct at h
    split at h
    · exact absurd h (by simp)
    · exact allocData_tail h (setArr_tail hl)
  | resize o n => exact resize_tail h hl
  | set o i v => exact setElem_tail h hl
  | pushBack o v =>
    replace h : pushBack false par o v m = .ok m' := h
    unfold pushBack at h
    split at h
    · exact absurd h (by simp)
    split at h
    · exact absurd h (by simp)
    rename_i h1
    exact setElem_tail h (resize_tail h1 hl)
  | pushBackNoCheck o v =>
    replace h : pushBackNoCheck o v m = .ok m' := h
    unfold pushBackNoCheck at h
    split at h
    · exact absurd h (by simp)
    exact setElem_tail h (setArr_tail hl)
  | clearSize o => exact setSize_tail h hl
  | reserveAtLeast o n => exact reserveAtLeast_tail h hl
  | reserveEmpty o n =>
    replace h : reserveEmpty false par o n m = .ok m' := h
    unfold reserveEmpty at h
    split at h
    · exact absurd h (by simp)
    exact reserveAtLeast_tail h hl
  | reserve o n =>
    replace h : reserve false par o n m = .ok m' := h
    unfold reserve at h
    split at h
    · exact absurd h (by simp)
    split at h
    · split at h
      · exact absurd h (by simp)
      · exact reallocInner_tail h (setArr_tail hl)
    · obtain rfl := Except.ok.inj h; exact hl
  | freeArr o =>
    replace h : freeArr false par o m = .ok m' := h
    unfold freeArr at h
    split at h
    · exact absurd h (by simp)
    split at h
    · obtain rfl := Except.ok.inj h; exact hl
    split at h
    · exact absurd h (by simp)
    rename_i h1
    split at h
    · exact absurd h (by simp)
    obtain rfl := Except.ok.inj h
    exact setArr_tail (freeMem_tail h1 hl)
  | destroy o =>
    replace h : destroy false par o m = .ok m' := h
    unfold destroy at h
    split at h
    · exact absurd h (by simp)
    split at h
    · exact absurd h (by simp)
    rename_i h1
    obtain rfl := Except.ok.inj h
    have h2 := freeMem_tail h1 hl
    exact h2

theorem Reach.tail {cap : ℕ} {m : M β} (h : Reach false cap m) : Tail m := by
  induction h with
  | start => exact .inl (.inl rfl)
  | call _ _ he ih => exact step_tail he ih

theorem Reach.empty {cap : ℕ} {m : M β} (h : Reach false cap m) (hn : ∀ o r, m.arr o = some r → r.data = none) : m.size = 0 ∧ m.nseg = 0 := by
  have hi := h.ok
  have h0 : m.nseg = 0 := by
    rcases h.tail with (h1 | h1) | ⟨e, he, hu⟩
    · exact h1
    · exfalso
      obtain ⟨o, r, -, h2, h3⟩ := hi.seg _ h1
      rcases h3 with ⟨h3, -⟩ | ⟨-, -, h3⟩
      · exact absurd h3 (by simp)
      · rw [hn o r h2] at h3; exact absurd h3 (by simp)
    · exfalso
      obtain ⟨k, hk⟩ := List.mem_iff_getElem?.mp he
      obtain ⟨-, -, h3⟩ := hi.em k e hk
      obtain ⟨r, h2, h5⟩ := h3 hu
      rcases h5 with ⟨h5, -⟩ | ⟨-, -, h5⟩
      · exact absurd h5 (by simp)
      · rw [hn _ r h2] at h5; exact absurd h5 (by simp)
  refine ⟨?_, h0⟩
  rw [hi.size, h0]; simp [off]

end Verif.MemPool
