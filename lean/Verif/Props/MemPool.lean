import Verif.Lemmas.MemPoolCheck
/-! C87: the arrays that live in the memory pool of FDPS. -/
namespace Verif

open MemPool

variable {β : Type}

/-- C87 (calls): every safe call on an array of the memory pool ends with the message about a limit, and then a limit is exceeded, or it does what it should: the array has
the elements it should have, all other arrays have the elements they had, and within a parallel region their members are not even written. -/
theorem C87_calls_partial {intended : Bool} {cap : ℕ} {m : M β} (h : Reach intended cap m) (par : Bool) (op : Op β) (hs : Safe intended par m op) :
    (step intended par m op = .error .abort ∧ ¬ Fits m op) ∨
      ∃ m', step intended par m op = .ok m' ∧ Effect m m' op ∧ (∀ p, p ≠ op.target → view m' p = view m p ∧ (m'.arr p).map Arr.capacity = (m.arr p).map Arr.capacity) ∧
        (par = true → ∀ p, p ≠ op.target → m'.arr p = m.arr p) := by
  rcases step_spec intended par h.ok op hs with h1 | ⟨m', h1, h2, h3, h4, h5⟩
  · exact .inl h1
  · refine .inr ⟨m', h1, h2, fun p hp => ⟨h4.view hp, ?_⟩, h5⟩
    obtain ⟨k1, k2⟩ := h4 p (by simpa using hp)
    cases hm : m.arr p with
    | none => rw [k1 hm]
    | some r =>
      obtain ⟨d, i, h6, -, -⟩ := k2 r hm
      rw [h6]; rfl

/-- C87 (memory): at any time every array has the memory for its capacity inside of a block that is allocated, and no byte belongs to two arrays. -/
theorem C87_memory_partial {intended : Bool} {cap : ℕ} {m : M β} (h : Reach intended cap m) : Placed m := h.ok.placed

/-- C87 (empty): once no array has memory any more, the pool is empty: the assertion of `freeObjectFromMemoryPool` (tree_for_force.hpp:328) holds.  Only for programs that
never call `freeMem` with a number outside of `cap_per_seg_`. -/
theorem C87_empty_partial {cap : ℕ} {m : M β} (h : Reach false cap m) (hn : ∀ o r, m.arr o = some r → r.data = none) : m.size = 0 ∧ m.nseg = 0 := h.empty hn

/-- Two arrays, one of which grows in a parallel region beyond the capacity of the pool and so is in an emergency buffer (its number is 10000). -/
example : ∃ m : M ℕ, Reach false 256 m ∧ (m.arr 1).map Arr.id = some 10000 ∧ view m 0 = some (2, [some 7, some 8]) ∧ Safe false false m (.pushBack 0 [some 9, some 10]) ∧
    Safe false true m (.resize 0 300) ∧ Fits m (.pushBack 0 [some 9, some 10]) := by
  obtain ⟨m, hm⟩ : ∃ m, safeRun false 2 (initial 256 : M ℕ)
      [(false, .construct 0 2 32 0), (false, .construct 1 1 64 0), (false, .pushBack 0 [some 7, some 8]), (true, .resize 1 200)] = some m := Option.isSome_iff_exists.mp (by decide +kernel)
  have key : (safeRun false 2 (initial 256 : M ℕ)
      [(false, .construct 0 2 32 0), (false, .construct 1 1 64 0), (false, .pushBack 0 [some 7, some 8]), (true, .resize 1 200)]).all (fun m =>
        (m.arr 1).map Arr.id = some 10000 ∧ view m 0 = some (2, [some 7, some 8]) ∧ Safe false false m (.pushBack 0 [some 9, some 10]) ∧ Safe false true m (.resize 0 300) ∧
        m.nseg + inUse m + 1 < limit ∧ (m.arr 0).map (fun r => max (grown (r.size + 1)) r.capacityOrg) = some 103) = true := by decide +kernel
  rw [hm, Option.all_some, decide_eq_true_iff] at key
  obtain ⟨k1, k2, k3, k4, k5, k6⟩ := key
  refine ⟨m, (safeRun_start _ hm).1, k1, k2, k3, k4, k5, fun r hr => ?_⟩
  rw [hr] at k6
  have k7 : max (grown (r.size + 1)) r.capacityOrg = 103 := Option.some.inj k6
  rw [k7]; unfold capLimit; omega

/-- C87 fails for arrays without memory.  Their destructor reads `cap_per_seg_[-1]`.  So do `reserveAtLeast` and `reserveEmptyAreaAtLeast`, unless the program ends before.
And `reserve(n)` copies elements from a null pointer, even if `freeMem` did what it should. -/
theorem C87_calls_false_unallocated {intended : Bool} {cap : ℕ} {m : M β} (h : Reach intended cap m) {o : ℕ} {r : Arr} (ho : m.arr o = some r) (hd : r.data = none) (par : Bool) :
    (∀ n, 0 < n → n < capLimit → step intended par m (.reserve o n) = .error .fault) ∧
      (intended = false → step intended par m (.destroy o) = .error .fault ∧
        ∀ n, grown n < capLimit → m.nseg + inUse m + 1 < limit → step intended par m (.reserveAtLeast o n) = .error .fault) := by
  obtain ⟨-, hid, hcap⟩ : r.data = none ∧ r.id = -1 ∧ r.capacity = 0 := by
    rcases h.ok.place ho (by simp) with h1 | ⟨b, lo, l, q0, -⟩
    · exact h1
    · rw [hd] at q0; exact absurd q0 (by simp)
  obtain ⟨hw, -⟩ := h.ok.arrs o r ho (by simp)
  have hfree : ∀ m' : M β, freeMem false par (-1) m' = .error .fault := fun m' => by unfold freeMem; simp
  refine ⟨fun n h0 hn => ?_, ?_⟩
  · show reserve intended par o n m = _
    unfold reserve
    simp only [ho]
    rw [if_pos (by omega), if_neg (by omega)]
    unfold reallocInner
    have ha : (setArr o { r with capacity := n } m).arr o = some { r with capacity := n } := Function.update_self _ _ _
    have hpos : r.width * n ≠ 0 := by have := Nat.mul_pos hw h0; omega
    have hr : read r.data (r.width * n) (setArr o { r with capacity := n } m) = .error .fault := by unfold MemPool.read; rw [if_neg hpos, hd]
    simp only [ha, hr]
  · rintro rfl
    refine ⟨?_, fun n hn hroom => ?_⟩
    · show destroy false par o m = _
      unfold destroy
      simp only [ho, hid, hfree]
    · show reserveAtLeast false par o n m = _
      unfold reserveAtLeast
      have hc : capLimit = 2 ^ 30 := rfl
      simp only [ho]
      rw [if_pos (by omega), if_neg (by omega), if_neg (by omega)]
      unfold reallocInner
      have hr : read r.data (r.width * r.capacity) m = .ok [] := by rw [hcap, Nat.mul_zero, read_zero]
      simp only [ho, hr]
      obtain ⟨i1, own1⟩ := h.ok.open ho
      have hg : 0 < grown n := by unfold grown; omega
      rcases allocData_spec par (size := r.width * grown n) (by have := Nat.mul_pos hw hg; omega) (i1.setArr { r with capacity := grown n }) (Function.update_self _ _ _) (fun s hs => hs) own1
        (fun i => h.ok.id_lt ho i) (fun _ => by show r.id < _; rw [hid]; unfold limit; omega) (fun _ => by show m.nseg + inUse m ≤ limit; omega) with ⟨-, h2⟩ | ⟨m1, a, id', e1, i2, k2, a2, h2, -⟩
      · exact absurd hroom h2
      · have hne : (-1 : ℤ) ≠ id' := by have := h2.nonneg; omega
        simp only [e1, a2]
        rw [hid, if_pos hne, hfree]

/-- An array without memory. -/
example : ∃ m : M ℕ, Reach false 256 m ∧ (m.arr 0).map Arr.data = some none ∧ step false false m (.destroy 0) = .error .fault := by
  have h1 : Reach (β := ℕ) false 256 (setArr 0 ⟨1, none, 0, 0, 0, -1⟩ (setArr 0 ⟨1, none, 0, 0, 0, -1⟩ (initial 256))) :=
    Reach.call (par := false) (op := .construct 0 1 0 0) .start (by decide +kernel) rfl
  exact ⟨_, h1, rfl, ((C87_calls_false_unallocated h1 (Function.update_self _ _ _) rfl false).2 rfl).1⟩

/-- C87 fails for arrays in emergency buffers: to give their memory back, `freeMem` reads `cap_per_seg_` beyond its end. -/
theorem C87_calls_false_emergency {m : M β} {o : ℕ} {r : Arr} (ho : m.arr o = some r) (hd : r.data ≠ none) (hid : (limit : ℤ) ≤ r.id) (par : Bool) :
    step false par m (.destroy o) = .error .fault ∧ step false par m (.freeArr o) = .error .fault := by
  have hfree : freeMem false par r.id m = .error .fault := by
    unfold freeMem
    rw [if_neg (by omega)]; simp
  constructor
  · show destroy false par o m = _
    unfold destroy
    simp only [ho, hfree]
  · show freeArr false par o m = _
    unfold freeArr
    simp only [ho, hfree]
    rw [if_neg hd]

/-- Such an array, in a program of safe calls. -/
example : ∃ m : M ℕ, Reach false 64 m ∧ ∃ r, m.arr 0 = some r ∧ r.data ≠ none ∧ (limit : ℤ) ≤ r.id := by
  obtain ⟨m, hm⟩ : ∃ m, safeRun false 1 (initial 64 : M ℕ) [(false, .construct 0 1 0 0), (true, .resize 0 1)] = some m := Option.isSome_iff_exists.mp (by decide +kernel)
  have key : (safeRun false 1 (initial 64 : M ℕ) [(false, .construct 0 1 0 0), (true, .resize 0 1)]).all (fun m =>
      ∃ r, m.arr 0 = some r ∧ r.data ≠ none ∧ (limit : ℤ) ≤ r.id) = true := by decide +kernel
  rw [hm, Option.all_some, decide_eq_true_iff] at key
  exact ⟨m, (safeRun_start _ hm).1, key⟩

/-- C87 fails even if `freeMem` did what it should: an array that has grown in a parallel region, and so is in an emergency buffer, and grows again outside of it.  `alloc`
moves the buffer into a segment and forgets all buffers; `ReallocInner` then gives back the buffer that is no more, and not the segment. -/
theorem C87_calls_false_regrow : ∃ m : M ℕ, Reach true 64 m ∧ (∃ r, m.arr 0 = some r ∧ r.data ≠ none ∧ r.capacity < 200) ∧ step true false m (.resize 0 200) = .error .fault := by
  obtain ⟨m, hm⟩ : ∃ m, safeRun true 1 (initial 64 : M ℕ) [(false, .construct 0 1 0 0), (true, .resize 0 1)] = some m := Option.isSome_iff_exists.mp (by decide +kernel)
  have key : (safeRun true 1 (initial 64 : M ℕ) [(false, .construct 0 1 0 0), (true, .resize 0 1)]).all (fun m =>
      (∃ r, m.arr 0 = some r ∧ r.data ≠ none ∧ r.capacity < 200) ∧ faults (step true false m (.resize 0 200)) = true) = true := by decide +kernel
  rw [hm, Option.all_some, decide_eq_true_iff] at key
  exact ⟨m, (safeRun_start _ hm).1, key.1, faults_iff.mp key.2⟩

/-- C87 (empty) fails even if `freeMem` did what it should: an array that has grown in a parallel region gives up the last segment, and a free segment before that is then the
last one.  If the array is given back in the same parallel region, the pool is not empty although no array exists any more. -/
theorem C87_empty_false : ∃ m : M ℕ, Reach true 256 m ∧ (∀ o, m.arr o = none) ∧ m.size ≠ 0 := by
  obtain ⟨m, hm⟩ : ∃ m, safeRun true 2 (initial 256 : M ℕ)
      [(false, .construct 0 1 64 0), (false, .construct 1 1 64 0), (false, .destroy 0), (true, .resize 1 200), (true, .destroy 1)] = some m := Option.isSome_iff_exists.mp (by decide +kernel)
  have key : (safeRun true 2 (initial 256 : M ℕ)
      [(false, .construct 0 1 64 0), (false, .construct 1 1 64 0), (false, .destroy 0), (true, .resize 1 200), (true, .destroy 1)]).all (fun m =>
      m.size ≠ 0 ∧ m.arr 0 = none ∧ m.arr 1 = none) = true := by decide +kernel
  rw [hm, Option.all_some, decide_eq_true_iff] at key
  obtain ⟨h1, h2⟩ := safeRun_start _ hm
  refine ⟨m, h1, fun o => ?_, key.1⟩
  match o with
  | 0 => exact key.2.1
  | 1 => exact key.2.2
  | o + 2 => exact h2 _ (by omega)

end Verif
