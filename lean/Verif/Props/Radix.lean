import Verif.Lemmas.Radix
/-! C67: the threaded radix sort that orders the particles by Morton key. -/
namespace Verif
open Radix

theorem numLoops_pos {bits : ℕ} (h : 0 < bits) : 0 < numLoops bits := by
  unfold numLoops nbit; split <;> omega

theorem numLoops_ge (bits : ℕ) : bits ≤ numLoops bits * nbit := by
  unfold numLoops nbit; split <;> omega

/-- For every number of threads, every array and every execution in which the two worksharing loops of each pass are
scheduled statically in the same way, `lsdSort` stays inside its arrays and leaves in `val` the elements by increasing
key, equal keys in their original order.  The number of passes is the one computed from the key width. -/
theorem C67_radix_sort_correct {α : Type} (bits nt : ℕ) (hbits : 0 < bits) (hnt : 0 < nt) (s : ℕ → Sched)
    (key : α → ℕ) (val buf : List α) (hbuf : buf.length = val.length) (hkey : ∀ v ∈ val, key v < 2 ^ bits)
    (hs : ∀ loop, Static val.length nt (s loop)) :
    ∃ out, lsdSort bits nt s key val buf = some out ∧ out.Perm val ∧ StableSorted key val out := by
  obtain ⟨r, hr, hsort, hflip⟩ := loops_sorted nt hnt s key val hs (numLoops bits) 0 ⟨val, buf, false⟩
    (numLoops_pos hbits) (by simpa [Arrays.val] using sortedLow_zero key val) rfl (by simpa [Arrays.buf] using hbuf)
  have hb : (if numLoops bits % 2 = 1 then some r.buf else some r.first) = some r.buf := by
    split
    · rfl
    · rename_i h
      rw [if_pos (by omega)] at hflip
      simp [Arrays.buf, hflip]
  obtain ⟨idx, hp, ho, hpw⟩ := hsort
  refine ⟨r.buf, by simp only [lsdSort, hr, hb], ?_, idx, hp, ho, ?_⟩
  · have h1 : (r.buf.map some).Perm ((List.range val.length).map (fun i => val[i]?)) := by
      rw [ho]; exact hp.map _
    have h2 : (List.range val.length).map (fun i => val[i]?) = val.map some := by
      apply List.ext_getElem
      · simp
      · intro i h1 h2
        simp at h1
        simp [List.getElem?_eq_getElem h1]
    rw [h2] at h1
    exact (List.map_perm_map_iff (Option.some_injective α)).mp h1
  · refine hpw.imp ?_
    intro i j h a b ha hb'
    have key' : ∀ (i : ℕ) (a : α), val[i]? = some a → key a % 2 ^ ((0 + numLoops bits) * nbit) = key a := by
      intro i a ha
      apply Nat.mod_eq_of_lt
      exact lt_of_lt_of_le (hkey a (List.mem_of_getElem? ha))
        (Nat.pow_le_pow_right (by omega) (by rw [Nat.zero_add]; exact numLoops_ge bits))
    have := h a b ha hb'
    rwa [key' i a ha, key' j b hb'] at this

/-- Four elements on two threads, each thread running its iterations interleaved with those of the other one. -/
example : ∀ loop : ℕ, Static [300, 7, 300, 1].length 2
    ((fun _ => ⟨2, fun i => i / 2, fun i => i / 2, [2, 0, 3, 1], [2, 0, 3, 1], fun _ _ => 9⟩ : ℕ → Sched) loop) :=
  fun _ => ⟨rfl, fun _ _ => rfl, fun i hi => by simp at hi ⊢; omega, fun i j h _ => by simp; omega,
    (by decide : [2, 0, 3, 1].Perm (List.range 4)), (by decide : [2, 0, 3, 1].Perm (List.range 4)), by simp⟩

example (s : ℕ → Sched) (hs : ∀ l, Static 4 2 (s l)) :
    ∃ out, lsdSort 64 2 s id [300, 7, 300, 1] [0, 0, 0, 0] = some out ∧ out.Perm [300, 7, 300, 1] ∧
      StableSorted id [300, 7, 300, 1] out :=
  C67_radix_sort_correct 64 2 (by decide) (by decide) s id _ _ rfl (by simp) hs

/-- The code does not ask for a static schedule.  If the runtime gives the iteration to different threads in the two
loops, the element is written outside the array. -/
theorem C67_other_schedules_false :
    ∃ (s : ℕ → Sched), (∀ l, (s l).team = 2 ∧ (∀ i, (s l).own1 i < 2) ∧ (∀ i, (s l).own2 i < 2) ∧
        (s l).order1 = List.range 1 ∧ (s l).order2 = List.range 1) ∧
      lsdSort 64 2 s id [0] [0] = none := by
  refine ⟨fun _ => ⟨2, fun _ => 0, fun _ => 1, [0], [0], fun _ _ => 0⟩, fun _ => ⟨rfl, fun _ => Nat.zero_lt_two,
    fun _ => Nat.one_lt_two, rfl, rfl⟩, ?_⟩
  have h : prefixSum 2 (countLoop (fun _ => 0) (fun i => match ([0] : List ℕ)[i]? with
      | some v => digit 0 v | none => 0) (clearRows 2 (fun _ _ => 0)) [0]) 0 1 = 1 := by
    rw [prefixSum, prefixSum, countLoop_eq]
    rfl
  have hp : pass 2 ⟨2, fun _ => 0, fun _ => 1, [0], [0], fun _ _ => 0⟩ (id : ℕ → ℕ) (0 * nbit) [0] [0] = none := by
    have hd : digit 0 0 = 0 := rfl
    simp only [pass, scatter, id, Nat.zero_mul]
    simp only [List.getElem?_cons_zero, hd, List.length_singleton]
    rw [if_neg]
    exact fun hlt => absurd (h ▸ hlt) (by omega)
  have hn : numLoops 64 = 7 + 1 := rfl
  simp only [lsdSort, hn, loops, Arrays.val, Arrays.buf, Bool.false_eq_true, if_false, hp]

/-- Only the rows of the threads of the team are cleared.  If the team is smaller than `n_thread_`, old contents of the
other rows enter the prefix sums. -/
theorem C67_smaller_team_false :
    ∃ (s : ℕ → Sched), (∀ l, (s l).team = 1 ∧ (s l).own1 = (fun _ => 0) ∧ (s l).own2 = (fun _ => 0) ∧
        (s l).order1 = List.range 1 ∧ (s l).order2 = List.range 1) ∧
      lsdSort 64 2 s id [1] [0] = none := by
  refine ⟨fun _ => ⟨1, fun _ => 0, fun _ => 0, [0], [0], fun _ _ => 1⟩, fun _ => ⟨rfl, rfl, rfl, rfl, rfl⟩, ?_⟩
  have h : prefixSum 2 (countLoop (fun _ => 0) (fun i => match ([1] : List ℕ)[i]? with
      | some v => digit 0 v | none => 0) (clearRows 1 (fun _ _ => 1)) [0]) 1 0 = 1 := by
    rw [prefixSum, prefixSum, prefixSum, countLoop_eq, countLoop_eq]
    rfl
  have hp : pass 2 ⟨1, fun _ => 0, fun _ => 0, [0], [0], fun _ _ => 1⟩ (id : ℕ → ℕ) (0 * nbit) [1] [0] = none := by
    have hd : digit 0 1 = 1 := rfl
    simp only [pass, scatter, id, Nat.zero_mul]
    simp only [List.getElem?_cons_zero, hd, List.length_singleton]
    rw [if_neg]
    exact fun hlt => absurd (h ▸ hlt) (by omega)
  have hn : numLoops 64 = 7 + 1 := rfl
  simp only [lsdSort, hn, loops, Arrays.val, Arrays.buf, Bool.false_eq_true, if_false, hp]

end Verif
