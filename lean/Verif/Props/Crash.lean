import Verif.Lemmas.Crash
import Verif.Model.Output
/-! C47: what a crash leaves of the restart file and of the snapshots. -/
namespace Verif
open Verif.Crash

/-- All files of a snapshot, on `P` ranks, are complete. -/
def Whole (P : ℕ) (d : Crash.Disk) (n : ℕ) : Prop :=
  d (.ascii n) = .complete n ∧ d (.pvtp n) = .complete n ∧ d (.conPvtp n) = .complete n ∧ ∀ r < P, d (.vtp n r) = .complete n ∧ d (.con n r) = .complete n

/-- **C47** as wanted: the restart file is absent or names a snapshot all of whose files are complete. -/
def RestartSafe (P : ℕ) (d : Crash.Disk) : Prop := d .info = .absent ∨ ∃ n, d .info = .complete n ∧ Whole P d n

/-- **C47** (partial).  In every state in which a run on any number of ranks, begun at snapshot `s0` with any files from earlier runs, can
be stopped: if the restart file is complete and names snapshot `n`, then either this run has not written it and it names what it
named before, or everything rank 0 writes for snapshot `n` is complete, and all files of all ranks of all earlier snapshots of
this run are complete; and nothing of snapshots before `s0` has changed.

Missing: the pieces of the other ranks of snapshot `n` may be incomplete (`C47_ranks_false`), and the restart file itself may be
truncated (`C47_truncated_false`). -/
theorem C47_named_partial (P s0 : ℕ) (hP : 0 < P) (d0 : Crash.Disk) (st : State) (h : Reach P s0 d0 st) :
    (∀ n, st.disk .info = .complete n → d0 .info = .complete n ∧ st.phase < 2 ∨
      s0 ≤ n ∧ (∀ m, s0 ≤ m → m < n → Whole P st.disk m) ∧
        st.disk (.ascii n) = .complete n ∧ st.disk (.pvtp n) = .complete n ∧ st.disk (.conPvtp n) = .complete n ∧
        st.disk (.vtp n 0) = .complete n ∧ st.disk (.con n 0) = .complete n) ∧
    ∀ n, n < s0 → st.disk (.ascii n) = d0 (.ascii n) ∧ st.disk (.pvtp n) = d0 (.pvtp n) ∧ st.disk (.conPvtp n) = d0 (.conPvtp n) ∧
      ∀ r, st.disk (.vtp n r) = d0 (.vtp n r) ∧ st.disk (.con n r) = d0 (.con n r) := by
  obtain ⟨hd, -⟩ := reach_expected P s0 hP d0 st h
  obtain ⟨k, done, disk⟩ := st
  simp only at *
  subst hd
  refine ⟨?_, ?_⟩
  · intro n hn
    by_cases hold : d0 .info = .complete n ∧ k < 2
    · exact Or.inl hold
    · right
      have key : s0 ≤ n ∧ (2 * (n - s0) + 1 < k ∨ 2 * (n - s0) + 1 = k ∧ 10 ≤ done 0) := by
        simp only [expected] at hn
        split_ifs at hn with h1 h2 h3
        · simp only [Status.complete.injEq] at hn
          omega
        · exact absurd ⟨hn, h3⟩ hold
        · simp only [Status.complete.injEq] at hn
          omega
      refine ⟨key.1, ?_, ?_, ?_, ?_, ?_, ?_⟩
      · intro m hm hmn
        refine ⟨?_, ?_, ?_, fun r hr => ⟨?_, ?_⟩⟩ <;> simp only [expected, at_]
        · rw [if_pos hm, if_pos (by omega)]
        · rw [if_pos hm, if_pos (by omega)]
        · rw [if_pos hm, if_pos (by omega)]
        · rw [if_pos ⟨hm, hr⟩, if_pos (by omega)]
        · rw [if_pos ⟨hm, hr⟩, if_pos (by omega)]
      all_goals simp only [expected, at_]
      · rw [if_pos key.1, if_pos (by omega)]
      · rw [if_pos key.1, if_pos (by omega)]
      · rw [if_pos key.1, if_pos (by omega)]
      · rw [if_pos ⟨key.1, hP⟩, if_pos (by omega)]
      · rw [if_pos ⟨key.1, hP⟩, if_pos (by omega)]
  · intro n hn
    refine ⟨?_, ?_, ?_, fun r => ⟨?_, ?_⟩⟩ <;> simp only [expected]
    · rw [if_neg (by omega)]
    · rw [if_neg (by omega)]
    · rw [if_neg (by omega)]
    · rw [if_neg (by omega)]
    · rw [if_neg (by omega)]

/-- **C47** (partial): on one rank, whenever the restart file is not just being rewritten, it is absent or names a snapshot all of whose
files are complete, provided that was so at the start. -/
theorem C47_single_partial (s0 : ℕ) (d0 : Crash.Disk) (h0 : d0 .info = .absent ∨ ∃ n < s0, d0 .info = .complete n ∧ Whole 1 d0 n) (st : State)
    (h : Reach 1 s0 d0 st) (hw : st.disk .info ≠ .writing) : RestartSafe 1 st.disk := by
  obtain ⟨h1, h2⟩ := C47_named_partial 1 s0 one_pos d0 st h
  obtain ⟨hd, -⟩ := reach_expected 1 s0 one_pos d0 st h
  cases hi : st.disk .info with
  | writing => exact absurd hi hw
  | absent => exact Or.inl hi
  | complete n =>
    right
    rcases h1 n hi with ⟨hold, -⟩ | ⟨hn, -, ha, hb, hc, hv, hk⟩
    · rcases h0 with h0 | ⟨m, hm, h0, hwh⟩
      · rw [h0] at hold
        cases hold
      · rw [hold] at h0
        cases h0
        obtain ⟨a, b, c, d⟩ := h2 n hm
        refine ⟨n, hi, ?_, ?_, ?_, ?_⟩
        · rw [a]; exact hwh.1
        · rw [b]; exact hwh.2.1
        · rw [c]; exact hwh.2.2.1
        · intro r hr
          rw [(d r).1, (d r).2]
          exact hwh.2.2.2 r hr
    · refine ⟨n, hi, ha, hb, hc, ?_⟩
      intro r hr
      have : r = 0 := by omega
      subst this
      exact ⟨hv, hk⟩

/-- **C47** (partial): once any rank has begun the snapshot after `n`, snapshot `n` is complete on all ranks. -/
theorem C47_next_partial (P s0 : ℕ) (hP : 0 < P) (d0 : Crash.Disk) (st : State) (h : Reach P s0 d0 st) (n : ℕ) (hn : s0 ≤ n) (hst : st.disk (.ascii (n + 1)) ≠ d0 (.ascii (n + 1))) :
    Whole P st.disk n := by
  obtain ⟨hd, -⟩ := reach_expected P s0 hP d0 st h
  obtain ⟨k, done, disk⟩ := st
  simp only at *
  subst hd
  have key : 2 * (n + 1 - s0) ≤ k := by
    by_contra hlt
    apply hst
    simp only [expected, at_]
    rw [if_pos (by omega), if_neg (by omega), if_neg (by omega)]
  refine ⟨?_, ?_, ?_, fun r hr => ⟨?_, ?_⟩⟩ <;> simp only [expected, at_]
  · rw [if_pos hn, if_pos (by omega)]
  · rw [if_pos hn, if_pos (by omega)]
  · rw [if_pos hn, if_pos (by omega)]
  · rw [if_pos ⟨hn, hr⟩, if_pos (by omega)]
  · rw [if_pos ⟨hn, hr⟩, if_pos (by omega)]

/-- Rank 0 runs alone from a state. -/
theorem reach_alone (P s0 : ℕ) (hP : 0 < P) (d0 : Crash.Disk) (st : State) (h : Reach P s0 d0 st) (j : ℕ) (hj : st.done 0 + j ≤ (ops s0 st.phase 0).length) :
    ∃ st', Reach P s0 d0 st' ∧ st'.phase = st.phase ∧ st'.done 0 = st.done 0 + j ∧ ∀ r, r ≠ 0 → st'.done r = st.done r := by
  induction j with
  | zero => exact ⟨st, h, rfl, rfl, fun _ _ => rfl⟩
  | succ j ih =>
    obtain ⟨st', h', hp, hd, ho⟩ := ih (by omega)
    have hlt : st'.done 0 < (ops s0 st'.phase 0).length := by rw [hp, hd]; omega
    refine ⟨_, Reach.step st' 0 _ h' hP (List.getElem?_eq_getElem hlt), hp, ?_, ?_⟩
    · simp only [State.advance, if_true]
      omega
    · intro r hr
      simp only [State.advance]
      rw [if_neg hr]
      exact ho r hr

/-- **C47** is false on two or more ranks: rank 0 writes the restart file without waiting for the others, so that a crash can leave it
naming snapshot 0 while the piece of rank 1 does not exist. -/
theorem C47_ranks_false (P : ℕ) (hP : 1 < P) :
    ∃ st, Reach P 0 (fun _ => .absent) st ∧ st.disk .info = .complete 0 ∧ st.disk (.vtp 0 1) = .absent ∧ ¬ RestartSafe P st.disk := by
  have hP0 : 0 < P := by omega
  obtain ⟨st1, h1, hp1, hd1, ho1⟩ := reach_alone P 0 hP0 (fun _ => .absent) _ Reach.init 2 (by rw [ops_even_zero 0 0 rfl]; simp)
  have hb := Reach.barrier st1 h1 (by
    intro r hr
    rw [hp1]
    by_cases h : r = 0
    · subst h
      rw [hd1, ops_even_zero 0 0 rfl]
      rfl
    · rw [ho1 r h, ops_even_other 0 0 r rfl h]
      rfl)
  rw [hp1] at hb
  obtain ⟨st2, h2, hp2, hd2, ho2⟩ := reach_alone P 0 hP0 (fun _ => .absent) _ hb 10 (by
    show 0 + 10 ≤ (ops 0 1 0).length
    rw [ops_zero 0 1 rfl]
    simp)
  obtain ⟨hdisk, -⟩ := reach_expected P 0 hP0 _ st2 h2
  have hp2 : st2.phase = 1 := hp2
  have hd2 : st2.done 0 = 10 := hd2
  have ho2 : st2.done 1 = 0 := ho2 1 (by norm_num)
  have hinfo : st2.disk .info = .complete 0 := by
    rw [hdisk, hp2]
    simp only [expected, hd2]
    rfl
  have hv : st2.disk (.vtp 0 1) = .absent := by
    rw [hdisk, hp2]
    simp only [expected, at_, ho2]
    rw [if_pos ⟨le_rfl, hP⟩]
    rfl
  refine ⟨st2, h2, hinfo, hv, ?_⟩
  rintro (h | ⟨n, hn, hw⟩)
  · rw [hinfo] at h
    cases h
  · rw [hinfo] at hn
    cases hn
    have := (hw.2.2.2 1 hP).1
    rw [hv] at this
    cases this

/-- **C47** is false even on one rank: the restart file is truncated before it is rewritten, so that a crash can leave it empty although
snapshot 0, which it named before, is complete.  An empty restart file cannot be read. -/
theorem C47_truncated_false : (∃ st, Reach 1 0 (fun _ => .absent) st ∧ st.disk .info = .writing ∧ Whole 1 st.disk 0 ∧ ¬ RestartSafe 1 st.disk) ∧
    Output.readInfo [] = none := by
  refine ⟨?_, rfl⟩
  have go : ∀ k, ∃ st, Reach 1 0 (fun _ => .absent) st ∧ st.phase = k ∧ ∀ r < 1, st.done r = 0 := by
    intro k
    induction k with
    | zero => exact ⟨_, Reach.init, rfl, fun _ _ => rfl⟩
    | succ k ih =>
      obtain ⟨st, h, hp, hd⟩ := ih
      obtain ⟨st1, h1, hp1, hd1, -⟩ := reach_alone 1 0 one_pos _ st h (ops 0 st.phase 0).length (by rw [hd 0 one_pos]; omega)
      refine ⟨_, Reach.barrier st1 h1 ?_, ?_, fun _ _ => rfl⟩
      · intro r hr
        have : r = 0 := by omega
        subst this
        rw [hd1, hd 0 one_pos, hp1]
        omega
      · rw [hp1, hp]
  obtain ⟨st, h, hp, hd⟩ := go 3
  obtain ⟨st1, h1, hp1, hd1, -⟩ := reach_alone 1 0 one_pos _ st h 9 (by rw [hd 0 one_pos, hp, ops_zero 0 3 rfl]; simp)
  rw [hp] at hp1
  rw [hd 0 one_pos] at hd1
  obtain ⟨hdisk, -⟩ := reach_expected 1 0 one_pos _ st1 h1
  have hinfo : st1.disk .info = .writing := by
    rw [hdisk, hp1]
    simp only [expected, hd1]
    rfl
  refine ⟨st1, h1, hinfo, ?_, ?_⟩
  · rw [hdisk, hp1]
    refine ⟨rfl, rfl, rfl, ?_⟩
    intro r hr
    have : r = 0 := by omega
    subst this
    exact ⟨rfl, rfl⟩
  · rintro (h | ⟨n, hn, -⟩)
    · rw [hinfo] at h
      cases h
    · rw [hinfo] at hn
      cases hn

/-- A run of three ranks from snapshot 4 with a restart file naming snapshot 3. -/
example : Reach 3 4 (fun p => if p = .info then .complete 3 else .absent) (State.advance ⟨0, fun _ => 0, fun p => if p = .info then .complete 3 else .absent⟩ 0 (.start (.ascii 4))) :=
  Reach.step _ 0 _ Reach.init (by norm_num) rfl

end Verif
