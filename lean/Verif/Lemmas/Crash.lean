import Verif.Model.Crash
import Mathlib.Tactic.IntervalCases
namespace Verif.Crash

/-- The status of a file written by rank `r` in phase `k`, as operations `j` and `j + 1` of the rank. -/
def at_ (old : Status) (n phase : ℕ) (done : ℕ) (k j : ℕ) : Status :=
  if k < phase ∨ (k = phase ∧ j + 2 ≤ done) then .complete n else if k = phase ∧ done = j + 1 then .writing else old

/-- The files, from the phase and the progress of the ranks. -/
def expected (P s0 : ℕ) (d0 : Disk) (phase : ℕ) (done : ℕ → ℕ) : Disk
  | .ascii n => if s0 ≤ n then at_ (d0 (.ascii n)) n phase (done 0) (2 * (n - s0)) 0 else d0 (.ascii n)
  | .vtp n r => if s0 ≤ n ∧ r < P then at_ (d0 (.vtp n r)) n phase (done r) (2 * (n - s0) + 1) 0 else d0 (.vtp n r)
  | .con n r => if s0 ≤ n ∧ r < P then at_ (d0 (.con n r)) n phase (done r) (2 * (n - s0) + 1) 2 else d0 (.con n r)
  | .pvtp n => if s0 ≤ n then at_ (d0 (.pvtp n)) n phase (done 0) (2 * (n - s0) + 1) 4 else d0 (.pvtp n)
  | .conPvtp n => if s0 ≤ n then at_ (d0 (.conPvtp n)) n phase (done 0) (2 * (n - s0) + 1) 6 else d0 (.conPvtp n)
  | .info =>
    if phase % 2 = 1 ∧ done 0 = 9 then .writing
    else if phase % 2 = 1 ∧ 10 ≤ done 0 then .complete (s0 + phase / 2)
    else if phase < 2 then d0 .info else .complete (s0 + phase / 2 - 1)

/-- Rank 0's operations in an odd phase. -/
theorem ops_zero (s0 k : ℕ) (h : k % 2 = 1) : ops s0 k 0 =
    [.start (.vtp (s0 + k / 2) 0), .finish (.vtp (s0 + k / 2) 0) (s0 + k / 2), .start (.con (s0 + k / 2) 0), .finish (.con (s0 + k / 2) 0) (s0 + k / 2),
      .start (.pvtp (s0 + k / 2)), .finish (.pvtp (s0 + k / 2)) (s0 + k / 2), .start (.conPvtp (s0 + k / 2)), .finish (.conPvtp (s0 + k / 2)) (s0 + k / 2),
      .start .info, .finish .info (s0 + k / 2)] := by
  unfold ops
  simp only
  rw [if_neg (by omega), if_pos trivial]
  rfl

theorem ops_other (s0 k r : ℕ) (h : k % 2 = 1) (hr : r ≠ 0) : ops s0 k r =
    [.start (.vtp (s0 + k / 2) r), .finish (.vtp (s0 + k / 2) r) (s0 + k / 2), .start (.con (s0 + k / 2) r), .finish (.con (s0 + k / 2) r) (s0 + k / 2)] := by
  unfold ops
  simp only
  rw [if_neg (by omega), if_neg hr]
  rfl

theorem ops_even_zero (s0 k : ℕ) (h : k % 2 = 0) : ops s0 k 0 = [.start (.ascii (s0 + k / 2)), .finish (.ascii (s0 + k / 2)) (s0 + k / 2)] := by
  unfold ops
  simp only
  rw [if_pos h, if_pos trivial]
  rfl

theorem ops_even_other (s0 k r : ℕ) (h : k % 2 = 0) (hr : r ≠ 0) : ops s0 k r = [] := by
  unfold ops
  simp only
  rw [if_pos h, if_neg hr]

macro "finish_disk" : tactic => `(tactic| (
  simp only [expected, Op.run, at_, Path.ascii.injEq, Path.vtp.injEq, Path.con.injEq, Path.pvtp.injEq, Path.conPvtp.injEq, reduceCtorEq, if_false, if_true, and_true, and_false]
  split_ifs <;> first | rfl | (exfalso; omega) | (congr 1; omega)))

theorem zero_ascii (P s0 k : ℕ) (hP : 0 < P) (d0 : Disk) (done : ℕ → ℕ) (hk : k % 2 = 1) (op : Op) (hlt : done 0 < 10)
    (hop : (ops s0 k 0)[done 0]? = some op) (n : ℕ) :
    op.run (expected P s0 d0 k done) (.ascii n) = expected P s0 d0 k (fun q => if q = 0 then done 0 + 1 else done q) (.ascii n) := by
  rw [ops_zero s0 k hk] at hop
  have hc : done 0 = 0 ∨ done 0 = 1 ∨ done 0 = 2 ∨ done 0 = 3 ∨ done 0 = 4 ∨ done 0 = 5 ∨ done 0 = 6 ∨ done 0 = 7 ∨ done 0 = 8 ∨ done 0 = 9 := by omega
  rcases hc with hc | hc | hc | hc | hc | hc | hc | hc | hc | hc <;> rw [hc] at hop <;>
      simp only [List.getElem?_cons_succ, List.getElem?_cons_zero, Option.some.injEq] at hop <;> subst hop <;> finish_disk

theorem zero_vtp (P s0 k : ℕ) (hP : 0 < P) (d0 : Disk) (done : ℕ → ℕ) (hk : k % 2 = 1) (op : Op) (hlt : done 0 < 10)
    (hop : (ops s0 k 0)[done 0]? = some op) (n q : ℕ) :
    op.run (expected P s0 d0 k done) (.vtp n q) = expected P s0 d0 k (fun q => if q = 0 then done 0 + 1 else done q) (.vtp n q) := by
  rw [ops_zero s0 k hk] at hop
  have hc : done 0 = 0 ∨ done 0 = 1 ∨ done 0 = 2 ∨ done 0 = 3 ∨ done 0 = 4 ∨ done 0 = 5 ∨ done 0 = 6 ∨ done 0 = 7 ∨ done 0 = 8 ∨ done 0 = 9 := by omega
  by_cases hq : q = 0
  · subst hq
    rcases hc with hc | hc | hc | hc | hc | hc | hc | hc | hc | hc <;> rw [hc] at hop <;>
      simp only [List.getElem?_cons_succ, List.getElem?_cons_zero, Option.some.injEq] at hop <;> subst hop <;> finish_disk
  · rcases hc with hc | hc | hc | hc | hc | hc | hc | hc | hc | hc <;> rw [hc] at hop <;>
      simp only [List.getElem?_cons_succ, List.getElem?_cons_zero, Option.some.injEq] at hop <;> subst hop <;> finish_disk

theorem zero_con (P s0 k : ℕ) (hP : 0 < P) (d0 : Disk) (done : ℕ → ℕ) (hk : k % 2 = 1) (op : Op) (hlt : done 0 < 10)
    (hop : (ops s0 k 0)[done 0]? = some op) (n q : ℕ) :
    op.run (expected P s0 d0 k done) (.con n q) = expected P s0 d0 k (fun q => if q = 0 then done 0 + 1 else done q) (.con n q) := by
  rw [ops_zero s0 k hk] at hop
  have hc : done 0 = 0 ∨ done 0 = 1 ∨ done 0 = 2 ∨ done 0 = 3 ∨ done 0 = 4 ∨ done 0 = 5 ∨ done 0 = 6 ∨ done 0 = 7 ∨ done 0 = 8 ∨ done 0 = 9 := by omega
  by_cases hq : q = 0
  · subst hq
    rcases hc with hc | hc | hc | hc | hc | hc | hc | hc | hc | hc <;> rw [hc] at hop <;>
      simp only [List.getElem?_cons_succ, List.getElem?_cons_zero, Option.some.injEq] at hop <;> subst hop <;> finish_disk
  · rcases hc with hc | hc | hc | hc | hc | hc | hc | hc | hc | hc <;> rw [hc] at hop <;>
      simp only [List.getElem?_cons_succ, List.getElem?_cons_zero, Option.some.injEq] at hop <;> subst hop <;> finish_disk

theorem zero_pvtp (P s0 k : ℕ) (hP : 0 < P) (d0 : Disk) (done : ℕ → ℕ) (hk : k % 2 = 1) (op : Op) (hlt : done 0 < 10)
    (hop : (ops s0 k 0)[done 0]? = some op) (n : ℕ) :
    op.run (expected P s0 d0 k done) (.pvtp n) = expected P s0 d0 k (fun q => if q = 0 then done 0 + 1 else done q) (.pvtp n) := by
  rw [ops_zero s0 k hk] at hop
  have hc : done 0 = 0 ∨ done 0 = 1 ∨ done 0 = 2 ∨ done 0 = 3 ∨ done 0 = 4 ∨ done 0 = 5 ∨ done 0 = 6 ∨ done 0 = 7 ∨ done 0 = 8 ∨ done 0 = 9 := by omega
  rcases hc with hc | hc | hc | hc | hc | hc | hc | hc | hc | hc <;> rw [hc] at hop <;>
      simp only [List.getElem?_cons_succ, List.getElem?_cons_zero, Option.some.injEq] at hop <;> subst hop <;> finish_disk

theorem zero_conPvtp (P s0 k : ℕ) (hP : 0 < P) (d0 : Disk) (done : ℕ → ℕ) (hk : k % 2 = 1) (op : Op) (hlt : done 0 < 10)
    (hop : (ops s0 k 0)[done 0]? = some op) (n : ℕ) :
    op.run (expected P s0 d0 k done) (.conPvtp n) = expected P s0 d0 k (fun q => if q = 0 then done 0 + 1 else done q) (.conPvtp n) := by
  rw [ops_zero s0 k hk] at hop
  have hc : done 0 = 0 ∨ done 0 = 1 ∨ done 0 = 2 ∨ done 0 = 3 ∨ done 0 = 4 ∨ done 0 = 5 ∨ done 0 = 6 ∨ done 0 = 7 ∨ done 0 = 8 ∨ done 0 = 9 := by omega
  rcases hc with hc | hc | hc | hc | hc | hc | hc | hc | hc | hc <;> rw [hc] at hop <;>
      simp only [List.getElem?_cons_succ, List.getElem?_cons_zero, Option.some.injEq] at hop <;> subst hop <;> finish_disk

theorem zero_info (P s0 k : ℕ) (hP : 0 < P) (d0 : Disk) (done : ℕ → ℕ) (hk : k % 2 = 1) (op : Op) (hlt : done 0 < 10)
    (hop : (ops s0 k 0)[done 0]? = some op)  :
    op.run (expected P s0 d0 k done) .info = expected P s0 d0 k (fun q => if q = 0 then done 0 + 1 else done q) .info := by
  rw [ops_zero s0 k hk] at hop
  have hc : done 0 = 0 ∨ done 0 = 1 ∨ done 0 = 2 ∨ done 0 = 3 ∨ done 0 = 4 ∨ done 0 = 5 ∨ done 0 = 6 ∨ done 0 = 7 ∨ done 0 = 8 ∨ done 0 = 9 := by omega
  rcases hc with hc | hc | hc | hc | hc | hc | hc | hc | hc | hc <;> rw [hc] at hop <;>
      simp only [List.getElem?_cons_succ, List.getElem?_cons_zero, Option.some.injEq] at hop <;> subst hop <;> finish_disk

theorem other_ascii (P s0 k r : ℕ) (hr : r < P) (hr0 : r ≠ 0) (d0 : Disk) (done : ℕ → ℕ) (hk : k % 2 = 1) (op : Op) (hlt : done r < 4)
    (hop : (ops s0 k r)[done r]? = some op) (n : ℕ) :
    op.run (expected P s0 d0 k done) (.ascii n) = expected P s0 d0 k (fun q => if q = r then done r + 1 else done q) (.ascii n) := by
  rw [ops_other s0 k r hk hr0] at hop
  have hc : done r = 0 ∨ done r = 1 ∨ done r = 2 ∨ done r = 3 := by omega
  rcases hc with hc | hc | hc | hc <;> rw [hc] at hop <;>
      simp only [List.getElem?_cons_succ, List.getElem?_cons_zero, Option.some.injEq] at hop <;> subst hop <;> finish_disk

theorem other_vtp (P s0 k r : ℕ) (hr : r < P) (hr0 : r ≠ 0) (d0 : Disk) (done : ℕ → ℕ) (hk : k % 2 = 1) (op : Op) (hlt : done r < 4)
    (hop : (ops s0 k r)[done r]? = some op) (n q : ℕ) :
    op.run (expected P s0 d0 k done) (.vtp n q) = expected P s0 d0 k (fun q => if q = r then done r + 1 else done q) (.vtp n q) := by
  rw [ops_other s0 k r hk hr0] at hop
  have hc : done r = 0 ∨ done r = 1 ∨ done r = 2 ∨ done r = 3 := by omega
  by_cases hq : q = r
  · subst hq
    rcases hc with hc | hc | hc | hc <;> rw [hc] at hop <;>
      simp only [List.getElem?_cons_succ, List.getElem?_cons_zero, Option.some.injEq] at hop <;> subst hop <;> finish_disk
  · rcases hc with hc | hc | hc | hc <;> rw [hc] at hop <;>
      simp only [List.getElem?_cons_succ, List.getElem?_cons_zero, Option.some.injEq] at hop <;> subst hop <;> finish_disk

theorem other_con (P s0 k r : ℕ) (hr : r < P) (hr0 : r ≠ 0) (d0 : Disk) (done : ℕ → ℕ) (hk : k % 2 = 1) (op : Op) (hlt : done r < 4)
    (hop : (ops s0 k r)[done r]? = some op) (n q : ℕ) :
    op.run (expected P s0 d0 k done) (.con n q) = expected P s0 d0 k (fun q => if q = r then done r + 1 else done q) (.con n q) := by
  rw [ops_other s0 k r hk hr0] at hop
  have hc : done r = 0 ∨ done r = 1 ∨ done r = 2 ∨ done r = 3 := by omega
  by_cases hq : q = r
  · subst hq
    rcases hc with hc | hc | hc | hc <;> rw [hc] at hop <;>
      simp only [List.getElem?_cons_succ, List.getElem?_cons_zero, Option.some.injEq] at hop <;> subst hop <;> finish_disk
  · rcases hc with hc | hc | hc | hc <;> rw [hc] at hop <;>
      simp only [List.getElem?_cons_succ, List.getElem?_cons_zero, Option.some.injEq] at hop <;> subst hop <;> finish_disk

theorem other_pvtp (P s0 k r : ℕ) (hr : r < P) (hr0 : r ≠ 0) (d0 : Disk) (done : ℕ → ℕ) (hk : k % 2 = 1) (op : Op) (hlt : done r < 4)
    (hop : (ops s0 k r)[done r]? = some op) (n : ℕ) :
    op.run (expected P s0 d0 k done) (.pvtp n) = expected P s0 d0 k (fun q => if q = r then done r + 1 else done q) (.pvtp n) := by
  rw [ops_other s0 k r hk hr0] at hop
  have hc : done r = 0 ∨ done r = 1 ∨ done r = 2 ∨ done r = 3 := by omega
  rcases hc with hc | hc | hc | hc <;> rw [hc] at hop <;>
      simp only [List.getElem?_cons_succ, List.getElem?_cons_zero, Option.some.injEq] at hop <;> subst hop <;> finish_disk

theorem other_conPvtp (P s0 k r : ℕ) (hr : r < P) (hr0 : r ≠ 0) (d0 : Disk) (done : ℕ → ℕ) (hk : k % 2 = 1) (op : Op) (hlt : done r < 4)
    (hop : (ops s0 k r)[done r]? = some op) (n : ℕ) :
    op.run (expected P s0 d0 k done) (.conPvtp n) = expected P s0 d0 k (fun q => if q = r then done r + 1 else done q) (.conPvtp n) := by
  rw [ops_other s0 k r hk hr0] at hop
  have hc : done r = 0 ∨ done r = 1 ∨ done r = 2 ∨ done r = 3 := by omega
  rcases hc with hc | hc | hc | hc <;> rw [hc] at hop <;>
      simp only [List.getElem?_cons_succ, List.getElem?_cons_zero, Option.some.injEq] at hop <;> subst hop <;> finish_disk

theorem other_info (P s0 k r : ℕ) (hr : r < P) (hr0 : r ≠ 0) (d0 : Disk) (done : ℕ → ℕ) (hk : k % 2 = 1) (op : Op) (hlt : done r < 4)
    (hop : (ops s0 k r)[done r]? = some op)  :
    op.run (expected P s0 d0 k done) .info = expected P s0 d0 k (fun q => if q = r then done r + 1 else done q) .info := by
  rw [ops_other s0 k r hk hr0] at hop
  have hc : done r = 0 ∨ done r = 1 ∨ done r = 2 ∨ done r = 3 := by omega
  rcases hc with hc | hc | hc | hc <;> rw [hc] at hop <;>
      simp only [List.getElem?_cons_succ, List.getElem?_cons_zero, Option.some.injEq] at hop <;> subst hop <;> finish_disk

theorem even_ascii (P s0 k : ℕ) (d0 : Disk) (done : ℕ → ℕ) (hk : k % 2 = 0) (op : Op) (hlt : done 0 < 2)
    (hop : (ops s0 k 0)[done 0]? = some op) (n : ℕ) :
    op.run (expected P s0 d0 k done) (.ascii n) = expected P s0 d0 k (fun q => if q = 0 then done 0 + 1 else done q) (.ascii n) := by
  rw [ops_even_zero s0 k hk] at hop
  have hc : done 0 = 0 ∨ done 0 = 1 := by omega
  rcases hc with hc | hc <;> rw [hc] at hop <;>
      simp only [List.getElem?_cons_succ, List.getElem?_cons_zero, Option.some.injEq] at hop <;> subst hop <;> finish_disk

theorem even_vtp (P s0 k : ℕ) (d0 : Disk) (done : ℕ → ℕ) (hk : k % 2 = 0) (op : Op) (hlt : done 0 < 2)
    (hop : (ops s0 k 0)[done 0]? = some op) (n q : ℕ) :
    op.run (expected P s0 d0 k done) (.vtp n q) = expected P s0 d0 k (fun q => if q = 0 then done 0 + 1 else done q) (.vtp n q) := by
  rw [ops_even_zero s0 k hk] at hop
  have hc : done 0 = 0 ∨ done 0 = 1 := by omega
  by_cases hq : q = 0
  · subst hq
    rcases hc with hc | hc <;> rw [hc] at hop <;>
      simp only [List.getElem?_cons_succ, List.getElem?_cons_zero, Option.some.injEq] at hop <;> subst hop <;> finish_disk
  · rcases hc with hc | hc <;> rw [hc] at hop <;>
      simp only [List.getElem?_cons_succ, List.getElem?_cons_zero, Option.some.injEq] at hop <;> subst hop <;> finish_disk

theorem even_con (P s0 k : ℕ) (d0 : Disk) (done : ℕ → ℕ) (hk : k % 2 = 0) (op : Op) (hlt : done 0 < 2)
    (hop : (ops s0 k 0)[done 0]? = some op) (n q : ℕ) :
    op.run (expected P s0 d0 k done) (.con n q) = expected P s0 d0 k (fun q => if q = 0 then done 0 + 1 else done q) (.con n q) := by
  rw [ops_even_zero s0 k hk] at hop
  have hc : done 0 = 0 ∨ done 0 = 1 := by omega
  by_cases hq : q = 0
  · subst hq
    rcases hc with hc | hc <;> rw [hc] at hop <;>
      simp only [List.getElem?_cons_succ, List.getElem?_cons_zero, Option.some.injEq] at hop <;> subst hop <;> finish_disk
  · rcases hc with hc | hc <;> rw [hc] at hop <;>
      simp only [List.getElem?_cons_succ, List.getElem?_cons_zero, Option.some.injEq] at hop <;> subst hop <;> finish_disk

theorem even_pvtp (P s0 k : ℕ) (d0 : Disk) (done : ℕ → ℕ) (hk : k % 2 = 0) (op : Op) (hlt : done 0 < 2)
    (hop : (ops s0 k 0)[done 0]? = some op) (n : ℕ) :
    op.run (expected P s0 d0 k done) (.pvtp n) = expected P s0 d0 k (fun q => if q = 0 then done 0 + 1 else done q) (.pvtp n) := by
  rw [ops_even_zero s0 k hk] at hop
  have hc : done 0 = 0 ∨ done 0 = 1 := by omega
  rcases hc with hc | hc <;> rw [hc] at hop <;>
      simp only [List.getElem?_cons_succ, List.getElem?_cons_zero, Option.some.injEq] at hop <;> subst hop <;> finish_disk

theorem even_conPvtp (P s0 k : ℕ) (d0 : Disk) (done : ℕ → ℕ) (hk : k % 2 = 0) (op : Op) (hlt : done 0 < 2)
    (hop : (ops s0 k 0)[done 0]? = some op) (n : ℕ) :
    op.run (expected P s0 d0 k done) (.conPvtp n) = expected P s0 d0 k (fun q => if q = 0 then done 0 + 1 else done q) (.conPvtp n) := by
  rw [ops_even_zero s0 k hk] at hop
  have hc : done 0 = 0 ∨ done 0 = 1 := by omega
  rcases hc with hc | hc <;> rw [hc] at hop <;>
      simp only [List.getElem?_cons_succ, List.getElem?_cons_zero, Option.some.injEq] at hop <;> subst hop <;> finish_disk

theorem even_info (P s0 k : ℕ) (d0 : Disk) (done : ℕ → ℕ) (hk : k % 2 = 0) (op : Op) (hlt : done 0 < 2)
    (hop : (ops s0 k 0)[done 0]? = some op)  :
    op.run (expected P s0 d0 k done) .info = expected P s0 d0 k (fun q => if q = 0 then done 0 + 1 else done q) .info := by
  rw [ops_even_zero s0 k hk] at hop
  have hc : done 0 = 0 ∨ done 0 = 1 := by omega
  rcases hc with hc | hc <;> rw [hc] at hop <;>
      simp only [List.getElem?_cons_succ, List.getElem?_cons_zero, Option.some.injEq] at hop <;> subst hop <;> finish_disk

theorem reach_expected (P s0 : ℕ) (hP : 0 < P) (d0 : Disk) (st : State) (h : Reach P s0 d0 st) :
    st.disk = expected P s0 d0 st.phase st.done ∧ ∀ r < P, st.done r ≤ (ops s0 st.phase r).length := by
  induction h with
  | init =>
    refine ⟨?_, by simp⟩
    funext p
    cases p <;> simp [expected, at_]
  | step st r op _ hr hop ih =>
    obtain ⟨ih, hlen⟩ := ih
    have hlt : st.done r < (ops s0 st.phase r).length := by
      by_contra hge
      rw [List.getElem?_eq_none (by omega)] at hop
      simp at hop
    refine ⟨?_, ?_⟩
    · obtain ⟨k, done, disk⟩ := st
      simp only at *
      subst ih
      simp only [State.advance]
      rcases Nat.mod_two_eq_zero_or_one k with hk | hk
      · by_cases hr0 : r = 0
        · subst hr0
          have hl : (ops s0 k 0).length = 2 := by rw [ops_even_zero s0 k hk]; rfl
          rw [hl] at hlt
          funext p
          cases p with
          | ascii n => exact even_ascii P s0 k d0 done hk op hlt hop n
          | vtp n q => exact even_vtp P s0 k d0 done hk op hlt hop n q
          | con n q => exact even_con P s0 k d0 done hk op hlt hop n q
          | pvtp n => exact even_pvtp P s0 k d0 done hk op hlt hop n
          | conPvtp n => exact even_conPvtp P s0 k d0 done hk op hlt hop n
          | info => exact even_info P s0 k d0 done hk op hlt hop
        · rw [ops_even_other s0 k r hk hr0] at hlt
          simp at hlt
      · by_cases hr0 : r = 0
        · subst hr0
          have hl : (ops s0 k 0).length = 10 := by rw [ops_zero s0 k hk]; rfl
          rw [hl] at hlt
          funext p
          cases p with
          | ascii n => exact zero_ascii P s0 k hP d0 done hk op hlt hop n
          | vtp n q => exact zero_vtp P s0 k hP d0 done hk op hlt hop n q
          | con n q => exact zero_con P s0 k hP d0 done hk op hlt hop n q
          | pvtp n => exact zero_pvtp P s0 k hP d0 done hk op hlt hop n
          | conPvtp n => exact zero_conPvtp P s0 k hP d0 done hk op hlt hop n
          | info => exact zero_info P s0 k hP d0 done hk op hlt hop
        · have hl : (ops s0 k r).length = 4 := by rw [ops_other s0 k r hk hr0]; rfl
          rw [hl] at hlt
          funext p
          cases p with
          | ascii n => exact other_ascii P s0 k r hr hr0 d0 done hk op hlt hop n
          | vtp n q => exact other_vtp P s0 k r hr hr0 d0 done hk op hlt hop n q
          | con n q => exact other_con P s0 k r hr hr0 d0 done hk op hlt hop n q
          | pvtp n => exact other_pvtp P s0 k r hr hr0 d0 done hk op hlt hop n
          | conPvtp n => exact other_conPvtp P s0 k r hr hr0 d0 done hk op hlt hop n
          | info => exact other_info P s0 k r hr hr0 d0 done hk op hlt hop
    · intro q hq
      simp only [State.advance]
      by_cases h : q = r
      · subst h
        rw [if_pos rfl]
        exact hlt
      · rw [if_neg h]
        exact hlen q hq
  | barrier st _ hall ih =>
    obtain ⟨ih, hlen⟩ := ih
    refine ⟨?_, by simp⟩
    obtain ⟨k, done, disk⟩ := st
    simp only at *
    subst ih
    rcases Nat.mod_two_eq_zero_or_one k with hk | hk
    · have h0 : done 0 = 2 := by rw [hall 0 hP, ops_even_zero s0 k hk]; rfl
      have hr : ∀ r, r < P → r ≠ 0 → done r = 0 := by intro r h1 h2; rw [hall r h1, ops_even_other s0 k r hk h2]; rfl
      funext p
      cases p with
      | vtp n r =>
        by_cases hq : r < P
        · by_cases hq0 : r = 0
          · subst hq0; finish_disk
          · have := hr r hq hq0; finish_disk
        · finish_disk
      | con n r =>
        by_cases hq : r < P
        · by_cases hq0 : r = 0
          · subst hq0; finish_disk
          · have := hr r hq hq0; finish_disk
        · finish_disk
      | _ => finish_disk
    · have h0 : done 0 = 10 := by rw [hall 0 hP, ops_zero s0 k hk]; rfl
      have hr : ∀ r, r < P → r ≠ 0 → done r = 4 := by intro r h1 h2; rw [hall r h1, ops_other s0 k r hk h2]; rfl
      funext p
      cases p with
      | vtp n r =>
        by_cases hq : r < P
        · by_cases hq0 : r = 0
          · subst hq0; finish_disk
          · have := hr r hq hq0; finish_disk
        · finish_disk
      | con n r =>
        by_cases hq : r < P
        · by_cases hq0 : r = 0
          · subst hq0; finish_disk
          · have := hr r hq hq0; finish_disk
        · finish_disk
      | _ => finish_disk

end Verif.Crash
