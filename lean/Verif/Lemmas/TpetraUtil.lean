import Verif.Model.TpetraUtil
import Verif.Lemmas.Comm
import Mathlib.Tactic.Ring
import Mathlib.Tactic.Linarith
/-! Helper lemmas for distributed maps. -/
namespace Verif.TpetraUtil

theorem fromLocal_flatten (sizes : List ℕ) : ∀ s,
    (((Comm.displsFrom s sizes).zip sizes).map (fun p => List.range' p.1 p.2)).flatten
      = List.range' s sizes.sum := by
  induction sizes with
  | nil => intro s; simp [Comm.displsFrom]
  | cons n sizes ih =>
    intro s
    simp only [Comm.displsFrom, List.zip_cons_cons, List.map_cons, List.flatten_cons, ih, List.sum_cons]
    rw [List.range'_append_1]

theorem fromLocal_lengths (sizes : List ℕ) : ∀ s,
    (((Comm.displsFrom s sizes).zip sizes).map (fun p => List.range' p.1 p.2)).map List.length = sizes := by
  induction sizes with
  | nil => intro s; simp [Comm.displsFrom]
  | cons n sizes ih =>
    intro s
    simp only [Comm.displsFrom, List.zip_cons_cons, List.map_cons, List.length_range', ih]

theorem globalIndices_eq (sizes : List ℕ) : ∀ s,
    (sizes.zip (((Comm.displsFrom s sizes).zip sizes).map (fun p => List.range' p.1 p.2))).map
      (fun p => localGlobalIndices p.1 p.2)
      = ((Comm.displsFrom s sizes).zip sizes).map (fun p => List.range' p.1 p.2) := by
  induction sizes with
  | nil => intro s; simp [Comm.displsFrom]
  | cons n sizes ih =>
    intro s
    simp only [Comm.displsFrom, List.zip_cons_cons, List.map_cons, ih]
    congr 1
    unfold localGlobalIndices
    cases n with
    | zero => simp
    | succ n =>
      rw [List.range'_succ, List.headD_cons, ← List.range'_succ, List.range'_eq_map_range]
      apply List.map_congr_left
      intro i _
      ring

theorem mobility_eq (sizes : List ℕ) : ∀ s,
    ((Comm.displsFrom (s * 6) (sizes.map (· * 6))).zip (sizes.map (· * 6))).map (fun p => List.range' p.1 p.2)
      = (((Comm.displsFrom s sizes).zip sizes).map (fun p => List.range' p.1 p.2)).map
          (fun l => l.flatMap (fun g => (List.range 6).map (fun j => 6 * g + j))) := by
  induction sizes with
  | nil => intro s; simp [Comm.displsFrom]
  | cons n sizes ih =>
    intro s
    simp only [Comm.displsFrom, List.zip_cons_cons, List.map_cons]
    rw [← ih (s + n), Nat.add_mul]
    congr 1
    clear ih
    induction n generalizing s with
    | zero => simp
    | succ n ihn =>
      rw [List.range'_succ, List.flatMap_cons, ← ihn, Nat.succ_mul, Nat.add_comm (n * 6) 6, ← List.range'_append_1]
      congr 1
      · simp [List.range'_eq_map_range]; omega
      · congr 1; omega

end Verif.TpetraUtil
