import Mathlib.Data.Nat.Notation
/-!
Model of the order of the file operations of a run on several ranks: `Sylinder/SylinderSystem.cpp` lines 489-533 and 553-560
(`writeAscii`, `writeTimeStepInfo`, `writeVTK`, `writeResult`).

A file is opened (which truncates it), written and closed; between opening and closing its content is undefined
(`writing`).  The ranks run independently between collective operations.  `writeAscii` ends with a barrier (505); the
steps between two snapshots contain collective reductions (885-960), which no rank leaves before all have entered: they
count as a barrier.  So the program of every rank is a sequence of phases, and phase `k + 1` starts after all ranks have
ended phase `k`.  A crash may happen in every state.  `makeSubFolder` and what the operating system does after `fclose` are left
out.
-/
namespace Verif.Crash

/-- The files of snapshot `n`, and the restart file. -/
inductive Path where
  | ascii (n : ℕ)
  | vtp (n r : ℕ)
  | con (n r : ℕ)
  | pvtp (n : ℕ)
  | conPvtp (n : ℕ)
  | info
  deriving DecidableEq

/-- A file does not exist, is being written, or is complete with the content of snapshot `n`. -/
inductive Status where
  | absent
  | writing
  | complete (n : ℕ)
  deriving DecidableEq

/-- A file operation. -/
inductive Op where
  | start (p : Path)
  | finish (p : Path) (n : ℕ)
  deriving DecidableEq

/-- A file is written. -/
def write (p : Path) (n : ℕ) : List Op := [.start p, .finish p n]

/-- What rank `r` does in phase `k` of a run whose first snapshot is `s0`.  Even phases: `writeAscii` (489-506), a file written by
rank 0.  Odd phases: `writeVTK` (523-533), then `writeTimeStepInfo` (508-521). -/
def ops (s0 k r : ℕ) : List Op :=
  let n := s0 + k / 2
  if k % 2 = 0 then if r = 0 then write (.ascii n) n else []
  else
    write (.vtp n r) n ++ write (.con n r) n ++
      if r = 0 then write (.pvtp n) n ++ write (.conPvtp n) n ++ write .info n else []

/-- The files. -/
def Disk := Path → Status

/-- The effect of an operation. -/
def Op.run (d : Disk) : Op → Disk
  | .start p => fun q => if q = p then .writing else d q
  | .finish p n => fun q => if q = p then .complete n else d q

/-- A state: the phase, how far every rank is in it, the files. -/
structure State where
  phase : ℕ
  done : ℕ → ℕ
  disk : Disk

/-- A rank does its next operation. -/
def State.advance (st : State) (r : ℕ) (op : Op) : State :=
  { st with done := fun q => if q = r then st.done r + 1 else st.done q, disk := op.run st.disk }

/-- The states of a run of `P` ranks, at any time and with any interleaving. -/
inductive Reach (P s0 : ℕ) (d0 : Disk) : State → Prop
  | init : Reach P s0 d0 ⟨0, fun _ => 0, d0⟩
  | step (st : State) (r : ℕ) (op : Op) : Reach P s0 d0 st → r < P → (ops s0 st.phase r)[st.done r]? = some op → Reach P s0 d0 (st.advance r op)
  | barrier (st : State) : Reach P s0 d0 st → (∀ r < P, st.done r = (ops s0 st.phase r).length) →
      Reach P s0 d0 ⟨st.phase + 1, fun _ => 0, st.disk⟩

end Verif.Crash
