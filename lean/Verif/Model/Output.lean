import Verif.Model.Text
import Verif.Model.Loop
import Mathlib.Data.Real.Archimedean
/-!
Model of the output bookkeeping of `Sylinder/SylinderSystem.cpp`: result folders (480-487), snapshot cadence (553-560,
882-884, 948-968), the main loop of `Sylinder/SylinderSystem_main.cpp` (36-42), and the restart file (508-521, 110-120,
143-147, 158-159).
-/
namespace Verif.Output
open Verif.Text

/-- The largest `int`. -/
def intMax : ℤ := 2147483647

/-! ### folders -/

/-- SylinderSystem.cpp:481: snapshots per folder; `size` is the number of ranks. -/
def perFolder (size : ℕ) : ℕ := max (400 / size) 1

/-- SylinderSystem.cpp:482-483: first and last snapshot of the folder; `none`: the last overflows an `int`. -/
def folderRange (size snap : ℕ) : Option (ℕ × ℕ) :=
  let num := perFolder size
  let k := snap / num
  if ((k * num + num : ℕ) : ℤ) ≤ intMax then some (k * num, k * num + num - 1) else none

/-- SylinderSystem.cpp:480-487 -/
def resultFolder (size snap : ℕ) : Option Str :=
  (folderRange size snap).map fun r =>
    "./result/result".toList ++ dec r.1 ++ "-".toList ++ dec r.2 ++ "/".toList

/-! ### cadence -/

/-- SylinderSystem.cpp:883: `static_cast<int>(timeSnap / dt)`; `fl` rounds the quotient; division by zero and values
outside the range of `int` are `none`. -/
noncomputable def snapEvery (fl : ℝ → ℝ) (timeSnap dt : ℝ) : Option ℤ :=
  if dt = 0 then none
  else
    let q := fl (timeSnap / dt)
    let n : ℤ := if 0 ≤ q then ⌊q⌋ else ⌈q⌉
    if -intMax - 1 ≤ n ∧ n ≤ intMax then some n else none

/-- SylinderSystem.cpp:882-884: `stepCount % n == 0`; a zero divisor is `none`. -/
def ifWrite (every stepCount : ℤ) : Option Bool := if every = 0 then none else some (decide (stepCount.tmod every = 0))

/-- The counters, and the snapshots written so far: step and snapshot number. -/
structure Run where
  stepCount : ℤ
  snapID : ℤ
  log : List (ℤ × ℤ)

/-- SylinderSystem.cpp:961-967 with 558-559, the counters only; an overflow is `none`. -/
def runStep (every : ℤ) (r : Run) : Option Run :=
  (ifWrite every r.stepCount).bind fun w =>
    if r.stepCount < intMax ∧ r.snapID < intMax then
      some { stepCount := r.stepCount + 1
             snapID := if w then r.snapID + 1 else r.snapID
             log := if w then r.log ++ [(r.stepCount, r.snapID)] else r.log }
    else none

/-- SylinderSystem_main.cpp:36: `getStepCount() * dt < timeTotal`; the loop does not go on after undefined behaviour. -/
def running (fl : ℝ → ℝ) (dt timeTotal : ℝ) : Option Run → Prop
  | none => False
  | some r => fl (r.stepCount * dt) < timeTotal

noncomputable instance (fl : ℝ → ℝ) (dt timeTotal : ℝ) : DecidablePred (running fl dt timeTotal) := fun x =>
  Classical.propDecidable _

/-- SylinderSystem_main.cpp:36-42: the body of the main loop. -/
noncomputable def mainBody (fl : ℝ → ℝ) (timeSnap dt : ℝ) (r : Option Run) : Option Run :=
  (snapEvery fl timeSnap dt).bind fun e => r.bind (runStep e)

/-- SylinderSystem_main.cpp:36-42: the main loop ends with the counters `last`. -/
def MainLoop (fl : ℝ → ℝ) (timeSnap dt timeTotal : ℝ) (start last : Option Run) : Prop :=
  WhileEnds (running fl dt timeTotal) (mainBody fl timeSnap dt) start last

/-! ### the restart file -/

/-- What the restart file holds. -/
structure Info where
  seed : ℕ
  stepCount : ℕ
  snapID : ℕ
  pvtp : Str

/-- SylinderSystem.cpp:512: the name of the parallel header. -/
def pvtpName (snap : ℕ) : Str := "Sylinder_".toList ++ dec snap ++ ".pvtp".toList

/-- SylinderSystem.cpp:492: the name of the ascii file. -/
def asciiName (snap : ℕ) : Str := "SylinderAscii_".toList ++ dec snap ++ ".dat".toList

/-- SylinderSystem.cpp:514-518: the text of the restart file.  The counters are not negative. -/
def writeInfo (seed step snap : ℕ) : Str :=
  dec seed ++ "\n".toList ++ dec step ++ "\n".toList ++ dec snap ++ "\n".toList ++ pvtpName snap ++ "\n".toList

/-- SylinderSystem.cpp:111-117; a failing extraction leaves variables without a value: `none`. -/
def readInfo (s : Str) : Option Info := do
  let (seed, s) ← readUInt s
  let (step, s) ← readInt s
  let (snap, s) ← readInt s
  let (name, _) ← readWord s
  if 0 ≤ step ∧ 0 ≤ snap then some ⟨seed, step.toNat, snap.toNat, name⟩ else none

/-- SylinderSystem.cpp:143-147: the name of the ascii file from the name of the parallel header; `replace` at `npos` throws. -/
def asciiOf (pvtp : Str) : Option Str := do
  let pos ← findLast '.' pvtp
  let s := replaceAt pos 5 ".dat".toList pvtp
  let pos ← findLast '_' s
  some (replaceAt pos 1 "Ascii_".toList s)

/-- SylinderSystem.cpp:120, 158-159: the seed (unsigned) and the counters after a restart. -/
def restartCounters (i : Info) : Option (ℕ × ℕ × ℕ) :=
  if (i.stepCount : ℤ) < intMax ∧ (i.snapID : ℤ) < intMax then some ((i.seed + 1) % 2 ^ 32, i.stepCount + 1, i.snapID + 1)
  else none

end Verif.Output
