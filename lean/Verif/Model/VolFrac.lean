import Verif.Model.Sylinder

/-!
`SylinderSystem::calcVolFrac` (Sylinder/SylinderSystem.cpp:292-315).  Doubles are real numbers.
-/

namespace Verif.VolFrac

/-- What one body adds (Sylinder/SylinderSystem.cpp:300). -/
noncomputable def bodyVolume (s : Sylinder) : ℝ :=
  3.1415926535 * (0.25 * s.length * (s.radius * 2) ^ 2 + (s.radius * 2) ^ 3 / 6)

/-- The loop with its `reduction` (Sylinder/SylinderSystem.cpp:297-301): every thread adds up the bodies that it gets, and
then the sums of the threads are added.  `threads` are the bodies of a rank as the threads get them. -/
noncomputable def volLocal (threads : List (List Sylinder)) : ℝ :=
  (threads.map fun l => l.foldl (fun v s => v + bodyVolume s) 0).foldl (fun v w => v + w) 0

/-- `reduceAll` with `SumValueReductionOp` (Sylinder/SylinderSystem.cpp:302-304). -/
noncomputable def volGlobal (ranks : List (List (List Sylinder))) : ℝ := (ranks.map volLocal).sum

/-- `boxVolume` (Sylinder/SylinderSystem.cpp:307-309). -/
def boxVolume (low high : V3) : ℝ := (high.x - low.x) * (high.y - low.y) * (high.z - low.z)

/-- The two numbers that are printed (Sylinder/SylinderSystem.cpp:310-311).  A division by zero is `none`. -/
noncomputable def calcVolFrac (ranks : List (List (List Sylinder))) (low high : V3) : ℝ × Option ℝ :=
  (volGlobal ranks, if boxVolume low high = 0 then none else some (volGlobal ranks / boxVolume low high))

end Verif.VolFrac
