import Verif.Model.Loop
import Verif.Model.Stats
import Verif.Model.Near
/-!
Model of `adjustPositionIntoRootDomain`, `FDPS/particle_system.hpp` lines 798-844, and of `SylinderSystem::applyBoxBC`,
`Sylinder/SylinderSystem.cpp` line 1223.  `fl` is the rounding of additions and subtractions.
-/
namespace Verif.Wrap
open Stats

/-- FDPS/particle_system.hpp:812-820 (and 821-829, 831-839 for the other axes): the two loops end and leave `x'`.  `len` is `len_root`, line 800, computed once. -/
def Axis (fl : ℝ → ℝ) (low high x x' : ℝ) : Prop :=
  ∃ y z, WhileEnds (fun x => x < low) (fun x => fl (x + fl (high - low))) x y ∧
    WhileEnds (fun x => x ≥ high) (fun x => fl (x - fl (high - low))) y z ∧
    x' = if z = high then low else z

/-- FDPS/particle_system.hpp:805-842: the new position of one particle.  The axes do not depend on each other. -/
def AdjustPos (fl : ℝ → ℝ) (d : Domain) (p p' : V3) : Prop :=
  ∀ k, Axis fl (d.low k) (d.high k) (Near.comp p k) (Near.comp p' k)

/-- SylinderSystem.cpp:1223 `applyBoxBC` on a rank: the call ends and leaves the bodies `bodies'`.  `getPos` and `setPos` are Sylinder.hpp:191-203. -/
def ApplyBoxBC (fl : ℝ → ℝ) (d : Domain) (bodies bodies' : List Sylinder) : Prop :=
  List.Forall₂ (fun (s s' : Sylinder) => ∃ p, AdjustPos fl d s.pos p ∧ s' = { s with pos := p }) bodies bodies'

end Verif.Wrap
