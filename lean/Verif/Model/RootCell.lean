import Verif.Model.Moment
import Verif.Model.Morton
import Verif.Model.Image
/-! FDPS/tree_for_force_impl.hpp:813-921: the root cell of the trees.  Simplified: exact real numbers. -/
namespace Verif.RootCell
open Tree Image

/-- `1.000001` (tree_for_force_impl.hpp:869, 919). -/
noncomputable def slack : ℝ := 1.000001

/-- tree_for_force_impl.hpp:863-870: the box of the particles of one thread. -/
noncomputable def boxThread {α : Type} (big : ℝ) (es : List (Ep α)) : Box :=
  es.foldl (fun b e => b.mergeSphere e.pos (e.rs * slack)) (Box.negative big)

/-- tree_for_force_impl.hpp:838-839, 871-877: the boxes of the threads, merged in the order in which they come to the critical
section. -/
noncomputable def boxLoc {α : Type} (big : ℝ) (chunks : List (List (Ep α))) : Box :=
  chunks.foldl (fun b c => b.merge (boxThread big c)) (Box.negative big)

/-- tree_for_force_impl.hpp:880-884: the smallest low and the largest high corner of all ranks, by coordinates
(`Comm::getMinValue`, `Comm::getMaxValue`, FDPS/ps_defs.hpp:1083-1092). -/
noncomputable def outer (big : ℝ) : List Box → Box
  | [] => Box.negative big
  | b :: bs => bs.foldl Box.merge b

/-- The loop of `CalcNumShift` (tree_for_force_impl.hpp:823-827); it has no bound. -/
noncomputable def shiftLoop (out : Box) (v : V3) : ℕ → Box → ℕ → Option ℕ
  | 0, _, _ => none
  | fuel + 1, b, n => open Classical in if out.overlapped b then shiftLoop out v fuel (b.shift v) (n + 1) else some n

/-- tree_for_force_impl.hpp:813-828 `CalcNumShift`, called with `n_shift = 0`. -/
noncomputable def numShift (root out : Box) (v : V3) (fuel : ℕ) : Option ℕ := shiftLoop out v fuel (root.shift v) 0

/-- tree_for_force_impl.hpp:892-907: `num_shift_max` of one axis; `v` is `shift_tmp`. -/
noncomputable def shiftMax (p : Bool) (root out : Box) (v : V3) (fuel : ℕ) : Option ℕ :=
  if p then
    match numShift root out v fuel, numShift root out (-v) fuel with
    | some a, some b => some (max a b)
    | _, _ => none
  else some 0

/-- tree_for_force_impl.hpp:911, 915: `length_tmp` of one axis. -/
noncomputable def axisLength (p : Bool) (n : ℕ) (shift out : ℝ) : ℝ := if p then (2 * n + 1) * shift else out

/-- tree_for_force_impl.hpp:913, 917: a coordinate of `center_`. -/
noncomputable def axisCenter (p : Bool) (rlo rhi olo ohi : ℝ) : ℝ := if p then (rhi + rlo) * 0.5 else (ohi + olo) * 0.5

/-- tree_for_force_impl.hpp:885-921, and the arguments of `MortonKey::initialize` (tree_for_force_impl.hpp:271): centre and half
the length of the root cell. -/
noncomputable def rootCell (pa : Axes) (root out : Box) (fuel : ℕ) : Option Morton.Frame :=
  let shift := root.high - root.low
  match shiftMax pa.x root out ⟨shift.x, 0, 0⟩ fuel, shiftMax pa.y root out ⟨0, shift.y, 0⟩ fuel,
    shiftMax pa.z root out ⟨0, 0, shift.z⟩ fuel with
  | some nx, some ny, some nz =>
    let full := out.high - out.low
    let l0 := Box.pickMax (axisLength pa.x nx shift.x full.x) 0
    let l1 := Box.pickMax (axisLength pa.y ny shift.y full.y) l0
    let l2 := Box.pickMax (axisLength pa.z nz shift.z full.z) l1
    some ⟨⟨axisCenter pa.x root.low.x root.high.x out.low.x out.high.x,
      axisCenter pa.y root.low.y root.high.y out.low.y out.high.y,
      axisCenter pa.z root.low.z root.high.z out.low.z out.high.z⟩, l2 * slack * 0.5⟩
  | _, _, _ => none

/-- `setRootCell` of all ranks (they all find the same): `chunks r` are the particles of rank `r` by threads. -/
noncomputable def setRootCell {α : Type} (big : ℝ) (pa : Axes) (root : Box) (n : ℕ) (chunks : ℕ → List (List (Ep α)))
    (fuel : ℕ) : Option Morton.Frame :=
  rootCell pa root (outer big ((List.range n).map (fun (r : ℕ) => boxLoc big (chunks r)))) fuel

end Verif.RootCell
