import Verif.Model.Box
import Verif.Model.Tree
/-! FDPS/tree.hpp:1224-1258 and FDPS/tree_for_force_utils.hpp:535-620: the boxes of the tree cells. -/
namespace Verif.Tree

/-- A particle of the tree (`Tepi`, `Tepj`): `getPos`, `getRSearch` and whatever else it carries. -/
structure Ep (α : Type) where
  pos : V3
  rs : ℝ
  data : α

/-- `MomentSearchInAndOut` (tree.hpp:1224-1227). -/
@[ext] structure Mom where
  vin : Box
  vout : Box

/-- tree.hpp:1228-1231 `init`. -/
noncomputable def Mom.init (big : ℝ) : Mom := ⟨Box.negative big, Box.negative big⟩
/-- tree.hpp:1234-1243 `accumulateAtLeaf`. -/
noncomputable def Mom.atLeaf {α : Type} (m : Mom) (e : Ep α) : Mom :=
  ⟨m.vin.mergePos e.pos, m.vout.mergeSphere e.pos e.rs⟩
/-- tree.hpp:1245-1248 `accumulate`; `set`, `accumulateAtLeaf2` and `accumulate2` do nothing. -/
noncomputable def Mom.acc (m m' : Mom) : Mom := ⟨m.vin.merge m'.vin, m.vout.merge m'.vout⟩

/-- tree_for_force_utils.hpp:555-557: the loop over the particles of a leaf. -/
noncomputable def leafMoment {α : Type} (eps : List (Ep α)) : List ℕ → Mom → Option Mom
  | [], m => some m
  | k :: ks, m =>
    match eps[k]? with
    | none => none
    | some e => leafMoment eps ks (m.atLeaf e)

/-- tree_for_force_utils.hpp:564-568: the loop over the children. -/
noncomputable def childMoment (r : Result) (mom : ℕ → Mom) (t : ℕ) : List ℕ → Mom → Option Mom
  | [], m => some m
  | k :: ks, m =>
    if t + k < r.size then
      if (r.mem (t + k)).n = 0 then childMoment r mom t ks m
      else childMoment r mom t ks (m.acc (mom (t + k)))
    else none

/-- tree_for_force_utils.hpp:549-575: the new moment of the cell `j`. -/
noncomputable def cellMoment {α : Type} (big : ℝ) (limit : ℕ) (r : Result) (eps : List (Ep α)) (mom : ℕ → Mom)
    (j : ℕ) : Option Mom :=
  if j < r.size then
    if (r.mem j).n = 0 then some (Mom.init big)
    else if (r.mem j).isLeaf limit then
      match (r.mem j).adr with
      | none => none
      | some a => leafMoment eps (List.range' a (r.mem j).n) (Mom.init big)
    else
      match (r.mem j).adrTc with
      | none => none
      | some t => childMoment r mom t (List.range nChildren) (Mom.init big)
  else none

/-- `mom[j] = v` -/
def setMom (mom : ℕ → Mom) (j : ℕ) (v : Mom) : ℕ → Mom := fun k => if k = j then v else mom k

/-- tree_for_force_utils.hpp:545-576: the loop over the cells of a level, in the order in which the threads run the
iterations. -/
noncomputable def levelMoments {α : Type} (big : ℝ) (limit : ℕ) (r : Result) (eps : List (Ep α)) :
    List ℕ → (ℕ → Mom) → Option (ℕ → Mom)
  | [], mom => some mom
  | j :: js, mom =>
    match cellMoment big limit r eps mom j with
    | none => none
    | some v => levelMoments big limit r eps js (setMom mom j v)

/-- tree_for_force_utils.hpp:542-577: the loop over the levels, from level `i - 1` down to 0. -/
noncomputable def momentLevels {α : Type} (big : ℝ) (limit : ℕ) (order : ℕ → ℕ → List ℕ) (r : Result)
    (eps : List (Ep α)) : ℕ → (ℕ → Mom) → Option (ℕ → Mom)
  | 0, mom => some mom
  | i + 1, mom =>
    match levelMoments big limit r eps (order (r.part i) (r.part (i + 1))) mom with
    | none => none
    | some mom' => momentLevels big limit order r eps i mom'

/-- tree_for_force_utils.hpp:537-580 `CalcMoment`, and 582-620 `CalcMomentST` when `order` is increasing.  `mom` is the
old contents of the cells. -/
noncomputable def calcMoment {α : Type} (big : ℝ) (limit : ℕ) (order : ℕ → ℕ → List ℕ) (r : Result)
    (eps : List (Ep α)) (mom : ℕ → Mom) : Option (ℕ → Mom) :=
  momentLevels big limit order r eps (r.levMax + 1) mom

end Verif.Tree
