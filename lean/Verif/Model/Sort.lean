import Mathlib.Data.List.Basic
import Mathlib.Order.Defs.LinearOrder
/-!
Model of `Util/SortUtil.hpp`: `sortDataWithTag` (lines 26-88).
-/
namespace Verif.TagSort

/-- SortUtil.hpp:73-84: gather `v[indices[i]]` for all `i`; `none` when an index is out of bounds.  The
OpenMP loop writes disjoint elements, so its schedule does not matter. -/
def gather {α : Type} (v : List α) (indices : List ℕ) : Option (List α) :=
  indices.mapM (fun i => v[i]?)

/-- SortUtil.hpp:38-44: the comparator of two indices by tag, as "not greater" (`!comp(j, i)`), which is what
the stable merge sort below takes. -/
def notGreater {Tag : Type} [LinearOrder Tag] (tags : List Tag) (i j : ℕ) : Bool :=
  match tags[i]?, tags[j]? with
  | some a, some b => decide (a ≤ b)
  | _, _ => true

/-- SortUtil.hpp:58-88, `sortDataWithTag`: the new contents of `tags` and `data`.  `std::stable_sort` is
modelled by the stable merge sort of Lean's library.  `none`: the assertion of line 60 fails (with assertions
off, the gather would read outside `data` or drop data). -/
def sortDataWithTag {Tag Data : Type} [LinearOrder Tag] (tags : List Tag) (data : List Data) :
    Option (List Tag × List Data) :=
  if tags.length = data.length then do
    let indices := (List.range tags.length).mergeSort (notGreater tags)
    let tagsSorted ← gather tags indices
    let dataSorted ← gather data indices
    some (tagsSorted, dataSorted)
  else none

end Verif.TagSort
