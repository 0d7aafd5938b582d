import Verif.Model.Morton
import Mathlib.Data.List.Basic
/-! FDPS/tree.hpp and FDPS/tree_for_force_utils.hpp: the oct-tree cells and their construction from the sorted keys. -/
namespace Verif.Tree

/-- `N_CHILDREN` (ps_defs.hpp:151). -/
def nChildren : ℕ := 8
/-- `TREE_LEVEL_LIMIT` (ps_defs.hpp:152). -/
def levelLimit : ℕ := 21

/-- `TreeCell` without the moment (tree.hpp:47-55).  `adrTc` and `adr` are `U32` in the code, `none` stands for a value
with the most significant bit set, which the code uses for "no cell" and "no particle". -/
structure Cell where
  n : ℕ
  adrTc : Option ℕ
  adr : Option ℕ
  level : ℕ

/-- tree.hpp:64-66 `isLeaf`. -/
def Cell.isLeaf (c : Cell) (limit : ℕ) : Bool := decide (c.n ≤ limit) || decide (c.level = levelLimit)

/-- The contents of `tc_array`.  What lies beyond the current size is arbitrary (`resizeNoInitialize`). -/
abbrev Mem := ℕ → Cell

/-- `m[i] = c` -/
def Mem.set (m : Mem) (i : ℕ) (c : Cell) : Mem := fun k => if k = i then c else m k

/-- The loop of tree_for_force_utils.hpp:319-330.  `none`: the particle array is read outside its bounds, `some none`:
the function returns -1. -/
def searchLoop (keys : List (BitVec 64)) (ref lev : ℕ) (l r : ℕ) : Option (Option ℕ) :=
  if h : l < r then
    match keys[(l + r) / 2]? with
    | none => none
    | some k =>
      if ref > Morton.getCellID lev k then
        match keys[(l + r) / 2 + 1]? with
        | none => none
        | some kl => if Morton.getCellID lev kl = ref then some (some ((l + r) / 2 + 1))
          else searchLoop keys ref lev ((l + r) / 2 + 1) r
      else
        match keys[l]? with
        | none => none
        | some kl => if Morton.getCellID lev kl = ref then some (some l)
          else searchLoop keys ref lev l ((l + r) / 2)
  else some none
termination_by r - l

/-- tree_for_force_utils.hpp:309-333 `GetPartitionID`. -/
def getPartitionID (keys : List (BitVec 64)) (left right ref lev : ℕ) : Option (Option ℕ) :=
  match keys[right]?, keys[left]? with
  | some kr, some kl =>
    if Morton.getCellID lev kr < ref then some none
    else if Morton.getCellID lev kl > ref then some none
    else searchLoop keys ref lev left right
  | _, _ => none

/-- tree_for_force_utils.hpp:374-389 for the children `j`, `j + 1`, …: sets their first particle and level, and collects
the addresses of those that have particles (`adr[0..n_cnt)`).  `size` is the size of `tc_array`, `t` the `adr_tc_` of
the parent, whose particles are `a, …, a + n - 1`. -/
def childPhase (keys : List (BitVec 64)) (lev t a n size : ℕ) : List ℕ → Mem → Option (Mem × List ℕ)
  | [], m => some (m, [])
  | j :: js, m =>
    if t + j < size then
      match getPartitionID keys a (a + n - 1) j (lev + 1) with
      | none => none
      | some none =>
        childPhase keys lev t a n size js
          (m.set (t + j) ⟨0, none, none, lev + 1⟩)
      | some (some p) =>
        match childPhase keys lev t a n size js
          (m.set (t + j) ⟨(m (t + j)).n, (m (t + j)).adrTc, some p, lev + 1⟩) with
        | none => none
        | some (m', l) => some (m', (t + j) :: l)
    else none

/-- tree_for_force_utils.hpp:390 and 424-429: the particle counts of the children in the list; `n` particles altogether,
`cum` of them already given out.  `none`: the list is empty (the assertion), or a difference is negative. -/
def countPhase (n : ℕ) : List ℕ → ℕ → Mem → Option Mem
  | [], _, _ => none
  | [x], cum, m => if cum ≤ n then some (m.set x { m x with n := n - cum }) else none
  | x :: y :: l, cum, m =>
    match (m x).adr, (m y).adr with
    | some p, some q =>
      if p ≤ q then countPhase n (y :: l) (cum + (q - p)) (m.set x { m x with n := q - p }) else none
    | _, _ => none

/-- tree_for_force_utils.hpp:368-431: the body of the loop over the parent cells. -/
def linkParent (keys : List (BitVec 64)) (limit lev size : ℕ) (m : Mem) (i : ℕ) : Option Mem :=
  if (m i).n ≤ limit then some m
  else
    match (m i).adrTc, (m i).adr with
    | some t, some a =>
      match childPhase keys lev t a (m i).n size (List.range nChildren) m with
      | none => none
      | some (m', l) => countPhase (m i).n l 0 m'
    | _, _ => none

/-- tree_for_force_utils.hpp:367-432: the loop over the parents, in the order in which the threads run the iterations.
Every iteration is taken as a whole: its writes go to the children of its own parent. -/
def linkParents (keys : List (BitVec 64)) (limit lev size : ℕ) : List ℕ → Mem → Option Mem
  | [], m => some m
  | i :: is, m =>
    match linkParent keys limit lev size m i with
    | none => none
    | some m' => linkParents keys limit lev size is m'

/-- `n_cell_new`: 8 for every cell that is split (line 430). -/
def newCells (limit : ℕ) (m : Mem) (cells : List ℕ) : ℕ :=
  nChildren * cells.countP (fun i => decide (limit < (m i).n))

/-- tree_for_force_utils.hpp:446-452: the cells of the new level that will be split get their children addresses. -/
def assignAdr (limit : ℕ) : List ℕ → ℕ → Mem → Mem × ℕ
  | [], offset, m => (m, offset)
  | i :: is, offset, m =>
    if (m i).isLeaf limit then assignAdr limit is offset m
    else assignAdr limit is (offset + nChildren) (m.set i { m i with adrTc := some offset })

/-- What `LinkCell` leaves: the cells, the size of `tc_array`, `lev_max` and `adr_tc_level_partition`. -/
structure Result where
  mem : Mem
  size : ℕ
  levMax : ℕ
  part : ℕ → ℕ

/-- Overwrite one entry of the level table. -/
def setPart (part : ℕ → ℕ) (i v : ℕ) : ℕ → ℕ := fun k => if k = i then v else part k

/-- tree_for_force_utils.hpp:362-455: the loop over the levels.  `rem` is `TREE_LEVEL_LIMIT - lev_max`; the cells of the
level are `left, …, right - 1` (`right` is one more than `id_cell_right`).  `order` is the order in which the parents of
a level are handled. -/
def linkLoop (keys : List (BitVec 64)) (limit : ℕ) (order : ℕ → ℕ → List ℕ) :
    ℕ → ℕ → ℕ → ℕ → (ℕ → ℕ) → Mem → Option Result
  | 0, _, _, _, _, _ => none
  | rem + 1, left, right, size, part, m =>
    let lev := levelLimit - (rem + 1)
    match linkParents keys limit lev size (order left right) m with
    | none => none
    | some m' =>
      let new := newCells limit m (order left right)
      if new = 0 then some ⟨m', size, lev, part⟩
      else
        let part' := setPart part (lev + 2) (right + new)
        if rem = 0 then some ⟨m', size, lev + 1, part'⟩
        else
          let (m'', offset) := assignAdr limit (List.range' right new) (right + new) m'
          linkLoop keys limit order rem right (right + new) offset part' m''

/-- tree_for_force_utils.hpp:343-358: the root cell and its seven unused siblings. -/
def rootCells (nTot : ℕ) (m : Mem) : Mem := fun k =>
  if k = 0 then ⟨nTot, some nChildren, some 0, 0⟩
  else if k < nChildren then ⟨0, none, none, 0⟩
  else m k

/-- tree_for_force_utils.hpp:336-456 `LinkCell`, and 458-530 `LinkCellST` when `order` is increasing.  `m` and `part` are
the old contents of the arrays. -/
def linkCell (keys : List (BitVec 64)) (limit : ℕ) (order : ℕ → ℕ → List ℕ) (part : ℕ → ℕ) (m : Mem) :
    Option Result :=
  let part' := setPart (setPart part 0 0) 1 nChildren
  let m' := rootCells keys.length m
  if keys.length ≤ limit then some ⟨m', nChildren * 2, 0, part'⟩
  else linkLoop keys limit order levelLimit 0 nChildren (nChildren * 2) part' m'

end Verif.Tree
