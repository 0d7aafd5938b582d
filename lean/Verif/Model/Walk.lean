import Verif.Model.Moment
/-! FDPS/tree_walk.hpp and FDPS/tree_for_force_utils.hpp:781-802: walks through the tree.  Recursive functions carry a
bound on the depth of the recursion; `none` stands for an access outside an array or for running out of it, and the
properties show that neither happens for a bound of 22 calls. -/
namespace Verif.Tree
open Classical

/-- A linked tree with its boxes and the particles it was built from. -/
structure MTree (α : Type) where
  r : Result
  mom : ℕ → Mom
  eps : List (Ep α)
  limit : ℕ

/-- Number of nested calls allowed. -/
def depth : ℕ := levelLimit + 1

/-- `TargetBox<SEARCH_MODE_SYMMETRY>` (tree_walk.hpp:99-108); for `SEARCH_MODE_SCATTER` (84-90) only `vin` is used. -/
structure Target where
  vin : Box
  vout : Box

/-- tree_walk.hpp:109-116 `isInEpList`, symmetric search. -/
def Target.isInEpList {α : Type} (tb : Target) (e : Ep α) : Prop :=
  tb.vin.distMinSq e.pos ≤ e.rs * e.rs ∨ tb.vout.overlappedPos e.pos

/-- tree_walk.hpp:606-607: the condition of the low bit of `GetOpenBit(TagSearchShortSymmetry)`. -/
def Target.openSymmetry (tb : Target) (m : Mom) : Prop := tb.vin.overlapped m.vout ∨ tb.vout.overlapped m.vin
/-- tree_walk.hpp:588: the condition of the low bit of `GetOpenBit(TagSearchShortScatter)`. -/
def Target.openScatter (tb : Target) (m : Mom) : Prop := tb.vin.overlapped m.vout

/-- `CopyInfoClose` for short forces (tree_walk.hpp:369-407), over the particle numbers of the leaf: `keep` is
`isInEpList` with `TagChopLeafTrue` and always true with `TagChopLeafFalse`. -/
noncomputable def copyClose {α : Type} (eps : List (Ep α)) (keep : Ep α → Prop) : List ℕ → Option (List ℕ)
  | [] => some []
  | i :: is =>
    match eps[i]?, copyClose eps keep is with
    | some e, some l => some (if keep e then i :: l else l)
    | _, _ => none

/-- tree_walk.hpp:657-667: the loop over the children, whose first one is `t`.  Far cells add nothing for short forces
(`CopyInfoDistant(TagForceShort)`, 261-265). -/
noncomputable def walkChildren {α : Type} (T : MTree α) (opn : Mom → Prop) (walk : ℕ → Option (List ℕ)) (t : ℕ) :
    List ℕ → Option (List ℕ)
  | [] => some []
  | i :: is =>
    if t + i < T.r.size then
      if (T.r.mem (t + i)).n = 0 then walkChildren T opn walk t is
      else if opn (T.mom (t + i)) then
        match walk (t + i), walkChildren T opn walk t is with
        | some l, some l' => some (l ++ l')
        | _, _ => none
      else walkChildren T opn walk t is
    else none

/-- The address and number of particles of a leaf, as the range of particle numbers; an empty cell may have no
address. -/
def leafRange (c : Cell) : Option (List ℕ) :=
  if c.n = 0 then some [] else
    match c.adr with
    | none => none
    | some a => some (List.range' a c.n)

/-- tree_walk.hpp:633-685 `MakeListUsingTreeRecursive`; the list is the one appended to `adr_ep_list`. -/
noncomputable def makeList {α : Type} (T : MTree α) (opn : Mom → Prop) (keep : Ep α → Prop) : ℕ → ℕ → Option (List ℕ)
  | 0, _ => none
  | f + 1, c =>
    if c < T.r.size then
      if (T.r.mem c).isLeaf T.limit then
        match leafRange (T.r.mem c) with
        | none => none
        | some l => copyClose T.eps keep l
      else
        match (T.r.mem c).adrTc with
        | none => none
        | some t => walkChildren T opn (makeList T opn keep f) t (List.range nChildren)
    else none

/-- tree_walk.hpp:721-742 `MakeListUsingTreeRecursiveTop` for short mode, symmetric search with `TagChopLeafTrue`: the
interaction list of a group. -/
noncomputable def interactionList {α : Type} (T : MTree α) (tb : Target) : Option (List ℕ) :=
  makeList T tb.openSymmetry tb.isInEpList depth 0

/-- tree_walk.hpp:687-719 `MakeListUsingTreeRecursiveTop` with the test of the root cell, `TagSearchShortScatter` and
`TagChopLeafFalse`, as `FindScatterParticle` calls it. -/
noncomputable def scatterList {α : Type} (T : MTree α) (tb : Target) : Option (List ℕ) :=
  if tb.openScatter (T.mom 0) ∧ 0 < (T.r.mem 0).n then makeList T tb.openScatter (fun _ => True) depth 0 else some []

/-- tree_walk.hpp:761-779: the loop of `IsOverlapped` over the children of the block `t`. -/
noncomputable def overlapLoop {α : Type} (T : MTree α) (box : Box) (rec : ℕ → Option Bool) (t : ℕ) :
    List ℕ → Option Bool
  | [] => some false
  | i :: is =>
    if t + i < T.r.size then
      if (T.r.mem (t + i)).n = 0 then overlapLoop T box rec t is
      else if (T.mom (t + i)).vout.overlapped box then
        if (T.r.mem (t + i)).isLeaf T.limit then some true
        else
          match (T.r.mem (t + i)).adrTc with
          | none => none
          | some t' =>
            match rec t' with
            | none => none
            | some true => some true
            | some false => overlapLoop T box rec t is
      else overlapLoop T box rec t is
    else none

/-- tree_walk.hpp:750-780 `IsOverlapped` for the block of cells `t`. -/
noncomputable def isOverlapped {α : Type} (T : MTree α) (box : Box) : ℕ → ℕ → Option Bool
  | 0, _ => none
  | f + 1, t => overlapLoop T box (isOverlapped T box f) t (List.range nChildren)

/-- tree_walk.hpp:782-795 `IsOverlappedTop`. -/
noncomputable def isOverlappedTop {α : Type} (T : MTree α) (box : Box) : Option Bool :=
  if (T.r.mem 0).isLeaf T.limit then some (decide ((T.mom 0).vout.overlapped box))
  else isOverlapped T box depth nChildren

/-- tree_walk.hpp:804-808: the low open bit of one child; the second test is only made if the first fails. -/
noncomputable def openDouble {α β : Type} (A : MTree α) (domain : Box) (B : MTree β) (c : ℕ) : Option Bool :=
  if (B.mom c).vout.overlapped domain then some true else isOverlappedTop A (B.mom c).vin

/-- tree_walk.hpp:822-871: the loop of `MakeListDoubleWalk` over the children of the block `t`. -/
noncomputable def doubleLoop {α β : Type} (A : MTree α) (domain : Box) (B : MTree β) (rec : ℕ → Option (List ℕ)) (t : ℕ) :
    List ℕ → Option (List ℕ)
  | [] => some []
  | i :: is =>
    if t + i < B.r.size then
      match openDouble A domain B (t + i) with
      | none => none
      | some o =>
        if (B.r.mem (t + i)).n = 0 then doubleLoop A domain B rec t is
        else if o = true then
          if (B.r.mem (t + i)).isLeaf B.limit then
            if domain.overlapped (B.mom (t + i)).vout then doubleLoop A domain B rec t is
            else
              match leafRange (B.r.mem (t + i)), doubleLoop A domain B rec t is with
              | some l, some l' => some (l ++ l')
              | _, _ => none
          else
            match (B.r.mem (t + i)).adrTc with
            | none => none
            | some t' =>
              match rec t', doubleLoop A domain B rec t is with
              | some l, some l' => some (l ++ l')
              | _, _ => none
        else doubleLoop A domain B rec t is
    else none

/-- tree_walk.hpp:812-872 `MakeListDoubleWalk` for the block of cells `t`. -/
noncomputable def doubleWalk {α β : Type} (A : MTree α) (domain : Box) (B : MTree β) : ℕ → ℕ → Option (List ℕ)
  | 0, _ => none
  | f + 1, t => doubleLoop A domain B (doubleWalk A domain B f) t (List.range nChildren)

/-- tree_walk.hpp:875-911 `MakeListDoubleWalkTop`. -/
noncomputable def doubleWalkTop {α β : Type} (A : MTree α) (domain : Box) (B : MTree β) : Option (List ℕ) :=
  if (B.r.mem 0).isLeaf B.limit then
    if (B.mom 0).vout.overlapped domain then some [] else leafRange (B.r.mem 0)
  else doubleWalk A domain B depth nChildren

/-- `IPGroup<TagIpgInAndOut>` (tree.hpp:300-313). -/
structure Group where
  n : ℕ
  adr : ℕ
  vin : Box
  vout : Box

/-- tree_for_force_utils.hpp:796-800: the recursive calls for the children. -/
def groupChildren (rec : ℕ → Option (List Group)) (t : ℕ) : List ℕ → Option (List Group)
  | [] => some []
  | i :: is =>
    match rec (t + i), groupChildren rec t is with
    | some l, some l' => some (l ++ l')
    | _, _ => none

/-- tree_for_force_utils.hpp:781-802 `MakeIPGroupShort`; `glimit` is `n_grp_limit`. -/
def makeGroups {α : Type} (T : MTree α) (glimit : ℕ) : ℕ → ℕ → Option (List Group)
  | 0, _ => none
  | f + 1, c =>
    if c < T.r.size then
      if (T.r.mem c).n = 0 then some []
      else if (T.r.mem c).isLeaf glimit then
        match (T.r.mem c).adr with
        | none => none
        | some a => some [⟨(T.r.mem c).n, a, (T.mom c).vin, (T.mom c).vout⟩]
      else
        match (T.r.mem c).adrTc with
        | none => none
        | some t => groupChildren (makeGroups T glimit f) t (List.range nChildren)
    else none

/-- tree_for_force_impl.hpp:718-721 `makeIPGroupImpl(TagForceShort)`. -/
def ipGroups {α : Type} (T : MTree α) (glimit : ℕ) : Option (List Group) := makeGroups T glimit depth 0

end Verif.Tree
