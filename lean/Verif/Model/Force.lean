import Verif.Model.Let
import Verif.Model.Morton
import Verif.Model.Radix
import Verif.Model.RootCell
/-! FDPS/tree_for_force.hpp:762-842 `calcForceAll` with `list_mode = MAKE_LIST` and a symmetric short-range search, over all
ranks: the local trees, the exchange, the global tree, the groups, the interaction lists and the calls of the functor.

`Tepi` and `Tepj` are the same type `Ep α` here; `copyFromFP` is not modelled: the particles are given as they are after it
(tree_for_force_impl.hpp:196-231).  The two classes are assumed to give the same position and search radius.  Every parallel
loop is run in an order that is given from outside. -/
namespace Verif.Force
open Tree Image Let RootCell

/-- `TreeParticle` (FDPS/tree.hpp:6-10). -/
structure TP where
  key : BitVec 64
  adr : ℕ

/-- tree_for_force_impl.hpp:275-278 and tree_for_force_utils2.hpp:1136-1138: `setFromEP` (FDPS/tree.hpp:19-23) for the particles,
whose numbers begin with `i`. -/
noncomputable def setTPs {α : Type} (f : Morton.Frame) : ℕ → List (Ep α) → Option (List TP)
  | _, [] => some []
  | i, e :: es =>
    match Morton.getKey f e.pos, setTPs f (i + 1) es with
    | some k, some l => some (⟨k, i⟩ :: l)
    | _, _ => none

/-- tree_for_force_impl.hpp:300-304, 541-545: `epj_sorted_[i] = epj_org_[adr]`, and likewise `CopyPjForForceST` (742-752). -/
def gather {β : Type} (eps : List β) : List ℕ → Option (List β)
  | [] => some []
  | a :: as =>
    match eps[a]?, gather eps as with
    | some e, some l => some (e :: l)
    | _, _ => none

/-- The orders of the loops of `LinkCell` and `CalcMoment` and the old contents of their arrays. -/
structure TreeExec where
  order : ℕ → ℕ → List ℕ
  order' : ℕ → ℕ → List ℕ
  part : ℕ → ℕ
  m : Mem
  mom : ℕ → Mom

/-- `LinkCell` and `CalcMoment` (tree_for_force_impl.hpp:340-370, 425-430, 567-600). -/
noncomputable def makeTree {α : Type} (big : ℝ) (limit : ℕ) (x : TreeExec) (keys : List (BitVec 64)) (eps : List (Ep α)) :
    Option (MTree α) :=
  match linkCell keys limit x.order x.part x.m with
  | none => none
  | some r =>
    match calcMoment big limit x.order' r eps x.mom with
    | none => none
    | some mom => some ⟨r, mom, eps, limit⟩

/-- The execution of a sort: the schedule of every pass and the contents of `tp_buf`. -/
structure SortExec where
  s : ℕ → Radix.Sched
  buf : List TP

/-- tree_for_force_impl.hpp:260-305 `mortonSortLocalTreeOnly` and 436-552 `mortonSortGlobalTreeOnly` after the keys are set (without
`USE_STD_SORT`), followed by `linkCell` and `calcMoment`.  `nt` is the number of threads. -/
noncomputable def sortTree {α : Type} (big : ℝ) (limit nt : ℕ) (y : SortExec) (x : TreeExec) (tps : List TP) (eps : List (Ep α)) :
    Option (List TP × MTree α) :=
  match Radix.lsdSort 64 nt y.s (fun t => t.key.toNat) tps y.buf with
  | none => none
  | some sorted =>
    match gather eps (sorted.map TP.adr) with
    | none => none
    | some l =>
      match makeTree big limit x (sorted.map TP.key) l with
      | none => none
      | some T => some (sorted, T)

/-- tree_for_force.hpp:776-786: the local tree of a rank with the particles `es`. -/
noncomputable def localTree {α : Type} (f : Morton.Frame) (big : ℝ) (limit nt : ℕ) (y : SortExec) (x : TreeExec) (es : List (Ep α)) :
    Option (List TP × MTree α) :=
  match setTPs f 0 es with
  | none => none
  | some tps => sortTree big limit nt y x tps es

/-- tree_for_force.hpp:790-800: the global tree of a rank: `tps` are the sorted particles of the local tree, `es` the own
particles, `rs` the received ones. -/
noncomputable def globalTree {α : Type} (f : Morton.Frame) (big : ℝ) (limit nt : ℕ) (y : SortExec) (x : TreeExec) (tps : List TP)
    (es rs : List (Ep α)) : Option (List TP × MTree α) :=
  match setTPs f es.length rs with
  | none => none
  | some l => sortTree big limit nt y x (tps ++ l) (es ++ rs)

/-- tree_for_force_utils2.hpp:820-851: the tree made of particles received in the first step; `srt` is `std::sort` with
`LessOPKEY`.  Simplified: `adr_ptcl_` counts from the first of these particles. -/
noncomputable def treeA {α : Type} (f : Morton.Frame) (big : ℝ) (srt : List TP → List TP) (x : TreeExec) (es : List (Ep α)) :
    Option (MTree α) :=
  match setTPs f 0 es with
  | none => none
  | some tps =>
    match gather es ((srt tps).map TP.adr) with
    | none => none
    | some l => makeTree big 1 x ((srt tps).map TP.key) l

/-- The two lists the functor is called with for one group (tree_for_force_impl_force.hpp:1317-1330, 1357-1393): the particles of
the group and its interaction list. -/
noncomputable def groupLists {α : Type} (L G : MTree α) (g : Group) : Option (List (Ep α) × List (Ep α)) :=
  match gather L.eps (List.range' g.adr g.n), interactionList G ⟨g.vin, g.vout⟩ with
  | some ei, some l =>
    match gather G.eps l with
    | none => none
    | some ej => some (ei, ej)
  | _, _ => none

/-- The results of a call written from `force_sorted_[a]` on; `none`: outside the array. -/
def put {R : Type} : ℕ → List R → List (Option R) → Option (List (Option R))
  | _, [], fs => some fs
  | a, r :: rs, fs => if a < fs.length then put (a + 1) rs (fs.set a (some r)) else none

/-- tree_for_force_impl_force.hpp:1317-1332: the loop over the groups in the order `is`; `fs` is `force_sorted_`, `out` what the
functor adds elsewhere.  The functor gets cleared forces (1358-1360) and writes one for each particle of the group. -/
noncomputable def forceLoop {α R O : Type} (ftr : List (Ep α) → List (Ep α) → List R × List O) (L G : MTree α) (gs : List Group) :
    List ℕ → List (Option R) → List O → Option (List (Option R) × List O)
  | [], fs, out => some (fs, out)
  | i :: is, fs, out =>
    match gs[i]? with
    | none => none
    | some g =>
      match groupLists L G g with
      | none => none
      | some (ei, ej) =>
        match put g.adr (ftr ei ej).1 fs with
        | none => none
        | some fs' => forceLoop ftr L G gs is fs' (out ++ (ftr ei ej).2)

/-- tree_for_force_impl.hpp:929-937 `copyForceOriginalOrder`, in the order `is`. -/
def copyBack {R : Type} (tps : List TP) (fs : List (Option R)) : List ℕ → List (Option R) → Option (List (Option R))
  | [], org => some org
  | i :: is, org =>
    match tps[i]?, fs[i]? with
    | some t, some r => if t.adr < org.length then copyBack tps fs is (org.set t.adr r) else none
    | _, _ => none

/-- What the runtime decides on a rank, where it matters for a given number of iterations. -/
structure RankExec (α : Type) where
  /-- the particles by threads, in the order in which the threads come to the critical section -/
  chunks : List (List (Ep α))
  sortLoc : ℕ → SortExec
  treeLoc : TreeExec
  sortGlb : ℕ → SortExec
  treeGlb : TreeExec
  /-- `std::sort`, and the arrays for the trees of the second step -/
  srt : List TP → List TP
  treeSnd : List (Ep α) → TreeExec
  groups : ℕ → List ℕ
  back : ℕ → List ℕ

/-- `n_leaf_limit_`, `n_group_limit_` and the number of threads; `big` is the number that stands for infinity. -/
structure Config where
  big : ℝ
  leaf : ℕ
  group : ℕ
  nt : ℕ

/-- What a function gives for `0, …, n - 1`, `none` if it gives nothing for one of them. -/
def forRanks {β : Type} (g : ℕ → Option β) : ℕ → Option (List β)
  | 0 => some []
  | n + 1 =>
    match forRanks g n, g n with
    | some l, some x => some (l ++ [x])
    | _, _ => none

/-- A tree without particles; it stands for ranks that do not exist. -/
noncomputable def noTree {α : Type} : MTree α := ⟨⟨fun _ => ⟨0, none, none, 0⟩, 0, 0, fun _ => 0⟩, fun _ => Mom.init 0, [], 1⟩

/-- tree_for_force.hpp:790-806: the part after the exchange, with the sorted particles and the tree `L` of the rank and the
received particles `rs`.  All forces are undefined (`none`) at first. -/
noncomputable def finish {α R O : Type} (c : Config) (f : Morton.Frame) (x : RankExec α) (ftr : List (Ep α) → List (Ep α) → List R × List O)
    (es : List (Ep α)) (L : List TP × MTree α) (rs : List (Ep α)) : Option (List (Option R) × List O) :=
  match globalTree f c.big c.leaf c.nt (x.sortGlb (es.length + rs.length)) x.treeGlb L.1 es rs, ipGroups L.2 c.group with
  | some G, some gs =>
    match forceLoop ftr L.2 G.2 gs (x.groups gs.length) (List.replicate es.length none) [] with
    | none => none
    | some (fs, out) =>
      match copyBack L.1 fs (x.back es.length) (List.replicate es.length none) with
      | none => none
      | some org => some (org, out)
  | _, _ => none

/-- tree_for_force.hpp:829-842 `calcForceAll`, run by all ranks, rank `r` with the particles `P r`: the forces of rank `b` in
the order of its particles, and what its calls of the functor add. -/
noncomputable def calcForceAll {α R O : Type} (c : Config) (d : Dinfo) (P : ℕ → List (Ep α)) (X : ℕ → RankExec α)
    (ftr : List (Ep α) → List (Ep α) → List R × List O) (b fuel : ℕ) : Option (List (Option R) × List O) :=
  match setRootCell c.big d.pa d.root d.n (fun r => (X r).chunks) fuel with
  | none => none
  | some f =>
    match forRanks (fun r => localTree f c.big c.leaf c.nt ((X r).sortLoc (P r).length) (X r).treeLoc (P r)) d.n with
    | none => none
    | some Ls =>
      match Ls[b]?, exchange d (fun r es => treeA f c.big (X r).srt ((X r).treeSnd es) es)
          (fun r => ((Ls[r]?).map Prod.snd).getD noTree) b fuel with
      | some L, some rs => finish c f (X b) ftr (P b) L rs
      | _, _ => none

end Verif.Force
