import Verif.Model.Walk
import Verif.Model.Image
/-! FDPS/tree_for_force_utils2.hpp:304-440, 464-470, 560-1060 and FDPS/tree_for_force_impl.hpp:1478-1643: the exchange of the
particles that other ranks need, symmetric short-range search.  Simplified: the flat arrays with their tables of
displacements are nested lists here (one list per rank of one list per image).
MPI's allToAll and allToAllV move blocks unchanged. -/
namespace Verif.Let
open Tree Image

/-- What the code uses of `DomainInfo`: `getPeriodicAxis`, `getPosRootDomain`, `getPosDomain`, and the number of ranks. -/
structure Dinfo where
  pa : Axes
  root : Box
  dom : ℕ → Box
  n : ℕ

/-- `getPosRootDomain().getFullLength()`. -/
noncomputable def Dinfo.size (d : Dinfo) : V3 := d.root.high - d.root.low

/-- The domain of rank `i`, displaced (tree_for_force_utils2.hpp:366, 802). -/
noncomputable def Dinfo.image (d : Dinfo) (i : ℕ) (s : Idx) : Box := (d.dom i).shift (shiftOf d.size s)

/-- tree_for_force_utils2.hpp:360-381: the loop over the images of rank `i`; `skip` is `my_rank == i` for the first image
and false for the others. -/
noncomputable def scatterImages {α : Type} (d : Dinfo) (T : MTree α) (i : ℕ) : Bool → List Idx → Option (List (Idx × List ℕ))
  | _, [] => some []
  | skip, s :: ss =>
    match (if skip then some [] else scatterList T ⟨d.image i s, d.image i s⟩), scatterImages d T i false ss with
    | some l, some r => some ((s, l) :: r)
    | _, _ => none

/-- tree_for_force_utils2.hpp:351-383 `FindScatterParticle`, the iteration for rank `i`: the images of the domain of `i` and the
numbers of the particles to send there. -/
noncomputable def scatterTo {α : Type} (d : Dinfo) (T : MTree α) (my i fuel : ℕ) : Option (List (Idx × List ℕ)) :=
  match imageShifts d.pa d.size (T.mom 0).vout (d.dom i) fuel with
  | none => none
  | some S => scatterImages d T i (decide (my = i)) S

/-- `setPos(getPos() - shift)` (tree_for_force_utils2.hpp:593-594, 637-638). -/
noncomputable def moved {α : Type} (e : Ep α) (v : V3) : Ep α := ⟨e.pos - v, e.rs, e.data⟩

/-- tree_for_force_utils2.hpp:591-595: the loop over the particles of one image. -/
noncomputable def packImage {α : Type} (eps : List (Ep α)) (v : V3) : List ℕ → Option (List (Ep α))
  | [] => some []
  | a :: as =>
    match eps[a]?, packImage eps v as with
    | some e, some l => some (moved e v :: l)
    | _, _ => none

/-- tree_for_force_utils2.hpp:587-596, 631-640: the loop over the images of one rank in `ExchangeLet` and `ExchangeParticle`. -/
noncomputable def pack {α : Type} (eps : List (Ep α)) (size : V3) : List (Idx × List ℕ) → Option (List (Ep α))
  | [] => some []
  | (s, as) :: r =>
    match packImage eps (shiftOf size s) as, pack eps size r with
    | some l, some l' => some (l ++ l')
    | _, _ => none

/-- `n_epj_src_per_image_tmp[ith].back()++` (tree_for_force_utils2.hpp:780); `none` if there is no last element. -/
def addLast {α : Type} (e : Ep α) : List (Idx × List (Ep α)) → Option (List (Idx × List (Ep α)))
  | [] => none
  | [(s, l)] => some [(s, l ++ [e])]
  | x :: y :: r =>
    match addLast e (y :: r) with
    | none => none
    | some r' => some (x :: r')

/-- `id_image_old = -9999` (tree_for_force_utils2.hpp:761). -/
def noImage : Idx := ⟨-9999, -9999, -9999⟩

/-- tree_for_force_utils2.hpp:763-781: the loop that cuts the particles received from one rank into runs of the same image. -/
noncomputable def splitLoop {α : Type} (d : Dinfo) (fuel : ℕ) :
    List (Ep α) → Idx → List (Idx × List (Ep α)) → Option (List (Idx × List (Ep α)))
  | [], _, acc => some acc
  | e :: es, old, acc =>
    match imageId d.pa d.root e.pos fuel with
    | none => none
    | some id =>
      match addLast e (if old ≠ id then acc ++ [(id, [])] else acc) with
      | none => none
      | some acc' => splitLoop d fuel es id acc'

/-- tree_for_force_utils2.hpp:799-890: the loop over the runs: a tree is built from each and walked against the own tree
`B`; `build` is lines 817-855 (key, sort, `LinkCellST`, `CalcMomentST` with one particle per leaf). -/
noncomputable def walkImages {α : Type} (d : Dinfo) (build : List (Ep α) → Option (MTree α)) (B : MTree α) (i : ℕ) :
    List (Idx × List (Ep α)) → Option (List (Idx × List ℕ))
  | [] => some []
  | (s, es) :: r =>
    match build es with
    | none => none
    | some A =>
      match doubleWalkTop A (d.image i s) B, walkImages d build B i r with
      | some l, some r' => some ((s, l) :: r')
      | _, _ => none

/-- tree_for_force_utils2.hpp:745-892 `FindExchangeParticleDoubleWalk`, the iteration for the rank `i` from which the particles
`es` came. -/
noncomputable def doubleTo {α : Type} (d : Dinfo) (build : List (Ep α) → Option (MTree α)) (B : MTree α) (i : ℕ)
    (es : List (Ep α)) (fuel : ℕ) : Option (List (Idx × List ℕ)) :=
  match splitLoop d fuel es noImage [] with
  | none => none
  | some im => walkImages d build B i im

/-- What rank `b` receives from rank `a` in the first step (tree_for_force_impl.hpp:1503-1516). -/
noncomputable def recv1 {α : Type} (d : Dinfo) (T : ℕ → MTree α) (b a fuel : ℕ) : Option (List (Ep α)) :=
  match scatterTo d (T a) a b fuel with
  | none => none
  | some im => pack (T a).eps d.size im

/-- The part of `comm_table_` of rank `a` for rank `b` (tree_for_force_impl.hpp:1503-1610): the images of the first step, then
those of the second. -/
noncomputable def table {α : Type} (d : Dinfo) (build : ℕ → List (Ep α) → Option (MTree α)) (T : ℕ → MTree α) (a b fuel : ℕ) :
    Option (List (Idx × List ℕ)) :=
  match scatterTo d (T a) a b fuel, recv1 d T a b fuel with
  | some im, some es =>
    match doubleTo d (build a) (T a) b es fuel with
    | none => none
    | some im' => some (im ++ im')
  | _, _ => none

/-- What rank `b` receives from rank `a` in `ExchangeLet` (tree_for_force_impl.hpp:1634-1639). -/
noncomputable def recv {α : Type} (d : Dinfo) (build : ℕ → List (Ep α) → Option (MTree α)) (T : ℕ → MTree α) (b a fuel : ℕ) :
    Option (List (Ep α)) :=
  match table d build T a b fuel with
  | none => none
  | some im => pack (T a).eps d.size im

/-- The blocks of the other ranks one after the other (`n_disp_ep_recv`, tree_for_force_utils2.hpp:573-578). -/
noncomputable def recvFrom {α : Type} (d : Dinfo) (build : ℕ → List (Ep α) → Option (MTree α)) (T : ℕ → MTree α) (b fuel : ℕ) :
    List ℕ → Option (List (Ep α))
  | [] => some []
  | a :: as =>
    match recv d build T b a fuel, recvFrom d build T b fuel as with
    | some l, some l' => some (l ++ l')
    | _, _ => none

/-- tree_for_force_impl.hpp:1478-1643 `exchangeLocalEssentialTreeReuseListImpl(TagSearchShortSymmetry)` without reuse: what rank
`b` finds in `epj_org_` behind its own particles. -/
noncomputable def exchange {α : Type} (d : Dinfo) (build : ℕ → List (Ep α) → Option (MTree α)) (T : ℕ → MTree α) (b fuel : ℕ) :
    Option (List (Ep α)) :=
  recvFrom d build T b fuel (List.range d.n)

end Verif.Let
