import Verif.Model.Wrap
/-!
Model of `MPI/MixPairInteraction.hpp` and of the functor `FindPair` of `MPI/MixPairInteraction_test.cpp`.

`EPT` and `EPS` are template parameters.  What the header asks of them (lines 15-32) is `Class`, and that the functions fit together is `Lawful`.  `int` numbers of
particles are natural numbers.

What is assumed of the tree of FDPS, with search mode `Symmetry`, is `CalcForceAll`.
-/
namespace Verif.Mix
open Stats Wrap

/-- The functions of a class of essential particles `E` made from full particles `F`. -/
structure Class (F E : Type) where
  copyFromFP : F → E
  getPos : E → V3
  setPos : E → V3 → E
  getRSearch : E → ℝ

/-- Setting the position sets the position and nothing else. -/
structure Lawful {F E : Type} (c : Class F E) : Prop where
  get_set : ∀ e p, c.getPos (c.setPos e p) = p
  set_get : ∀ e, c.setPos e (c.getPos e) = e
  set_set : ∀ e p q, c.setPos (c.setPos e p) q = c.setPos e q
  search_set : ∀ e p, c.getRSearch (c.setPos e p) = c.getRSearch e

section
variable {FT FS T S : Type} (ct : Class FT T) (cs : Class FS S)

/-- MixPairInteraction.hpp:46-50.  The member that does not belong to the flag has some value. -/
structure MixFP (T S : Type) where
  trgFlag : Bool
  epTrg : T
  epSrc : S

/-- MixPairInteraction.hpp:52 -/
def MixFP.getRadius (fp : MixFP T S) : ℝ := if fp.trgFlag then ct.getRSearch fp.epTrg else cs.getRSearch fp.epSrc

/-- MixPairInteraction.hpp:60 -/
def MixFP.getPos (fp : MixFP T S) : V3 := if fp.trgFlag then ct.getPos fp.epTrg else cs.getPos fp.epSrc

/-- MixPairInteraction.hpp:68 -/
def MixFP.setPos (fp : MixFP T S) (p : V3) : MixFP T S :=
  if fp.trgFlag then { fp with epTrg := ct.setPos fp.epTrg p } else { fp with epSrc := cs.setPos fp.epSrc p }

/-- MixPairInteraction.hpp:77-81 -/
structure MixEPI (T : Type) where
  trgFlag : Bool
  radius : ℝ
  pos : V3
  epTrg : T

/-- MixPairInteraction.hpp:85 -/
def MixEPI.getPos (e : MixEPI T) : V3 := if e.trgFlag then ct.getPos e.epTrg else e.pos

/-- MixPairInteraction.hpp:87-92 -/
def MixEPI.setPos (e : MixEPI T) (p : V3) : MixEPI T :=
  if e.trgFlag then { e with epTrg := ct.setPos e.epTrg p } else { e with pos := p }

/-- MixPairInteraction.hpp:94-102, on an object that holds `e`. -/
def MixEPI.copyFromFP (e : MixEPI T) (fp : MixFP T S) : MixEPI T :=
  let e := { e with trgFlag := fp.trgFlag }
  let e := { e with radius := fp.getRadius ct cs }
  let e := if e.trgFlag then { e with epTrg := fp.epTrg } else e
  e.setPos ct (fp.getPos ct cs)

/-- MixPairInteraction.hpp:111-115 -/
structure MixEPJ (S : Type) where
  srcFlag : Bool
  radius : ℝ
  pos : V3
  epSrc : S

/-- MixPairInteraction.hpp:119 -/
def MixEPJ.getPos (e : MixEPJ S) : V3 := if e.srcFlag then cs.getPos e.epSrc else e.pos

/-- MixPairInteraction.hpp:121-126 -/
def MixEPJ.setPos (e : MixEPJ S) (p : V3) : MixEPJ S :=
  if e.srcFlag then { e with epSrc := cs.setPos e.epSrc p } else { e with pos := p }

/-- MixPairInteraction.hpp:128-136, on an object that holds `e`. -/
def MixEPJ.copyFromFP (e : MixEPJ S) (fp : MixFP T S) : MixEPJ S :=
  let e := { e with srcFlag := !fp.trgFlag }
  let e := { e with radius := fp.getRadius ct cs }
  let e := if e.srcFlag then { e with epSrc := fp.epSrc } else e
  e.setPos cs (fp.getPos ct cs)

/-- MixPairInteraction.hpp:250-266: the mixed system before positions are adjusted.  `old` is what `systemMix` holds after `setNumberOfParticleLocal`. -/
def fill (old : ℕ → MixFP T S) (trg : List FT) (src : List FS) : List (MixFP T S) :=
  trg.mapIdx (fun i t => { old i with epTrg := ct.copyFromFP t, trgFlag := true }) ++
    src.mapIdx (fun i s => { old (i + trg.length) with epSrc := cs.copyFromFP s, trgFlag := false })

/-- MixPairInteraction.hpp:247-269 `updateSystem` on a rank: the call ends and leaves the system `sys`. -/
def UpdateSystem (d : Domain) (old : ℕ → MixFP T S) (trg : List FT) (src : List FS) (sys : List (MixFP T S)) : Prop :=
  List.Forall₂ (fun (fp fp' : MixFP T S) => ∃ p, AdjustPos id d (fp.getPos ct cs) p ∧ fp' = fp.setPos ct cs p) (fill ct cs old trg src) sys

/-! ### the functor -/

/-- MixPairInteraction_test.cpp:80-98 `Pair`.  Instead of the ids it has the particles. -/
structure Pair (T S : Type) where
  a : T
  b : S
  r : ℝ
  xa : V3
  xb : V3

open Classical in
/-- MixPairInteraction_test.cpp:109-138: the pairs found for one target, in order.  (`pow(R, 2)` is `R ^ 2`.) -/
noncomputable def findPair (trg : MixEPI T) (srcs : List (MixEPJ S)) : List (Pair T S) :=
  if !trg.trgFlag then []
  else srcs.filterMap fun src =>
    if !src.srcFlag then none
    else
      let r2 := V3.normSq (trg.getPos ct - src.getPos cs)
      if r2 < src.radius ^ 2 ∨ r2 < trg.radius ^ 2 then some ⟨trg.epTrg, src.epSrc, Real.sqrt r2, trg.getPos ct, src.getPos cs⟩ else none

/-- MixPairInteraction_test.cpp:107-141: a call of the functor: the counts `nbCount` and the pairs added. -/
noncomputable def findPairs (trgs : List (MixEPI T)) (srcs : List (MixEPJ S)) : List ℕ × List (Pair T S) :=
  (trgs.map fun t => (findPair ct cs t srcs).length, trgs.flatMap fun t => findPair ct cs t srcs)

/-! ### the tree -/

/-- A particle and its periodic images, as the tree makes them from the mixed systems of all ranks: with `copyFromFP`, then `setPos` to the moved position. -/
def IsWorld (systems : List (List (MixFP T S))) (shifts : List V3) (world : List (MixEPJ S)) : Prop :=
  List.Forall₂ (fun (q : MixFP T S × V3) (e : MixEPJ S) => ∃ old : MixEPJ S, e = (old.copyFromFP ct cs q.1).setPos cs ((old.copyFromFP ct cs q.1).getPos cs + q.2))
    (systems.flatten ×ˢ shifts) world

open Classical in
/-- Within the larger of the two search radii. -/
noncomputable def near (i : MixEPI T) (j : MixEPJ S) : Bool :=
  V3.normSq (i.getPos ct - j.getPos cs) < j.radius ^ 2 ∨ V3.normSq (i.getPos ct - j.getPos cs) < i.radius ^ 2

/-- FDPS/tree_for_force.hpp `calcForceAll` on a rank with the local system `sys`, as assumed: it calls the functor `ftr` on groups of local particles; every local particle is in one group, once; the second list of a call has every particle of the
`world` that is within the search radius of one of the group exactly once, and maybe others; `forces` are the results in the order of the local
particles, and `out` is what the calls add. -/
def CalcForceAll {R O : Type} (ftr : List (MixEPI T) → List (MixEPJ S) → List R × List O) (sys : List (MixFP T S)) (world : List (MixEPJ S)) (forces : List R) (out : List O) : Prop :=
  forces.length = sys.length ∧ ∃ calls : List (List ℕ × List (MixEPI T) × List (MixEPJ S)),
    (calls.flatMap fun c => c.1).Perm (List.range sys.length) ∧
    (∀ c ∈ calls, List.Forall₂ (fun (i : ℕ) (e : MixEPI T) => ∃ fp old, sys[i]? = some fp ∧ e = MixEPI.copyFromFP ct cs old fp) c.1 c.2.1 ∧
      List.Forall₂ (fun (i : ℕ) (f : R) => forces[i]? = some f) c.1 (ftr c.2.1 c.2.2).1 ∧
      ∀ e ∈ c.2.1, (c.2.2.filter (near ct cs e)).Perm (world.filter (near ct cs e))) ∧
    out.Perm (calls.flatMap fun c => (ftr c.2.1 c.2.2).2)

/-- MixPairInteraction.hpp:303-308: `forceResult`, `none` if there is no such force. -/
def forceResult {R : Type} (nLocalTrg : ℕ) (forces : List R) : Option (List R) := (List.range nLocalTrg).mapM fun i : ℕ => forces[i]?

end

end Verif.Mix
