import Verif.Model.Mix
import Verif.Model.Force
/-! MPI/MixPairInteraction.hpp `computeForce` (299-309) with FDPS `calcForceAll` as modelled in `Model/Force.lean`, instead of the assumption `CalcForceAll`. -/
namespace Verif.Mix
open Tree Image Let

/-- A particle of `systemMix`, and what the objects held into which FDPS copies it (FDPS/tree_for_force_impl.hpp, `copyFromFP` on the elements of `epi_org_`
and `epj_org_`). -/
structure Loaded (T S : Type) where
  fp : MixFP T S
  oldI : MixEPI T
  oldJ : MixEPJ S

section
variable {FT FS T S : Type} (ct : Class FT T) (cs : Class FS S)

/-- The particle as FDPS sees it: `getPos` and `getRSearch` (MixPairInteraction.hpp:117-119) of the copy of class `MixEPJ`, with both copies as data.
Simplified: FDPS asks also the copy of class `MixEPI`; by `C57_copies` it answers the same. -/
def Loaded.toEp (q : Loaded T S) : Ep (MixEPI T × MixEPJ S) :=
  ⟨(q.oldJ.copyFromFP ct cs q.fp).getPos cs, (q.oldJ.copyFromFP ct cs q.fp).radius, (q.oldI.copyFromFP ct cs q.fp, q.oldJ.copyFromFP ct cs q.fp)⟩

/-- What the functor gets as a particle of the interaction list: FDPS changes the position of images by `setPos`. -/
def image (p : Ep (MixEPI T × MixEPJ S)) : MixEPJ S := p.data.2.setPos cs p.pos

/-- MixPairInteraction.hpp:302 on rank `b`: the forces and what the functor adds. -/
noncomputable def treeForce {R O : Type} (F : Force.Config) (d : Dinfo) (Q : ℕ → List (Loaded T S)) (X : ℕ → Force.RankExec (MixEPI T × MixEPJ S))
    (ftr : List (MixEPI T) → List (MixEPJ S) → List R × List O) (b fuel : ℕ) : Option (List (Option R) × List O) :=
  Force.calcForceAll F d (fun r => (Q r).map (Loaded.toEp ct cs)) X (fun ei ej => ftr (ei.map fun p => p.data.1) (ej.map (image cs))) b fuel

end
end Verif.Mix
