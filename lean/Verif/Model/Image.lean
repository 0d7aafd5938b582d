import Verif.Model.Box
/-! FDPS/tree_for_force_utils.hpp:63-200: images of domains in a periodic box. -/
namespace Verif.Image

/-- `periodic_axis`. -/
structure Axes where
  x : Bool
  y : Bool
  z : Bool

/-- The three loop variables `ix, iy, iz` (unbounded here, `S32` in the code). -/
@[ext] structure Idx where
  x : ℤ
  y : ℤ
  z : ℤ
deriving DecidableEq

def Idx.neg (s : Idx) : Idx := ⟨-s.x, -s.y, -s.z⟩

/-- `shift_tmp` (tree_for_force_utils.hpp:125-127, 192). -/
noncomputable def shiftOf (size : V3) (s : Idx) : V3 := ⟨s.x * size.x, s.y * size.y, s.z * size.z⟩

/-- `-lev, …, lev`: the values of a loop variable (tree_for_force_utils.hpp:118-120). -/
def span (lev : ℕ) : List ℤ := (List.range (2 * lev + 1)).map (fun (k : ℕ) => (k : ℤ) - lev)

/-- `lev_x` (tree_for_force_utils.hpp:115-117): the bound of a loop variable. -/
def levOf (p : Bool) (lev : ℕ) : ℕ := if p then lev else 0

/-- The test before `continue` (tree_for_force_utils.hpp:121-123, 188-190). -/
def skipped (pa : Axes) (lev : ℕ) (s : Idx) : Prop :=
  (|s.x| ≠ levOf pa.x lev ∨ pa.x = false) ∧ (|s.y| ≠ levOf pa.y lev ∨ pa.y = false) ∧
    (|s.z| ≠ levOf pa.z lev ∨ pa.z = false)

instance (pa : Axes) (lev : ℕ) (s : Idx) : Decidable (skipped pa lev s) := by unfold skipped; infer_instance

/-- The values of the loop variables for one `lev`, in the order of the loops and without the skipped ones
(tree_for_force_utils.hpp:111-124, 178-191). -/
def shell (pa : Axes) (lev : ℕ) : List Idx :=
  ((span (levOf pa.x lev)).flatMap fun ix => (span (levOf pa.y lev)).flatMap fun iy =>
    (span (levOf pa.z lev)).map fun iz => (⟨ix, iy, iz⟩ : Idx)).filter (fun s => ¬ skipped pa lev s)

/-- tree_for_force_utils.hpp:124-132: what one `lev` appends. -/
noncomputable def levelImages (pa : Axes) (size : V3) (my target : Box) (lev : ℕ) : List Idx :=
  open Classical in (shell pa lev).filter (fun s => decide (my.overlapped (target.shift (shiftOf size s))))

/-- tree_for_force_utils.hpp:110-137: the loop over `lev`, which has no bound; `none` after `fuel` rounds without end. -/
noncomputable def imageLoop (pa : Axes) (size : V3) (my target : Box) : ℕ → ℕ → Option (List Idx)
  | 0, _ => none
  | fuel + 1, lev =>
    let now := levelImages pa size my target lev
    if now.length = 0 then some []
    else
      match imageLoop pa size my target fuel (lev + 1) with
      | none => none
      | some rest => some (now ++ rest)

/-- tree_for_force_utils.hpp:63-139 `CalcNumberAndShiftOfImageDomain`: what is appended to `shift_image_domain`.  The
list has the loop variables instead of the vectors `shiftOf`. -/
noncomputable def imageShifts (pa : Axes) (size : V3) (my target : Box) (fuel : ℕ) : Option (List Idx) :=
  if pa.x = false ∧ pa.y = false ∧ pa.z = false then some [⟨0, 0, 0⟩]
  else
    match imageLoop pa size my target fuel 1 with
    | none => none
    | some l => open Classical in some (if my.overlapped target then ⟨0, 0, 0⟩ :: l else l)

/-- tree_for_force_utils.hpp:171-199: the loop over `lev`, which has no bound. -/
noncomputable def idLoop (pa : Axes) (root : Box) (p : V3) : ℕ → ℕ → Option Idx
  | 0, _ => none
  | fuel + 1, lev =>
    match (open Classical in (shell pa lev).find?
      (fun s => decide (root.contained (p + shiftOf (root.high - root.low) s)))) with
    | some s => some s.neg
    | none => idLoop pa root p fuel (lev + 1)

/-- tree_for_force_utils.hpp:142-200 `CalcIDOfImageDomain`. -/
noncomputable def imageId (pa : Axes) (root : Box) (p : V3) (fuel : ℕ) : Option Idx :=
  open Classical in if root.contained p then some ⟨0, 0, 0⟩ else idLoop pa root p fuel 1

end Verif.Image
