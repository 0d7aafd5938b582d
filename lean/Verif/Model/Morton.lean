import Verif.Model.V3
import Mathlib.Algebra.Order.Floor.Defs
import Mathlib.Data.Real.Archimedean
/-! FDPS/key.hpp: Morton keys (the three dimensional version). -/
namespace Verif.Morton

/-- `kLevMax` (key.hpp:66); equal to `TREE_LEVEL_LIMIT` (FDPS/ps_defs.hpp:152). -/
def levMax : ℕ := 21

/-- key.hpp:79-87 `separateBit`, on `U64`. -/
def separateBit (s0 : BitVec 64) : BitVec 64 :=
  let s1 := (s0 ||| s0 <<< 32) &&& 0xffff00000000ffff#64
  let s2 := (s1 ||| s1 <<< 16) &&& 0x00ff0000ff0000ff#64
  let s3 := (s2 ||| s2 <<< 8) &&& 0xf00f00f00f00f00f#64
  let s4 := (s3 ||| s3 <<< 4) &&& 0x30c30c30c30c30c3#64
  (s4 ||| s4 <<< 2) &&& 0x9249249249249249#64

/-- `(U64) x`: truncation towards zero, undefined (`none`) when the truncated value does not fit. -/
noncomputable def toU64 (x : ℝ) : Option (BitVec 64) :=
  open Classical in if -1 < x ∧ x < 2 ^ 64 then some (BitVec.ofNat 64 ⌊x⌋₊) else none

/-- The static members `half_len_` and `center_` (key.hpp:68-70). -/
structure Frame where
  center : V3
  halfLen : ℝ

/-- `normalized_factor_` (key.hpp:94). -/
noncomputable def Frame.factor (f : Frame) : ℝ := (1 / (f.halfLen * 2)) * 2 ^ levMax

/-- The combination of the three separated indices (key.hpp:103). -/
def combine (nx ny nz : BitVec 64) : BitVec 64 :=
  separateBit nx <<< 2 ||| separateBit ny <<< 1 ||| separateBit nz

/-- key.hpp:96-104 `getKey`.  Simplified: the arithmetic before the conversion is exact. -/
noncomputable def getKey (f : Frame) (p : V3) : Option (BitVec 64) :=
  match toU64 ((p.x - f.center.x + f.halfLen) * f.factor), toU64 ((p.y - f.center.y + f.halfLen) * f.factor),
    toU64 ((p.z - f.center.z + f.halfLen) * f.factor) with
  | some nx, some ny, some nz => some (combine nx ny nz)
  | _, _, _ => none

/-- key.hpp:105-108 `getCellID`.  Simplified: `lev ≤ kLevMax`, so that the shift amount is not negative. -/
def getCellID (lev : ℕ) (key : BitVec 64) : ℕ := ((key >>> ((levMax - lev) * 3)) &&& 0x7#64).toNat

end Verif.Morton
