import Verif.Lemmas.Morton
import Mathlib.Tactic.NormNum
/-! C68: Morton keys. -/
namespace Verif
open Morton

/-- Every point of the half-open root cell has a key, and the top bit of the key is 0. -/
theorem C68_key_defined (f : Frame) (p : V3) (hh : 0 < f.halfLen) (hp : InRoot f p) :
    ∃ k, getKey f p = some k ∧ k.toNat < 2 ^ 63 := by
  obtain ⟨nx, ny, nz, hk, hx, hy, hz, _⟩ := getKey_index f p hh hp
  exact ⟨_, hk, combine_lt nx ny nz hx hy hz⟩

/-- Two points have the same leading `3 * lev` key bits exactly when they lie in the same oct-tree cell of level
`lev`. -/
theorem C68_prefix_iff_same_cell (f : Frame) (p q : V3) (hh : 0 < f.halfLen) (hp : InRoot f p) (hq : InRoot f q)
    (k l : BitVec 64) (hk : getKey f p = some k) (hl : getKey f q = some l) (lev : ℕ) (hlev : lev ≤ 21) :
    k.toNat / 2 ^ ((21 - lev) * 3) = l.toNat / 2 ^ ((21 - lev) * 3) ↔ SameCell f lev p q := by
  obtain ⟨nx, ny, nz, hk', hx, hy, hz, hs⟩ := getKey_index f p hh hp
  obtain ⟨mx, my, mz, hl', hx', hy', hz', hs'⟩ := getKey_index f q hh hq
  rw [hk] at hk'
  rw [hl] at hl'
  obtain rfl := Option.some.inj hk'
  obtain rfl := Option.some.inj hl'
  obtain ⟨a1, a2, a3⟩ := hs lev hlev
  obtain ⟨b1, b2, b3⟩ := hs' lev hlev
  rw [combine_prefix nx ny nz mx my mz hx hy hz hx' hy' hz', SameCell, ← a1, ← a2, ← a3, ← b1, ← b2, ← b3]
  norm_cast

/-- `getCellID(lev, key)` is the octant of the point inside its cell of level `lev - 1`. -/
theorem C68_cellID_is_octant (f : Frame) (p : V3) (hh : 0 < f.halfLen) (hp : InRoot f p) (k : BitVec 64)
    (hk : getKey f p = some k) (lev : ℕ) (hlev : lev ≤ 21) : (getCellID lev k : ℤ) = octant f lev p := by
  obtain ⟨nx, ny, nz, hk', hx, hy, hz, hs⟩ := getKey_index f p hh hp
  rw [hk] at hk'
  obtain rfl := Option.some.inj hk'
  obtain ⟨a1, a2, a3⟩ := hs lev hlev
  rw [cellID_combine nx ny nz hx hy hz, octant, ← a1, ← a2, ← a3]
  push_cast
  ring

example : InRoot ⟨⟨0, 0, 0⟩, 1⟩ ⟨-1, 1 / 2, 1 / 4⟩ := by
  refine ⟨⟨?_, ?_⟩, ⟨?_, ?_⟩, ?_, ?_⟩ <;> norm_num

/-- The upper face of the root cell is not covered: there the index is `2 ^ 21`, one bit too long.  A point on the upper
x face gets the key of the point on the opposite face, although the two are in different cells of every level. -/
theorem C68_upper_face_false (h : ℝ) (hh : 0 < h) (y z : ℝ) (hy : -h ≤ y ∧ y < h) (hz : -h ≤ z ∧ z < h) :
    getKey ⟨⟨0, 0, 0⟩, h⟩ ⟨h, y, z⟩ = getKey ⟨⟨0, 0, 0⟩, h⟩ ⟨-h, y, z⟩ ∧
      ∀ lev, ¬ SameCell ⟨⟨0, 0, 0⟩, h⟩ lev ⟨h, y, z⟩ ⟨-h, y, z⟩ := by
  constructor
  · have h1 : toU64 ((h - 0 + h) * Frame.factor ⟨⟨0, 0, 0⟩, h⟩) = some (BitVec.ofNat 64 (2 ^ 21)) := by
      have e : (h - 0 + h) * Frame.factor ⟨⟨0, 0, 0⟩, h⟩ = ((2 ^ 21 : ℕ) : ℝ) := by
        simp only [Frame.factor, levMax]; push_cast; field_simp; ring
      rw [toU64, e, Nat.floor_natCast, if_pos]
      constructor <;> norm_num
    have h2 : toU64 ((-h - 0 + h) * Frame.factor ⟨⟨0, 0, 0⟩, h⟩) = some (BitVec.ofNat 64 0) := by
      have e : (-h - 0 + h) * Frame.factor ⟨⟨0, 0, 0⟩, h⟩ = 0 := by ring
      rw [toU64, e, Nat.floor_zero, if_pos]
      constructor <;> norm_num
    have h3 : ∀ ny nz, combine (BitVec.ofNat 64 (2 ^ 21)) ny nz = combine (BitVec.ofNat 64 0) ny nz := by
      intro ny nz
      have : separateBit (BitVec.ofNat 64 (2 ^ 21)) <<< 2 = separateBit (BitVec.ofNat 64 0) <<< 2 := by decide
      simp only [combine, this]
    simp only [getKey, h1, h2]
    generalize toU64 ((y - 0 + h) * Frame.factor ⟨⟨0, 0, 0⟩, h⟩) = oy
    generalize toU64 ((z - 0 + h) * Frame.factor ⟨⟨0, 0, 0⟩, h⟩) = oz
    cases oy <;> cases oz <;> first | rfl | exact congrArg some (h3 _ _)
  · rintro lev ⟨h1, -, -⟩
    have e1 : slice 0 h lev h = 2 ^ lev := by
      have : (h - (0 - h)) / (2 * h / 2 ^ lev) = ((2 ^ lev : ℤ) : ℝ) := by push_cast; field_simp; ring
      rw [slice, this, Int.floor_intCast]
    have e2 : slice 0 h lev (-h) = 0 := by
      have : (-h - (0 - h)) / (2 * h / 2 ^ lev) = 0 := by rw [show -h - (0 - h) = 0 by ring, zero_div]
      rw [slice, this, Int.floor_zero]
    simp only [e1, e2] at h1
    exact absurd h1 (by positivity)

end Verif
