import Verif.Model.Morton
/-! The oct-tree cells the Morton keys stand for. -/
namespace Verif.Morton

/-- `p` lies in the half-open root cell. -/
def InRoot (f : Frame) (p : V3) : Prop :=
  (f.center.x - f.halfLen ≤ p.x ∧ p.x < f.center.x + f.halfLen) ∧
  (f.center.y - f.halfLen ≤ p.y ∧ p.y < f.center.y + f.halfLen) ∧
  (f.center.z - f.halfLen ≤ p.z ∧ p.z < f.center.z + f.halfLen)

/-- The number of the slice of level `lev` that contains the coordinate `t`: the edge of the root cell is cut into
`2 ^ lev` equal parts, numbered from 0 at the low end. -/
noncomputable def slice (c h : ℝ) (lev : ℕ) (t : ℝ) : ℤ := ⌊(t - (c - h)) / (2 * h / 2 ^ lev)⌋

/-- `p` and `q` lie in the same cell of level `lev`. -/
def SameCell (f : Frame) (lev : ℕ) (p q : V3) : Prop :=
  slice f.center.x f.halfLen lev p.x = slice f.center.x f.halfLen lev q.x ∧
  slice f.center.y f.halfLen lev p.y = slice f.center.y f.halfLen lev q.y ∧
  slice f.center.z f.halfLen lev p.z = slice f.center.z f.halfLen lev q.z

/-- The octant of `p` inside its cell of level `lev - 1`: which halves along x, y, z. -/
noncomputable def octant (f : Frame) (lev : ℕ) (p : V3) : ℤ :=
  4 * (slice f.center.x f.halfLen lev p.x % 2) + 2 * (slice f.center.y f.halfLen lev p.y % 2) +
    slice f.center.z f.halfLen lev p.z % 2

end Verif.Morton
