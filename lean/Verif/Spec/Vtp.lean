import Verif.Model.Vtp
/-!
What VTK requires of a poly data piece and of its parallel header, and what the arrays of this program should hold.
-/
namespace Verif.Spec.Vtp
open Verif.Vtp Verif.Collector Verif.Text

/-- Entries `k * c` up to `k * c + c` of an array. -/
def tuple (a : Arr) (k c : ℕ) : Arr :=
  match a with
  | .u8 l => .u8 ((l.drop (k * c)).take c)
  | .i32 l => .i32 ((l.drop (k * c)).take c)
  | .f32 l => .f32 ((l.drop (k * c)).take c)
  | .f64 l => .f64 ((l.drop (k * c)).take c)

/-- The VTK name of the element type of a vector. -/
def vtkName : Arr → String
  | .u8 _ => "UInt8"
  | .i32 _ => "Int32"
  | .f32 _ => "Float32"
  | .f64 _ => "Float64"

/-- The piece is a valid poly data piece that agrees with the header: each array has `components * count` entries, its
type attribute names its element type, and name, type and number of components are those that the header declares, in
the same order; the points are the ones the header declares. -/
structure Agrees (h : Header) (p : Piece) : Prop where
  pointSize : ∀ d ∈ p.pointData, d.data.size = d.comps * p.numberOfPoints
  cellSize : ∀ d ∈ p.cellData, d.data.size = d.comps * p.numberOfLines
  types : ∀ d ∈ p.points ++ p.lines ++ p.pointData ++ p.cellData, d.type = vtkName d.data
  pointDecl : p.pointData.map (fun d => (d.name, d.type, d.comps)) = h.pointData.map fun d => (d.name, d.type, d.comps)
  cellDecl : p.cellData.map (fun d => (d.name, d.type, d.comps)) = h.cellData.map fun d => (d.name, d.type, d.comps)
  coords : ∃ d, p.points = [d] ∧ (d.type, d.comps) = h.points ∧ d.data.size = d.comps * p.numberOfPoints

/-- The lines of the piece: line `k` joins the points `2 k` and `2 k + 1`, which exist.  VTK reads line `k` from
`connectivity` between `offsets[k - 1]` (0 for the first) and `offsets[k]`. -/
def TwoPointLines (p : Piece) : Prop :=
  ∃ conn offs : List ℤ,
    p.lines.map (fun d => (d.name, d.comps, d.data)) = [("connectivity", 1, .i32 conn), ("offsets", 1, .i32 offs)] ∧
    offs.length = p.numberOfLines ∧ (conn.length : ℤ) = (0 :: offs).getLast (by simp) ∧
    ∀ k : ℕ, k < p.numberOfLines → ∃ a b : ℤ, (0 :: offs)[k]? = some a ∧ offs[k]? = some b ∧ 0 ≤ a ∧ a ≤ b ∧
      (conn.drop a.toNat).take (b - a).toNat = [2 * (k : ℤ), 2 * (k : ℤ) + 1] ∧ 2 * k + 1 < p.numberOfPoints

/-- A vector as three single precision numbers. -/
def vec (r32 : ℝ → ℝ) (v : V3) : Arr := .f32 [r32 v.x, r32 v.y, r32 v.z]

/-- What the cell arrays hold for a body. -/
noncomputable def bodyCells (r32 : ℝ → ℝ) (s : Sylinder) : List (String × Arr) :=
  [("gid", .i32 [s.gid]), ("group", .i32 [s.group]), ("isImmovable", .u8 [s.isImmovable.toNat]),
    ("radius", .f32 [r32 s.radius]), ("radiusCollision", .f32 [r32 s.radiusCollision]),
    ("length", .f32 [r32 s.length]), ("lengthCollision", .f32 [r32 s.lengthCollision]),
    ("vel", vec r32 s.vel), ("omega", vec r32 s.omega),
    ("velCollision", vec r32 s.velCol), ("omegaCollision", vec r32 s.omegaCol),
    ("velBilateral", vec r32 s.velBi), ("omegaBilateral", vec r32 s.omegaBi),
    ("velNonBrown", vec r32 s.velNonB), ("omegaNonBrown", vec r32 s.omegaNonB),
    ("force", vec r32 s.force), ("torque", vec r32 s.torque),
    ("forceCollision", vec r32 s.forceCol), ("torqueCollision", vec r32 s.torqueCol),
    ("forceBilateral", vec r32 s.forceBi), ("torqueBilateral", vec r32 s.torqueBi),
    ("forceNonBrown", vec r32 s.forceNonB), ("torqueNonBrown", vec r32 s.torqueNonB),
    ("velBrown", vec r32 s.velBrown), ("omegaBrown", vec r32 s.omegaBrown),
    ("xnorm", vec r32 (s.orientation.rot ⟨1, 0, 0⟩)), ("znorm", vec r32 (s.orientation.rot ⟨0, 0, 1⟩))]

/-- What the cell arrays hold for a constraint. -/
def conCells (r32 : ℝ → ℝ) (b : Block) : List (String × Arr) :=
  [("oneSide", .i32 [(b.oneSide.toNat : ℤ)]), ("bilateral", .i32 [(b.bilateral.toNat : ℤ)]),
    ("delta0", .f32 [r32 b.delta0]), ("gamma", .f32 [r32 b.gamma]), ("kappa", .f32 [r32 b.kappa]),
    ("Stress", .f32 [r32 (b.stress 0), r32 (b.stress 1), r32 (b.stress 2), r32 (b.stress 3), r32 (b.stress 4),
      r32 (b.stress 5), r32 (b.stress 6), r32 (b.stress 7), r32 (b.stress 8)])]

/-- What the point arrays hold for the first (`false`) and second (`true`) side of a constraint. -/
def conPoint (r32 : ℝ → ℝ) (b : Block) (j : Bool) : List (String × Arr) :=
  [("gid", .i32 [if j then b.gidJ else b.gidI]), ("globalIndex", .i32 [if j then b.globalIndexJ else b.globalIndexI]),
    ("posIJ", vec r32 (if j then b.posJ else b.posI)), ("normIJ", vec r32 (if j then b.normJ else b.normI))]

/-- The tuples number `k` of a list of arrays, with the names of the arrays. -/
def row (ds : List DataArray) (k : ℕ) : List (String × Arr) := ds.map fun d => (d.name, tuple d.data k d.comps)

/-- The part of a file name up to and including the last `/`. -/
def dirOf (s : Str) : Str := (s.reverse.dropWhile (· != '/')).reverse

end Verif.Spec.Vtp
