import Verif.Model.Sylinder
import Verif.Model.Collector
import Verif.Model.Text
/-!
Model of the VTK output: `Util/IOHelper.hpp` (34-56, 227-262, 264-296), `Sylinder/Sylinder.hpp` (218-453),
`Constraint/ConstraintCollector.cpp` (76-224) and `Sylinder/SylinderSystem.cpp` (523-533).  A written file is the list
of its tags with their attributes; the Base64 text inside a `DataArray` is modelled in `Model/Base64.lean`.
-/
namespace Verif.Vtp
open Verif.Mem Verif.Text Verif.Collector

/-- The largest `int`. -/
def maxInt : ℕ := 2147483647

/-- A `std::vector` of one of the four element types that are written.  Bytes and 32-bit integers are numbers, `float`
and `double` are real numbers. -/
inductive Arr where
  | u8 (l : List ℕ)
  | i32 (l : List ℤ)
  | f32 (l : List ℝ)
  | f64 (l : List ℝ)

/-- `std::vector::size` -/
def Arr.size : Arr → ℕ
  | .u8 l => l.length
  | .i32 l => l.length
  | .f32 l => l.length
  | .f64 l => l.length

/-- IOHelper.hpp:34: `IOTYPE` -/
inductive IOType where
  | uInt8 | int32 | float32 | float64

/-- IOHelper.hpp:44-56 `getTypeName` -/
def getTypeName : IOType → String
  | .uInt8 => "UInt8"
  | .int32 => "Int32"
  | .float32 => "Float32"
  | .float64 => "Float64"

/-- IOHelper.hpp:36-42 `FieldVTU` -/
structure Field where
  dimension : ℕ
  type : IOType
  name : String

/-- A `PDataArray` tag: name, type and number of components. -/
structure Decl where
  name : String
  type : String
  comps : ℕ

/-- A parallel header: what `PPointData`, `PCellData` and `PPoints` declare and the `Source` of each piece. -/
structure Header where
  pointData : List Decl
  cellData : List Decl
  points : String × ℕ
  pieces : List Str

/-- IOHelper.hpp:238-250: the tag of a field. -/
def pDataArray (f : Field) : Decl := ⟨f.name, getTypeName f.type, f.dimension⟩

/-- IOHelper.hpp:227-262 `writePVTPFile` -/
def writePVTPFile (pointDataFields cellDataFields : List Field) (pieceNames : List Str) : Header :=
  ⟨pointDataFields.map pDataArray, cellDataFields.map pDataArray, ("Float64", 3), pieceNames⟩

/-- A `DataArray` tag with its content. -/
structure DataArray where
  name : String
  type : String
  comps : ℕ
  data : Arr

/-- IOHelper.hpp:275-296 `writeDataArrayBase64`: the type name follows from the element type of the vector. -/
def writeDataArray (data : Arr) (name : String) (numComp : ℕ) : DataArray :=
  ⟨name, match data with
    | .i32 _ => "Int32"
    | .f32 _ => "Float32"
    | .f64 _ => "Float64"
    | .u8 _ => "UInt8", numComp, data⟩

/-- One piece: the attributes of `Piece` and the arrays of its four sections, in the order of the file. -/
structure Piece where
  numberOfPoints : ℕ
  numberOfLines : ℕ
  points : List DataArray
  lines : List DataArray
  pointData : List DataArray
  cellData : List DataArray

/-- The order in which the threads perform the writes to the vector with the given name. -/
abbrev Sched := String → ∀ {α : Type}, List (ℕ × α) → List (ℕ × α)

/-- `std::vector<T> v(size)` followed by the writes of a parallel loop over `items`; `w i b` are the writes of one
iteration.  `none`: a write outside of the vector. -/
def fill {α β : Type} (sched : Sched) (name : String) (size : ℕ) (zero : α) (items : List (ℕ × β))
    (w : ℕ → β → List (ℕ × α)) : Option (List α) :=
  writeAll (List.replicate size zero) (sched name (items.flatMap fun p => w p.1 p.2))

/-- `v[3 * i + j] = x[j]` for `j` from 0 to 2, converted to `float`. -/
def wr3 {β : Type} (r32 : ℝ → ℝ) (f : β → V3) (i : ℕ) (b : β) : List (ℕ × ℝ) :=
  [(3 * i + 0, r32 (f b).x), (3 * i + 1, r32 (f b).y), (3 * i + 2, r32 (f b).z)]

/-- `v[i] = x` -/
def wr1 {α β : Type} (f : β → α) (i : ℕ) (b : β) : List (ℕ × α) := [(i, f b)]

/-! ### bodies -/

/-- Sylinder.hpp:221-222: the point fields of the header. -/
def bodyPointFields : List Field := [⟨1, .uInt8, "endLabel"⟩]

/-- Sylinder.hpp:224-256: the cell fields of the header. -/
def bodyCellFields : List Field :=
  [⟨1, .int32, "gid"⟩, ⟨1, .int32, "group"⟩, ⟨1, .uInt8, "isImmovable"⟩,
    ⟨1, .float32, "radius"⟩, ⟨1, .float32, "radiusCollision"⟩, ⟨1, .float32, "length"⟩, ⟨1, .float32, "lengthCollision"⟩,
    ⟨3, .float32, "vel"⟩, ⟨3, .float32, "omega"⟩,
    ⟨3, .float32, "velCollision"⟩, ⟨3, .float32, "omegaCollision"⟩,
    ⟨3, .float32, "velBilateral"⟩, ⟨3, .float32, "omegaBilateral"⟩,
    ⟨3, .float32, "velNonBrown"⟩, ⟨3, .float32, "omegaNonBrown"⟩,
    ⟨3, .float32, "force"⟩, ⟨3, .float32, "torque"⟩,
    ⟨3, .float32, "forceCollision"⟩, ⟨3, .float32, "torqueCollision"⟩,
    ⟨3, .float32, "forceBilateral"⟩, ⟨3, .float32, "torqueBilateral"⟩,
    ⟨3, .float32, "forceNonBrown"⟩, ⟨3, .float32, "torqueNonBrown"⟩,
    ⟨3, .float32, "velBrown"⟩, ⟨3, .float32, "omegaBrown"⟩, ⟨3, .float32, "xnorm"⟩, ⟨3, .float32, "znorm"⟩]

/-- Sylinder.hpp:257-260: name of a piece in the header. -/
def bodyPiece (post : Str) (i : ℕ) : Str :=
  "Sylinder_".toList ++ "r".toList ++ dec i ++ "_".toList ++ post ++ ".vtp".toList

/-- Sylinder.hpp:218-264 `writePVTP`: name of the file and its content. -/
def bodyPVTP (pre post : Str) (nProcs : ℕ) : Str × Header :=
  (pre ++ "Sylinder_".toList ++ post ++ ".pvtp".toList,
    writePVTPFile bodyPointFields bodyCellFields ((List.range nProcs).map (bodyPiece post)))

/-- Sylinder.hpp:395-397: name of the file of one rank. -/
def bodyFile (pre post : Str) (rank : ℕ) : Str :=
  pre ++ "Sylinder_".toList ++ "r".toList ++ dec rank ++ "_".toList ++ post ++ ".vtp".toList

/-- Sylinder.hpp:339-340: first end of a body. -/
noncomputable def end0 (s : Sylinder) : V3 := s.pos - (s.length * (1 / 2)) • s.direction

/-- Sylinder.hpp:339, 341: second end of a body. -/
noncomputable def end1 (s : Sylinder) : V3 := s.pos + (s.length * (1 / 2)) • s.direction

/-- Sylinder.hpp:342-347 -/
noncomputable def wrEnds (i : ℕ) (s : Sylinder) : List (ℕ × ℝ) :=
  [(6 * i, (end0 s).x), (6 * i + 1, (end0 s).y), (6 * i + 2, (end0 s).z),
    (6 * i + 3, (end1 s).x), (6 * i + 4, (end1 s).y), (6 * i + 5, (end1 s).z)]

/-- Sylinder.hpp:348-349 -/
def wrLabel {β : Type} (i : ℕ) (_ : β) : List (ℕ × ℕ) := [(2 * i, 0), (2 * i + 1, 1)]

/-- Sylinder.hpp:352-353 and ConstraintCollector.cpp:137-138 -/
def wrConn {β : Type} (i : ℕ) (_ : β) : List (ℕ × ℤ) := [(2 * i, ((2 * i : ℕ) : ℤ)), (2 * i + 1, ((2 * i + 1 : ℕ) : ℤ))]

/-- Sylinder.hpp:354 and ConstraintCollector.cpp:139 -/
def wrOffset {β : Type} (i : ℕ) (_ : β) : List (ℕ × ℤ) := [(i, ((2 * i + 2 : ℕ) : ℤ))]

/-- Sylinder.hpp:282-453 `writeVTP` of one rank.  `r32` is the conversion to `float` (a number outside of the range of
`float` is undefined behaviour in C++ and not modelled).  `none`: a product overflows an `int` (289) or a write falls
outside of a vector. -/
noncomputable def bodyVTP (r32 : ℝ → ℝ) (sched : Sched) (sylinder : List Sylinder) : Option Piece := do
  let n := sylinder.length
  if maxInt < 6 * n then none else do
  let items := sylinder.zipIdx.map Prod.swap
  let pos ← fill sched "pos" (6 * n) 0 items wrEnds
  let label ← fill sched "label" (2 * n) 0 items wrLabel
  let connectivity ← fill sched "connectivity" (2 * n) 0 items wrConn
  let offset ← fill sched "offset" n 0 items wrOffset
  let gid ← fill sched "gid" n 0 items (wr1 fun s : Sylinder => s.gid)
  let group ← fill sched "group" n 0 items (wr1 fun s : Sylinder => s.group)
  let isImmovable ← fill sched "isImmovable" n 0 items (wr1 fun s : Sylinder => if s.isImmovable then 1 else 0)
  let radius ← fill sched "radius" n 0 items (wr1 fun s : Sylinder => r32 s.radius)
  let radiusCollision ← fill sched "radiusCollision" n 0 items (wr1 fun s : Sylinder => r32 s.radiusCollision)
  let length ← fill sched "length" n 0 items (wr1 fun s : Sylinder => r32 s.length)
  let lengthCollision ← fill sched "lengthCollision" n 0 items (wr1 fun s : Sylinder => r32 s.lengthCollision)
  let vel ← fill sched "vel" (3 * n) 0 items (wr3 r32 fun s : Sylinder => s.vel)
  let omega ← fill sched "omega" (3 * n) 0 items (wr3 r32 fun s : Sylinder => s.omega)
  let velCol ← fill sched "velCol" (3 * n) 0 items (wr3 r32 fun s : Sylinder => s.velCol)
  let omegaCol ← fill sched "omegaCol" (3 * n) 0 items (wr3 r32 fun s : Sylinder => s.omegaCol)
  let velBi ← fill sched "velBi" (3 * n) 0 items (wr3 r32 fun s : Sylinder => s.velBi)
  let omegaBi ← fill sched "omegaBi" (3 * n) 0 items (wr3 r32 fun s : Sylinder => s.omegaBi)
  let velNonB ← fill sched "velNonB" (3 * n) 0 items (wr3 r32 fun s : Sylinder => s.velNonB)
  let omegaNonB ← fill sched "omegaNonB" (3 * n) 0 items (wr3 r32 fun s : Sylinder => s.omegaNonB)
  let force ← fill sched "force" (3 * n) 0 items (wr3 r32 fun s : Sylinder => s.force)
  let torque ← fill sched "torque" (3 * n) 0 items (wr3 r32 fun s : Sylinder => s.torque)
  let forceCol ← fill sched "forceCol" (3 * n) 0 items (wr3 r32 fun s : Sylinder => s.forceCol)
  let torqueCol ← fill sched "torqueCol" (3 * n) 0 items (wr3 r32 fun s : Sylinder => s.torqueCol)
  let forceBi ← fill sched "forceBi" (3 * n) 0 items (wr3 r32 fun s : Sylinder => s.forceBi)
  let torqueBi ← fill sched "torqueBi" (3 * n) 0 items (wr3 r32 fun s : Sylinder => s.torqueBi)
  let forceNonB ← fill sched "forceNonB" (3 * n) 0 items (wr3 r32 fun s : Sylinder => s.forceNonB)
  let torqueNonB ← fill sched "torqueNonB" (3 * n) 0 items (wr3 r32 fun s : Sylinder => s.torqueNonB)
  let velBrown ← fill sched "velBrown" (3 * n) 0 items (wr3 r32 fun s : Sylinder => s.velBrown)
  let omegaBrown ← fill sched "omegaBrown" (3 * n) 0 items (wr3 r32 fun s : Sylinder => s.omegaBrown)
  let xnorm ← fill sched "xnorm" (3 * n) 0 items (wr3 r32 fun s : Sylinder => s.orientation.rot ⟨1, 0, 0⟩)
  let znorm ← fill sched "znorm" (3 * n) 0 items (wr3 r32 fun s : Sylinder => s.orientation.rot ⟨0, 0, 1⟩)
  some {
    numberOfPoints := n * 2
    numberOfLines := n
    points := [writeDataArray (.f64 pos) "position" 3]
    lines := [writeDataArray (.i32 connectivity) "connectivity" 1, writeDataArray (.i32 offset) "offsets" 1]
    pointData := [writeDataArray (.u8 label) "endLabel" 1]
    cellData := [
      writeDataArray (.i32 gid) "gid" 1,
      writeDataArray (.i32 group) "group" 1,
      writeDataArray (.u8 isImmovable) "isImmovable" 1,
      writeDataArray (.f32 radius) "radius" 1,
      writeDataArray (.f32 radiusCollision) "radiusCollision" 1,
      writeDataArray (.f32 length) "length" 1,
      writeDataArray (.f32 lengthCollision) "lengthCollision" 1,
      writeDataArray (.f32 vel) "vel" 3,
      writeDataArray (.f32 omega) "omega" 3,
      writeDataArray (.f32 velCol) "velCollision" 3,
      writeDataArray (.f32 omegaCol) "omegaCollision" 3,
      writeDataArray (.f32 velBi) "velBilateral" 3,
      writeDataArray (.f32 omegaBi) "omegaBilateral" 3,
      writeDataArray (.f32 velNonB) "velNonBrown" 3,
      writeDataArray (.f32 omegaNonB) "omegaNonBrown" 3,
      writeDataArray (.f32 force) "force" 3,
      writeDataArray (.f32 torque) "torque" 3,
      writeDataArray (.f32 forceCol) "forceCollision" 3,
      writeDataArray (.f32 torqueCol) "torqueCollision" 3,
      writeDataArray (.f32 forceBi) "forceBilateral" 3,
      writeDataArray (.f32 torqueBi) "torqueBilateral" 3,
      writeDataArray (.f32 forceNonB) "forceNonBrown" 3,
      writeDataArray (.f32 torqueNonB) "torqueNonBrown" 3,
      writeDataArray (.f32 velBrown) "velBrown" 3,
      writeDataArray (.f32 omegaBrown) "omegaBrown" 3,
      writeDataArray (.f32 xnorm) "xnorm" 3,
      writeDataArray (.f32 znorm) "znorm" 3] }

/-! ### constraints -/

/-- ConstraintCollector.cpp:80-84: the point fields of the header. -/
def conPointFields : List Field :=
  [⟨1, .int32, "gid"⟩, ⟨1, .int32, "globalIndex"⟩, ⟨3, .float32, "posIJ"⟩, ⟨3, .float32, "normIJ"⟩]

/-- ConstraintCollector.cpp:86-92: the cell fields of the header. -/
def conCellFields : List Field :=
  [⟨1, .int32, "oneSide"⟩, ⟨1, .int32, "bilateral"⟩, ⟨1, .float32, "delta0"⟩, ⟨1, .float32, "gamma"⟩,
    ⟨1, .float32, "kappa"⟩, ⟨9, .float32, "Stress"⟩]

/-- ConstraintCollector.cpp:94-97: name of a piece in the header. -/
def conPiece (pre post : Str) (i : ℕ) : Str :=
  pre ++ "ConBlock_".toList ++ "r".toList ++ dec i ++ "_".toList ++ post ++ ".vtp".toList

/-- ConstraintCollector.cpp:76-101 `writePVTP`: name of the file and its content. -/
def conPVTP (folder pre post : Str) (nProcs : ℕ) : Str × Header :=
  (folder ++ "/".toList ++ pre ++ "ConBlock_".toList ++ post ++ ".pvtp".toList,
    writePVTPFile conPointFields conCellFields ((List.range nProcs).map (conPiece pre post)))

/-- ConstraintCollector.cpp:186-188: name of the file of one rank. -/
def conFile (folder pre post : Str) (rank : ℕ) : Str :=
  folder ++ "/".toList ++ pre ++ "ConBlock_".toList ++ "r".toList ++ dec rank ++ "_".toList ++ post ++ ".vtp".toList

/-- ConstraintCollector.cpp:144-149: the iterations of the loops over queues and their blocks, each with `cIndex`. -/
def conItems (pool : Pool) : List (ℕ × Block) :=
  ((buildConIndex pool).2.zip pool).flatMap fun p => p.2.zipIdx.map fun bc => (p.1 + bc.2, bc.1)

/-- ConstraintCollector.cpp:151-156, 162-173: six numbers, three per side. -/
def wrSides (r : ℝ → ℝ) (f g : Block → V3) (i : ℕ) (b : Block) : List (ℕ × ℝ) :=
  [(6 * i + 0, r (f b).x), (6 * i + 1, r (f b).y), (6 * i + 2, r (f b).z),
    (6 * i + 3, r (g b).x), (6 * i + 4, r (g b).y), (6 * i + 5, r (g b).z)]

/-- ConstraintCollector.cpp:158-161: two numbers, one per side. -/
def wrPair (f g : Block → ℤ) (i : ℕ) (b : Block) : List (ℕ × ℤ) := [(2 * i + 0, f b), (2 * i + 1, g b)]

/-- ConstraintCollector.cpp:180-182 -/
def wrStress (r32 : ℝ → ℝ) (i : ℕ) (b : Block) : List (ℕ × ℝ) :=
  (List.finRange 9).map fun kk => (9 * i + kk.val, r32 (b.stress kk))

/-- ConstraintCollector.cpp:103-224 `writeVTP` of one rank; see `bodyVTP` for `r32` and `none` (9 * cBlockNum: 132). -/
noncomputable def conVTP (r32 : ℝ → ℝ) (sched : Sched) (pool : Pool) : Option Piece := do
  let n ← (buildConIndex pool).2.getLast?
  if maxInt < 9 * n then none else do
  let lineItems := (List.range n).map fun i => (i, ())
  let connectivity ← fill sched "connectivity" (2 * n) 0 lineItems wrConn
  let offset ← fill sched "offset" n 0 lineItems wrOffset
  let items := conItems pool
  let pos ← fill sched "pos" (6 * n) 0 items (wrSides id (fun b : Block => b.labI) (fun b : Block => b.labJ))
  let gid ← fill sched "gid" (2 * n) 0 items (wrPair (fun b : Block => b.gidI) (fun b : Block => b.gidJ))
  let globalIndex ← fill sched "globalIndex" (2 * n) 0 items
    (wrPair (fun b : Block => b.globalIndexI) (fun b : Block => b.globalIndexJ))
  let posIJ ← fill sched "posIJ" (6 * n) 0 items (wrSides r32 (fun b : Block => b.posI) (fun b : Block => b.posJ))
  let normIJ ← fill sched "normIJ" (6 * n) 0 items (wrSides r32 (fun b : Block => b.normI) (fun b : Block => b.normJ))
  let oneSide ← fill sched "oneSide" n 0 items (wr1 fun b : Block => if b.oneSide then 1 else 0)
  let bilateral ← fill sched "bilateral" n 0 items (wr1 fun b : Block => if b.bilateral then 1 else 0)
  let delta0 ← fill sched "delta0" n 0 items (wr1 fun b : Block => r32 b.delta0)
  let gamma ← fill sched "gamma" n 0 items (wr1 fun b : Block => r32 b.gamma)
  let kappa ← fill sched "kappa" n 0 items (wr1 fun b : Block => r32 b.kappa)
  let stress ← fill sched "Stress" (9 * n) 0 items (wrStress r32)
  some {
    numberOfPoints := n * 2
    numberOfLines := n
    points := [writeDataArray (.f64 pos) "position" 3]
    lines := [writeDataArray (.i32 connectivity) "connectivity" 1, writeDataArray (.i32 offset) "offsets" 1]
    pointData := [
      writeDataArray (.i32 gid) "gid" 1,
      writeDataArray (.i32 globalIndex) "globalIndex" 1,
      writeDataArray (.f32 posIJ) "posIJ" 3,
      writeDataArray (.f32 normIJ) "normIJ" 3]
    cellData := [
      writeDataArray (.i32 oneSide) "oneSide" 1,
      writeDataArray (.i32 bilateral) "bilateral" 1,
      writeDataArray (.f32 delta0) "delta0" 1,
      writeDataArray (.f32 gamma) "gamma" 1,
      writeDataArray (.f32 kappa) "kappa" 1,
      writeDataArray (.f32 stress) "Stress" 9] }

/-- SylinderSystem.cpp:523-533 `writeVTK`: the headers that rank 0 of `size` ranks writes. -/
def writeVTKHeaders (baseFolder : Str) (snapID size : ℕ) : List (Str × Header) :=
  [bodyPVTP baseFolder (dec snapID) size, conPVTP baseFolder [] (dec snapID) size]

/-- SylinderSystem.cpp:523-528: names of the two pieces that a rank writes. -/
def writeVTKPieces (baseFolder : Str) (snapID rank : ℕ) : List Str :=
  [bodyFile baseFolder (dec snapID) rank, conFile baseFolder [] (dec snapID) rank]

end Verif.Vtp
