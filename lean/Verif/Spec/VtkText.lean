import Verif.Spec.Xml
import Verif.Model.Vtp
/-!
What a reader of the VTK files should find.
-/
namespace Verif.Spec.VtkText
open Text (Str dec decInt)
open Xml (Token)

/-- The declaration of an array. -/
def declared (d : Vtp.Decl) : Token :=
  .empty "PDataArray".toList [("Name".toList, d.name.toList), ("type".toList, d.type.toList), ("NumberOfComponents".toList, dec d.comps), ("format".toList, "binary".toList)]

/-- A tag around others. -/
def within (name : Str) (attrs : Xml.Attrs) (inner : List Token) : List Token := .opening name attrs :: (inner ++ [.closing name])

/-- A piece. -/
def source (p : Str) : Token := .empty "Piece".toList [("Source".toList, p)]

/-- The attributes of the outermost tag. -/
def rootAttrs (kind : Str) : Xml.Attrs :=
  [("type".toList, kind), ("version".toList, "1.0".toList), ("byte_order".toList, "LittleEndian".toList), ("header_type".toList, "UInt32".toList)]

/-- The declaration of the points. -/
def declaredPoints : Token :=
  .empty "PDataArray".toList [("NumberOfComponents".toList, "3".toList), ("type".toList, "Float64".toList), ("format".toList, "binary".toList)]

/-- A parallel header of the kind `kind` (`PPolyData` or `PUnstructuredGrid`). -/
def header (kind : Str) (sections : List Token) (pieces : List Str) : List Token :=
  within "VTKFile".toList (rootAttrs kind) (within kind [("GhostLevel".toList, "0".toList)]
    (sections ++ within "PPoints".toList [] [declaredPoints] ++ pieces.map source))

/-- The point data of a header. -/
def pointDecls (ds : List Vtp.Decl) : List Token := within "PPointData".toList [("Scalars".toList, "scalars".toList)] (ds.map declared)

/-- The cell data of a header. -/
def cellDecls (ds : List Vtp.Decl) : List Token := within "PCellData".toList [("Scalars".toList, "scalars".toList)] (ds.map declared)

/-- An array with its content. -/
def array (content : Vtp.Arr → Str) (a : Vtp.DataArray) : List Token :=
  within "DataArray".toList [("Name".toList, a.name.toList), ("type".toList, a.type.toList), ("NumberOfComponents".toList, dec a.comps), ("format".toList, "binary".toList)]
    ((content a.data).map .data)

/-- The file of a rank. -/
def piece (content : Vtp.Arr → Str) (p : Vtp.Piece) : List Token :=
  within "VTKFile".toList (rootAttrs "PolyData".toList) (within "PolyData".toList []
    (within "Piece".toList [("NumberOfPoints".toList, dec p.numberOfPoints), ("NumberOfLines".toList, dec p.numberOfLines)]
      (within "Points".toList [] (p.points.flatMap (array content)) ++ within "Lines".toList [] (p.lines.flatMap (array content)) ++
        within "PointData".toList [("Scalars".toList, "scalars".toList)] (p.pointData.flatMap (array content)) ++
        within "CellData".toList [("Scalars".toList, "scalars".toList)] (p.cellData.flatMap (array content)))))

/-- A file of the kind `kind` around other tags. -/
def frame (kind : Str) (attrs : Xml.Attrs) (inner : List Token) : List Token := within "VTKFile".toList (rootAttrs kind) (within kind attrs inner)

/-- The extent of a grid: lowest and highest index of each direction. -/
def wholeExtent (low high : Fin 3 → ℤ) : Str × Str :=
  ("WholeExtent".toList, [' '].intercalate [decInt (low 0), decInt (high 0), decInt (low 1), decInt (high 1), decInt (low 2), decInt (high 2)])

/-- Three numbers, each after a blank. -/
def numbers (x : Fin 3 → Str) : Str := ' ' :: [' '].intercalate [x 0, x 1, x 2]

end Verif.Spec.VtkText
