import Verif.Model.Vtp
import Verif.Model.Base64
/-!
The text of the VTK files (Util/IOHelper.hpp:81-331), character by character.  `Model/Vtp.lean` has what the files declare.
-/
namespace Verif.VtkText
open Text (Str dec decInt)
open Vtp (Field getTypeName)

/-- IOHelper.hpp:82, 98, 135, 182, 199, 232: the first line. -/
def xmlHead : Str := "<?xml version=\"1.0\"?>\n".toList

/-- IOHelper.hpp:105-112, 142-149, 154-161, 206-210, 238-242, 246-250: the line of a field. -/
def fieldLine (f : Field) : Str :=
  "<PDataArray Name=\"".toList ++ f.name.toList ++ "\" type=\"".toList ++ (getTypeName f.type).toList ++ "\" NumberOfComponents=\"".toList ++ dec f.dimension ++
    "\" format=\"binary\"/>\n".toList

/-- IOHelper.hpp:120-123, 168-171, 218-220, 257-259: the line of a piece. -/
def pieceLine (p : Str) : Str := "<Piece Source=\"".toList ++ p ++ "\"/>\n".toList

/-- IOHelper.hpp:116-118, 164-166, 214-216, 253-255. -/
def pointsLines : Str := "<PPoints> \n<PDataArray NumberOfComponents=\"3\" type=\"Float64\" format=\"binary\"/>\n</PPoints> \n".toList

/-- IOHelper.hpp:103-114, 141-150, 204-212, 237-243. -/
def pointSection (fields : List Field) : Str := "<PPointData Scalars=\"scalars\">\n".toList ++ fields.flatMap fieldLine ++ "</PPointData>\n".toList

/-- IOHelper.hpp:153-162, 245-251. -/
def cellSection (fields : List Field) : Str := "<PCellData Scalars=\"scalars\">\n".toList ++ fields.flatMap fieldLine ++ "</PCellData>\n".toList

/-- IOHelper.hpp:99-101, 136-138. -/
def vtuTop : Str :=
  "<VTKFile type=\"PUnstructuredGrid\" version=\"1.0\" byte_order=\"LittleEndian\" header_type=\"UInt32\"> \n<PUnstructuredGrid GhostLevel=\"0\"> \n".toList

/-- IOHelper.hpp:124-125, 172-173. -/
def vtuEnd : Str := "</PUnstructuredGrid>\n</VTKFile>\n".toList

/-- IOHelper.hpp:200-202, 233-235. -/
def vtpTop : Str := "<VTKFile type=\"PPolyData\" version=\"1.0\" byte_order=\"LittleEndian\" header_type=\"UInt32\"> \n<PPolyData GhostLevel=\"0\"> \n".toList

/-- IOHelper.hpp:221-222, 260-261. -/
def vtpEnd : Str := "</PPolyData>\n</VTKFile>\n".toList

/-- IOHelper.hpp:93-127: `writePVTUFile` with point data only. -/
def pvtuPoints (fields : List Field) (pieces : List Str) : Str := xmlHead ++ vtuTop ++ pointSection fields ++ pointsLines ++ pieces.flatMap pieceLine ++ vtuEnd

/-- IOHelper.hpp:130-175: `writePVTUFile`. -/
def pvtu (points cells : List Field) (pieces : List Str) : Str :=
  xmlHead ++ vtuTop ++ pointSection points ++ cellSection cells ++ pointsLines ++ pieces.flatMap pieceLine ++ vtuEnd

/-- IOHelper.hpp:194-224: `writePVTPFile` with point data only. -/
def pvtpPoints (fields : List Field) (pieces : List Str) : Str := xmlHead ++ vtpTop ++ pointSection fields ++ pointsLines ++ pieces.flatMap pieceLine ++ vtpEnd

/-- IOHelper.hpp:227-263: `writePVTPFile`. -/
def pvtp (points cells : List Field) (pieces : List Str) : Str :=
  xmlHead ++ vtpTop ++ pointSection points ++ cellSection cells ++ pointsLines ++ pieces.flatMap pieceLine ++ vtpEnd

/-- IOHelper.hpp:275-297: `writeDataArrayBase64`, for an array with the type name `type` and the encoded text `content`. -/
def dataArray (name type : Str) (numComp : ℕ) (content : Str) : Str :=
  "<DataArray Name=\"".toList ++ name ++ "\" type=\"".toList ++ type ++ "\" NumberOfComponents=\"".toList ++ dec numComp ++ "\" format=\"binary\">\n".toList ++
    content ++ "\n".toList ++ "</DataArray>\n".toList

/-- IOHelper.hpp:181-186: `writeHeadVTP`. -/
def headVTP : Str := xmlHead ++ "<VTKFile type=\"PolyData\" version=\"1.0\" byte_order=\"LittleEndian\"  header_type=\"UInt32\">\n<PolyData>\n".toList

/-- IOHelper.hpp:188-191: `writeTailVTP`. -/
def tailVTP : Str := "</PolyData>\n</VTKFile>\n".toList

/-- The encoded text of an array (Base64.hpp:258-268); `bytes` is how its elements are stored. -/
def encoded (bytes : Vtp.Arr → List Base64.Byte) (a : Vtp.Arr) : Str := (Base64.getBase64FromBytes (bytes a) []).map fun b => Char.ofNat b.toNat

/-- IOHelper.hpp:275-297 for an array of `Model/Vtp.lean`. -/
def arrayText (bytes : Vtp.Arr → List Base64.Byte) (a : Vtp.DataArray) : Str := dataArray a.name.toList a.type.toList a.comps (encoded bytes a.data)

/-- Sylinder.hpp:399-452 and ConstraintCollector.cpp:190-223: the file of a rank. -/
def vtp (bytes : Vtp.Arr → List Base64.Byte) (p : Vtp.Piece) : Str :=
  headVTP ++ ("<Piece NumberOfPoints=\"".toList ++ dec p.numberOfPoints ++ "\" NumberOfLines=\"".toList ++ dec p.numberOfLines ++ "\">\n".toList) ++
    ("<Points>\n".toList ++ p.points.flatMap (arrayText bytes) ++ "</Points>\n".toList) ++
    ("<Lines>\n".toList ++ p.lines.flatMap (arrayText bytes) ++ "</Lines>\n".toList) ++
    ("<PointData Scalars=\"scalars\">\n".toList ++ p.pointData.flatMap (arrayText bytes) ++ "</PointData>\n".toList) ++
    ("<CellData Scalars=\"scalars\">\n".toList ++ p.cellData.flatMap (arrayText bytes) ++ "</CellData>\n".toList) ++
    "</Piece>\n".toList ++ tailVTP

/-- IOHelper.hpp:81-86: `writeHeadVTU`. -/
def headVTU : Str :=
  xmlHead ++ "<VTKFile type=\"UnstructuredGrid\" version=\"1.0\" byte_order=\"LittleEndian\"  header_type=\"UInt32\">\n<UnstructuredGrid>\n".toList

/-- IOHelper.hpp:88-91: `writeTailVTU`. -/
def tailVTU : Str := "</UnstructuredGrid>\n</VTKFile>\n".toList

/-- IOHelper.hpp:303-304, 321-322: the numbers of an extent. -/
def extent (boxLow boxHigh : Fin 3 → ℤ) : Str :=
  decInt (boxLow 0) ++ " ".toList ++ decInt (boxHigh 0) ++ " ".toList ++ decInt (boxLow 1) ++ " ".toList ++ decInt (boxHigh 1) ++ " ".toList ++
    decInt (boxLow 2) ++ " ".toList ++ decInt (boxHigh 2)

/-- IOHelper.hpp:299-305: `writeHeadVTR`. -/
def headVTR (boxLow boxHigh : Fin 3 → ℤ) : Str :=
  xmlHead ++ "<VTKFile type=\"RectilinearGrid\" version=\"1.0\" byte_order=\"LittleEndian\"  header_type=\"UInt32\">\n".toList ++
    ("<RectilinearGrid WholeExtent=\"".toList ++ extent boxLow boxHigh ++ "\">\n".toList)

/-- IOHelper.hpp:307-310: `writeTailVTR`. -/
def tailVTR : Str := "</RectilinearGrid>\n</VTKFile>\n".toList

/-- IOHelper.hpp:323-324: three numbers after a blank; here the texts of the numbers are given. -/
def triple (x : Fin 3 → Str) : Str := " ".toList ++ x 0 ++ " ".toList ++ x 1 ++ " ".toList ++ x 2

/-- IOHelper.hpp:316-326: `writeHeadVTI`, with the texts of the doubles. -/
def headVTI (boxLow boxHigh : Fin 3 → ℤ) (spacing origin : Fin 3 → Str) : Str :=
  xmlHead ++ "<VTKFile type=\"ImageData\" version=\"1.0\" byte_order=\"LittleEndian\"  header_type=\"UInt32\">\n".toList ++
    ("<ImageData WholeExtent=\"".toList ++ extent boxLow boxHigh ++ "\" Origin=\"".toList ++ triple origin ++ "\" Spacing=\"".toList ++ triple spacing ++ "\">\n".toList)

/-- IOHelper.hpp:328-331: `writeTailVTI`. -/
def tailVTI : Str := "</ImageData>\n</VTKFile>\n".toList

end Verif.VtkText
