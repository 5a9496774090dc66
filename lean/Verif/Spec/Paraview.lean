import Verif.Model.MeshText
import Verif.Model.GeoKind

/-!
# What a VTU file with ASCII data says

`readVtu` is a reader of the (small) part of the VTK XML format for unstructured grids that is used: the elements are on lines of their own,
in the order Points, Cells (connectivity, offsets, types), PointData, CellData, and the data of an array are words separated by white space.
Integers of arrays of type `Int32` and `UInt8` have to be in the range of these types.

`vtkCell` is a table of the VTK cell types (`vtkCellType.h`) and of the parametric coordinates of their nodes, in VTK's order
(`GetParametricCoords`), multiplied by 6 so that they are integers.
-/
namespace Gemlab.Paraview
open Gemlab Gemlab.MeshText

/-- The contents of a VTU file: the coordinates (3 per point), the cells (type and points) and the markers. -/
structure Vtu (K : Type) where
  points : List (K × K × K)
  cells : List (Nat × List Nat)
  pointMarkers : List Int
  cellMarkers : List Int

/-- The pieces of a text between double quotes and other text, alternating. -/
def quoted : Text → Text → List Text
  | [], cur => [cur.reverse]
  | c :: cs, cur => if c = '"' then cur.reverse :: quoted cs [] else quoted cs (c :: cur)

/-- A list of numbers as triples. -/
def triples {K : Type} : List K → Option (List (K × K × K))
  | [] => some []
  | x :: y :: z :: r => (triples r).map ((x, y, z) :: ·)
  | _ => none

/-- An `Int32` that is not negative. -/
def parseId (w : Text) : Option Nat := (parseI32 w).bind fun n => if 0 ≤ n then some n.toNat else none

/-- A `UInt8`. -/
def parseUInt8 (w : Text) : Option Nat := (parseUsize w).bind fun n => if n < 256 then some n else none

/-- The connectivity cut at the offsets (`start`: the previous offset). The offsets must not decrease and the last one must be the number
of entries. -/
def cutAt (conn : List Nat) (start : Nat) : List Nat → Option (List (List Nat))
  | [] => if start = conn.length then some [] else none
  | o :: os => if start ≤ o ∧ o ≤ conn.length then (cutAt conn o os).map (((conn.drop start).take (o - start)) :: ·) else none

/-- The next line is this one; the lines after it. -/
def tag (s : String) : List Text → Option (List Text)
  | [] => none
  | l :: ls => if l = s.toList then some ls else none

/-- The words of the next line, and the lines after it. -/
def dataLine : List Text → Option (List Text × List Text)
  | [] => none
  | l :: ls => some (words l, ls)

/-- The numbers of points and cells in the tag `Piece`. -/
def pieceLine : List Text → Option ((Nat × Nat) × List Text)
  | [] => none
  | l :: ls =>
    match quoted l [] with
    | [a, np, b, nc, c] =>
      if a = "<Piece NumberOfPoints=".toList ∧ b = " NumberOfCells=".toList ∧ c = ">".toList then do
        let npoint ← parseUsize np
        let ncell ← parseUsize nc
        some ((npoint, ncell), ls)
      else none
    | _ => none

/-- Reader of a VTU file. -/
def readVtu {K : Type} (parseFloat : Text → Option K) (t : Text) : Option (Vtu K) := do
  let ls ← tag "<?xml version=\"1.0\"?>" (lines t)
  let ls ← tag "<VTKFile type=\"UnstructuredGrid\" version=\"0.1\" byte_order=\"LittleEndian\">" ls
  let ls ← tag "<UnstructuredGrid>" ls
  let ((npoint, ncell), ls) ← pieceLine ls
  -- points
  let ls ← tag "<Points>" ls
  let ls ← tag "<DataArray type=\"Float64\" NumberOfComponents=\"3\" format=\"ascii\">" ls
  let (coords, ls) ← dataLine ls
  let ls ← tag "</DataArray>" ls
  let ls ← tag "</Points>" ls
  -- cells
  let ls ← tag "<Cells>" ls
  let ls ← tag "<DataArray type=\"Int32\" Name=\"connectivity\" format=\"ascii\">" ls
  let (conn, ls) ← dataLine ls
  let ls ← tag "</DataArray>" ls
  let ls ← tag "<DataArray type=\"Int32\" Name=\"offsets\" format=\"ascii\">" ls
  let (offs, ls) ← dataLine ls
  let ls ← tag "</DataArray>" ls
  let ls ← tag "<DataArray type=\"UInt8\" Name=\"types\" format=\"ascii\">" ls
  let (types, ls) ← dataLine ls
  let ls ← tag "</DataArray>" ls
  let ls ← tag "</Cells>" ls
  -- data
  let ls ← tag "<PointData Scalars=\"TheScalars\">" ls
  let ls ← tag "<DataArray type=\"Int32\" Name=\"marker\" NumberOfComponents=\"1\" format=\"ascii\">" ls
  let (pmarkers, ls) ← dataLine ls
  let ls ← tag "</DataArray>" ls
  let ls ← tag "</PointData>" ls
  let ls ← tag "<CellData Scalars=\"TheScalars\">" ls
  let ls ← tag "<DataArray type=\"Int32\" Name=\"marker\" NumberOfComponents=\"1\" format=\"ascii\">" ls
  let (cmarkers, ls) ← dataLine ls
  let ls ← tag "</DataArray>" ls
  let ls ← tag "</CellData>" ls
  -- end
  let ls ← tag "</Piece>" ls
  let ls ← tag "</UnstructuredGrid>" ls
  let ls ← tag "</VTKFile>" ls
  -- values
  let xs ← coords.mapM parseFloat
  let pts ← triples xs
  let cn ← conn.mapM parseId
  let os ← offs.mapM parseId
  let cs ← cutAt cn 0 os
  let ty ← types.mapM parseUInt8
  let pm ← pmarkers.mapM parseI32
  let cm ← cmarkers.mapM parseI32
  if ls = [] ∧ pts.length = npoint ∧ pm.length = npoint ∧ cs.length = ncell ∧ ty.length = ncell ∧ cm.length = ncell then
    some { points := pts, cells := ty.zip cs, pointMarkers := pm, cellMarkers := cm }
  else none

/-- VTK cell types: code, name, and six times the parametric coordinates of the nodes in VTK's order (`vtkCellType.h` and the
`GetParametricCoords` of the cells). -/
def vtkCells : List (Nat × String × List (List ℤ)) := [
  (3, "VTK_LINE", [[0], [6]]),
  (5, "VTK_TRIANGLE", [[0, 0], [6, 0], [0, 6]]),
  (9, "VTK_QUAD", [[0, 0], [6, 0], [6, 6], [0, 6]]),
  (10, "VTK_TETRA", [[0, 0, 0], [6, 0, 0], [0, 6, 0], [0, 0, 6]]),
  (12, "VTK_HEXAHEDRON", [[0, 0, 0], [6, 0, 0], [6, 6, 0], [0, 6, 0], [0, 0, 6], [6, 0, 6], [6, 6, 6], [0, 6, 6]]),
  (21, "VTK_QUADRATIC_EDGE", [[0], [6], [3]]),
  (22, "VTK_QUADRATIC_TRIANGLE", [[0, 0], [6, 0], [0, 6], [3, 0], [3, 3], [0, 3]]),
  (23, "VTK_QUADRATIC_QUAD", [[0, 0], [6, 0], [6, 6], [0, 6], [3, 0], [6, 3], [3, 6], [0, 3]]),
  (24, "VTK_QUADRATIC_TETRA",
    [[0, 0, 0], [6, 0, 0], [0, 6, 0], [0, 0, 6], [3, 0, 0], [3, 3, 0], [0, 3, 0], [0, 0, 3], [3, 0, 3], [0, 3, 3]]),
  (25, "VTK_QUADRATIC_HEXAHEDRON",
    [[0, 0, 0], [6, 0, 0], [6, 6, 0], [0, 6, 0], [0, 0, 6], [6, 0, 6], [6, 6, 6], [0, 6, 6],
     [3, 0, 0], [6, 3, 0], [3, 6, 0], [0, 3, 0], [3, 0, 6], [6, 3, 6], [3, 6, 6], [0, 3, 6],
     [0, 0, 3], [6, 0, 3], [6, 6, 3], [0, 6, 3]]),
  (28, "VTK_BIQUADRATIC_QUAD", [[0, 0], [6, 0], [6, 6], [0, 6], [3, 0], [6, 3], [3, 6], [0, 3], [3, 3]]),
  (35, "VTK_CUBIC_LINE", [[0], [6], [2], [4]])]

/-- The kinds of cells that have a VTK cell type in the table, and the name of this type. -/
def vtkName : List (GeoKind × String) := [
  (.lin2, "VTK_LINE"), (.lin3, "VTK_QUADRATIC_EDGE"), (.lin4, "VTK_CUBIC_LINE"),
  (.tri3, "VTK_TRIANGLE"), (.tri6, "VTK_QUADRATIC_TRIANGLE"),
  (.qua4, "VTK_QUAD"), (.qua8, "VTK_QUADRATIC_QUAD"), (.qua9, "VTK_BIQUADRATIC_QUAD"),
  (.tet4, "VTK_TETRA"), (.tet10, "VTK_QUADRATIC_TETRA"), (.hex8, "VTK_HEXAHEDRON"), (.hex20, "VTK_QUADRATIC_HEXAHEDRON")]

end Gemlab.Paraview
