import Verif.Model.MeshText

/-!
# Model of `/repo/src/mesh/paraview.rs`: `Mesh::write_vtu`

The value is the content of the file. Creation of the directory and of the file, writing and synchronisation (paraview.rs:153-164) are not
modelled: they do not change the text.
-/
namespace Gemlab.Paraview
open Gemlab Gemlab.Mesh Gemlab.MeshText

variable {K : Type}

/-- One coordinate and a space — paraview.rs:49 (the index is checked). -/
def coordStep (ft : FloatText K) (coords : List K) (buf : Text) (dim : Nat) : Res Text := do
  let x ← Res.idx coords dim
  .ok (buf ++ ft.fmt x ++ " ".toList)

/-- The coordinates of one point — paraview.rs:48-53. -/
def pointStep (ft : FloatText K) (m : Mesh K) (buf : Text) (index : Nat) : Res Text := do
  let p ← Res.idx m.points index
  let buf ← (List.range m.ndim).foldlM (coordStep ft p.coords) buf
  if m.ndim = 2 then .ok (buf ++ "0.0 ".toList) else .ok buf

/-- The connectivity of one cell — paraview.rs:70-75. -/
def connStep (buf : Text) (c : Cell) : Res Text :=
  if c.kind.vtkType = none then .err "cannot generate VTU file because VTK cell type is not available"
  else .ok (c.points.foldl (fun buf p => buf ++ showNat p ++ " ".toList) buf)

/-- The offset after one cell — paraview.rs:87-88. -/
def offsetStep (st : Text × Nat) (c : Cell) : Text × Nat :=
  let offset := st.2 + c.points.length
  (st.1 ++ showNat offset ++ " ".toList, offset)

/-- The type of one cell — paraview.rs:99-101. -/
def typeStep (buf : Text) (c : Cell) : Text :=
  match c.kind.vtkType with
  | some vtk => buf ++ showNat vtk ++ " ".toList
  | none => buf

/-- The marker of one point — paraview.rs:118. -/
def pointMarkerStep (m : Mesh K) (buf : Text) (i : Nat) : Res Text := do
  let p ← Res.idx m.points i
  .ok (buf ++ showInt p.marker ++ " ".toList)

/-- The marker of one cell — paraview.rs:135. -/
def cellMarkerStep (buf : Text) (c : Cell) : Text := buf ++ showInt c.marker ++ " ".toList

/-- `Mesh::write_vtu` — paraview.rs:15-151. -/
def writeVtu (ft : FloatText K) (m : Mesh K) : Res Text := do
  let npoint := m.points.length
  let ncell := m.cells.length
  if ncell < 1 then .err "there are no cells to write"
  else do
    let buf : Text := []
    let buf := buf ++ "<?xml version=\"1.0\"?>\n".toList
      ++ "<VTKFile type=\"UnstructuredGrid\" version=\"0.1\" byte_order=\"LittleEndian\">\n".toList
      ++ "<UnstructuredGrid>\n".toList
      ++ "<Piece NumberOfPoints=\"".toList ++ showNat npoint ++ "\" NumberOfCells=\"".toList ++ showNat ncell ++ "\">\n".toList
    let buf := buf ++ "<Points>\n".toList ++ "<DataArray type=\"Float64\" NumberOfComponents=\"3\" format=\"ascii\">\n".toList
    let buf ← (List.range npoint).foldlM (pointStep ft m) buf
    let buf := buf ++ "\n</DataArray>\n".toList ++ "</Points>\n".toList
    let buf := buf ++ "<Cells>\n".toList ++ "<DataArray type=\"Int32\" Name=\"connectivity\" format=\"ascii\">\n".toList
    let buf ← m.cells.foldlM connStep buf
    let buf := buf ++ "\n</DataArray>\n".toList ++ "<DataArray type=\"Int32\" Name=\"offsets\" format=\"ascii\">\n".toList
    let (buf, _) := m.cells.foldl offsetStep (buf, 0)
    let buf := buf ++ "\n</DataArray>\n".toList ++ "<DataArray type=\"UInt8\" Name=\"types\" format=\"ascii\">\n".toList
    let buf := m.cells.foldl typeStep buf
    let buf := buf ++ "\n</DataArray>\n".toList ++ "</Cells>\n".toList
    let buf := buf ++ "<PointData Scalars=\"TheScalars\">\n".toList
      ++ "<DataArray type=\"Int32\" Name=\"marker\" NumberOfComponents=\"1\" format=\"ascii\">\n".toList
    let buf ← (List.range npoint).foldlM (pointMarkerStep m) buf
    let buf := buf ++ "\n</DataArray>\n".toList ++ "</PointData>\n".toList
    let buf := buf ++ "<CellData Scalars=\"TheScalars\">\n".toList
      ++ "<DataArray type=\"Int32\" Name=\"marker\" NumberOfComponents=\"1\" format=\"ascii\">\n".toList
    let buf := m.cells.foldl cellMarkerStep buf
    let buf := buf ++ "\n</DataArray>\n".toList ++ "</CellData>\n".toList
    .ok (buf ++ "</Piece>\n".toList ++ "</UnstructuredGrid>\n".toList ++ "</VTKFile>\n".toList)

end Gemlab.Paraview
