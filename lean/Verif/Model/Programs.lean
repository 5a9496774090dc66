import Verif.Model.MeshJson
import Verif.Model.Paraview
import Verif.Model.Check
import Verif.Model.DrawMarks
import Verif.Model.Unstructured

/-!
# Model of the command-line programs: `qua2msh`, `hex2msh`, `msh2tri`, `msh2tet`, `drawmsh`

`/repo/src/bin/*.rs`. A program is a function of the contents of the input file and of the options; a run consists of what is written, in the order of writing, and
of the value returned by `main`. Simplifications: the parsing of the command line (`structopt`), the names of the files, the failures of the file system and the messages
on the screen are not modelled; of the drawing, the contents are modelled (`Draw.all`) but not its size, its view, the camera and the glyph.
-/
namespace Gemlab.Programs
noncomputable section
open Gemlab Gemlab.Mesh Gemlab.Shapes Gemlab.MeshText Gemlab.Draw

/-- A file written by a program: the `.msh` file, the `.vtu` file, the drawing (`.svg`). -/
inductive Product
  | msh (t : Text)
  | vtu (t : Text)
  | svg (l : List Layer)

/-- A run of a program: the files written, in this order, and the result of `main`. -/
structure Run where
  products : List Product
  status : Res Unit

/-- `let a = f()?; …`: nothing is written by `f`. -/
def after {α : Type} (r : Res α) (k : α → Run) : Run :=
  match r with
  | .ok a => k a
  | .err e => ⟨[], .err e⟩
  | .panic => ⟨[], .panic⟩

/-- Write a file and continue. -/
def writing (p : Product) (k : Run) : Run := ⟨p :: k.products, k.status⟩

/-- The end of `main`. -/
def done : Run := ⟨[], .ok ()⟩

/-- The iteration orders of the hash maps used by `Draw::all`. -/
structure DrawOrders where
  features : Orders
  iterE : List (EdgeKey × Feature) → List (EdgeKey × Feature)
  iterF : List (FaceKey × Feature) → List (FaceKey × Feature)
  iterB : List (FaceKey × Feature) → List (FaceKey × Feature)

/-- `Draw::new` — draw.rs:281-325. -/
def newDraw : Settings where
  showCells := true
  showCellIds := false
  showCellMarker := true
  showPointDots := false
  showPointIds := false
  showPointMarker := false
  showEdgeMarkers := false
  showFaceMarkers := false
  showNormalVectors := false
  showBoundaryEdges3d := true
  showBoundaryFaces := true
  mRange := 2 / 10
  mNormalVector := 5 / 100
  mNormalVectorMarker := 1 / 10
  tolEdgeMarker := 1 / 1000
  range2d := none
  range3d := none

/-- `draw.all(&mesh, …)` with the iteration orders. -/
def drawAll (d : DrawOrders) (s : Settings) (m : Mesh ℝ) : Res (List Layer) := Draw.all d.features d.iterE d.iterF d.iterB s m

/-- The options of `qua2msh` and `hex2msh` — qua2msh.rs:14-36, hex2msh.rs:14-36. -/
structure BlockOptions where
  nnode : Nat
  svgFigure : Bool
  showPoints : Bool
  renumber : Bool

/-- The kind of the cells, and whether a VTU file is written — qua2msh.rs:52-60. -/
def quaTarget (nnode : Nat) : Res (GeoKind × Bool) :=
  if nnode = 4 then .ok (.qua4, true)
  else if nnode = 8 then .ok (.qua8, true)
  else if nnode = 9 then .ok (.qua9, true)
  else if nnode = 12 then .ok (.qua12, false)
  else if nnode = 16 then .ok (.qua16, false)
  else if nnode = 17 then .ok (.qua17, false)
  else .err "invalid number of nodes for quadrilateral cell"

/-- The kind of the cells, and whether a VTU file is written — hex2msh.rs:52-57. -/
def hexTarget (nnode : Nat) : Res (GeoKind × Bool) :=
  if nnode = 8 then .ok (.hex8, true)
  else if nnode = 20 then .ok (.hex20, true)
  else if nnode = 32 then .ok (.hex32, false)
  else .err "invalid number of nodes for hexahedral cell"

/-- The files — qua2msh.rs:63-84, hex2msh.rs:60-81. -/
def save (ft : FloatText ℝ) (d : DrawOrders) (opt : BlockOptions) (doVtu : Bool) (m : Mesh ℝ) : Run :=
  after (MeshText.write ft m) fun t => writing (.msh t) <|
    let figure : Run :=
      if opt.svgFigure then after (drawAll d { newDraw with showPointDots := opt.showPoints } m) fun l => writing (.svg l) done
      else done
    if doVtu then after (Paraview.writeVtu ft m) fun v => writing (.vtu v) figure
    else figure

/-- `qua2msh` — qua2msh.rs:38-86. -/
def qua2msh (F : MeshJson.JsonFloat ℝ) (ft : FloatText ℝ) (inv : MatInverse) (o : Structured.GenOrders) (d : DrawOrders) (opt : BlockOptions) (input : Text) : Run :=
  after (MeshJson.readBlocks2d F input) fun blocks =>
  after (quaTarget opt.nnode) fun target =>
  after (Structured.fromBlocks2d inv o blocks target.1 opt.renumber) (save ft d opt target.2)

/-- `hex2msh` — hex2msh.rs:38-83. -/
def hex2msh (F : MeshJson.JsonFloat ℝ) (ft : FloatText ℝ) (inv : MatInverse) (o : Structured.GenOrders) (d : DrawOrders) (opt : BlockOptions) (input : Text) : Run :=
  after (MeshJson.readBlocks3d F input) fun blocks =>
  after (hexTarget opt.nnode) fun target =>
  after (Structured.fromBlocks3d inv o blocks target.1 opt.renumber) (save ft d opt target.2)

/-- `msh2tri` — msh2tri.rs:30-68. -/
def msh2tri {T : Type} (ft : FloatText ℝ) (lib : Unstructured.Trigen T) (o : Orders) (keyOrder : List EdgeKey → List EdgeKey) (tri6 renumber : Bool)
    (globalMaxArea : Option ℝ) (input : Text) : Run :=
  after (MeshText.read ft input) fun pslg =>
  after (Unstructured.callTrigen lib o keyOrder pslg [] tri6 none globalMaxArea none renumber) fun m =>
  after (MeshText.write ft m) fun t => writing (.msh t) done

/-- `msh2tet` — msh2tet.rs:41-81. The option `region` is a list which may be empty (the option is not mandatory). -/
def msh2tet {T : Type} (ft : FloatText ℝ) (lib : Unstructured.Tetgen T) (o : Orders) (keyOrder : List FaceKey → List FaceKey) (region : List ℝ) (tet10 renumber : Bool)
    (globalMaxVolume : Option ℝ) (input : Text) : Run :=
  after (MeshText.read ft input) fun plc =>
  after (Res.idx region 0) fun x =>
  after (Res.idx region 1) fun y =>
  after (Res.idx region 2) fun z =>
  after (Unstructured.callTetgen lib o keyOrder plc [(1, x, y, z)] [] tet10 none globalMaxVolume none renumber) fun m =>
  after (MeshText.write ft m) fun t => writing (.msh t) done

/-- The options of `drawmsh` that are modelled — drawmsh.rs:17-113. -/
structure DrawOptions where
  skipCheck : Bool
  hideCells : Bool
  dots : Bool
  pointIds : Bool
  cellIds : Bool
  pointMarkers : Bool
  cellMarkers : Bool
  edgeMarkers : Bool
  faceMarkers : Bool
  normals : Bool
  boundaryEdges : Bool
  boundaryFaces : Bool
  mRange : Option ℝ
  mNormalVector : Option ℝ
  mNormalVectorMarker : Option ℝ
  glyphOrigin : Option (List ℝ)
  glyphSize : Option ℝ

/-- The configuration of the drawing — drawmsh.rs:142-173. -/
def DrawOptions.settings (opt : DrawOptions) : Settings :=
  { newDraw with
    showCells := !opt.hideCells
    showPointDots := opt.dots
    showPointIds := opt.pointIds
    showCellIds := opt.cellIds
    showPointMarker := opt.pointMarkers
    showCellMarker := opt.cellMarkers
    showEdgeMarkers := opt.edgeMarkers
    showFaceMarkers := opt.faceMarkers
    showNormalVectors := opt.normals
    showBoundaryEdges3d := opt.boundaryEdges
    showBoundaryFaces := opt.boundaryFaces
    mRange := opt.mRange.getD newDraw.mRange
    mNormalVector := opt.mNormalVector.getD newDraw.mNormalVector
    mNormalVectorMarker := opt.mNormalVectorMarker.getD newDraw.mNormalVectorMarker }

/-- `get_glyph_origin` — drawmsh.rs:115-121. -/
def glyphOrigin : Option (List ℝ) → Res (ℝ × ℝ × ℝ)
  | some [x, y, z] => .ok (x, y, z)
  | some _ => .err "glyph-origin expects exactly three values"
  | none => .ok (0, 0, 0)

/-- The glyph of the axes: only its origin can be rejected — drawmsh.rs:176-190. -/
def setGlyph (opt : DrawOptions) (m : Mesh ℝ) : Res Unit :=
  if m.ndim = 3 ∧ (opt.glyphOrigin.isSome ∨ opt.glyphSize.isSome) then glyphOrigin opt.glyphOrigin >>= fun _ => pure () else pure ()

/-- `drawmsh` — drawmsh.rs:123-197. -/
def drawmsh (ft : FloatText ℝ) (inv : MatInverse) (d : DrawOrders) (opt : DrawOptions) (input : Text) : Run :=
  after (MeshText.read ft input) fun m =>
  after (if opt.skipCheck then .ok () else checkAll inv m) fun _ =>
  after (setGlyph opt m) fun _ =>
  after (drawAll d opt.settings m) fun l => writing (.svg l) done

end
end Gemlab.Programs
