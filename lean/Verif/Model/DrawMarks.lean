import Verif.Model.Draw
import Verif.Model.TriSurface
import Verif.Model.FeaturesQueries
import Mathlib.Analysis.SpecialFunctions.Trigonometric.Arctan

/-!
# Model of `mesh/draw.rs`: what is drawn on top of the cells

`plotpy` is another package: the calls received by its objects are modelled by lists of marks; colors, fonts, sizes, cameras and the files are not modelled.
The marks of different kinds go to different canvases; here they are in one list, in the order of the calls. Numbers are exact reals.
-/
namespace Gemlab.Draw
open Gemlab.Mesh Gemlab.Shapes
noncomputable section

/-- The calls received: `points_add`, `points_3d_add`, `Text::draw`, `Text::draw_3d` (with the rotation set before, if any), `draw_arrow`, and lines with two
points (`draw_polyline`, `polyline_3d_begin … end`). -/
inductive Mark
  | dot (x : List ℝ)
  | text (x : List ℝ) (angle : Option ℝ) (msg : String)
  | arrow (a b : List ℝ)
  | segment (a b : List ℝ)

/-- `coords[0], coords[1]` (and `coords[2]` if the mesh is not plane) of a point — draw.rs:691, 698, 718, 728. -/
def pointXyz (m : Mesh ℝ) (p : Point ℝ) : Res (List ℝ) := do
  let x ← Res.idx p.coords 0
  let y ← Res.idx p.coords 1
  if m.ndim = 2 then pure [x, y] else do
    let z ← Res.idx p.coords 2
    pure [x, y, z]

/-- `Draw::point_dots` — draw.rs:687-705. -/
def pointDots (m : Mesh ℝ) : Res (List Mark) := m.points.mapM fun p => do
  let x ← pointXyz m p
  pure (.dot x)

/-- The text for a point — draw.rs:711-715, 721-725. -/
def pointText (showMarker : Bool) (p : Point ℝ) : String :=
  if p.marker ≠ 0 && showMarker then s!"{p.id}({p.marker})" else s!"{p.id}"

/-- `Draw::point_ids` — draw.rs:708-732. -/
def pointIds (m : Mesh ℝ) (showMarker : Bool) : Res (List Mark) := m.points.mapM fun p => do
  let x ← pointXyz m p
  pure (.text x none (pointText showMarker p))

/-- `mesh.points[cell.points[n]].coords[i]` — draw.rs:782, 786, 791. -/
def nodeCoord (m : Mesh ℝ) (cell : Cell) (n i : Nat) : Res ℝ := do
  let id ← Res.idx cell.points n
  let p ← Res.idx m.points id
  Res.idx p.coords i

/-- Component `i` of the position of the label of a cell — draw.rs:779-797 (the loops over `i` are the outer ones here). -/
def labelCoord (m : Mesh ℝ) (cell : Cell) (i : Nat) : Res ℝ :=
  if cell.kind = .qua9 ∨ cell.kind = .qua17 then do
    let a ← nodeCoord m cell 0 i
    let b ← nodeCoord m cell 2 i
    pure ((3 * a + b) / 4)
  else if cell.kind = .tri10 then do
    let a ← nodeCoord m cell 0 i
    let b ← nodeCoord m cell 9 i
    pure ((a + b) / 2)
  else do
    let s ← (List.range cell.points.length).foldlM (fun acc n => do
      let v ← nodeCoord m cell n i
      pure (acc + v)) 0
    pure (s / cell.points.length)

/-- The text for a cell — draw.rs:800-804. -/
def cellText (showMarker : Bool) (cell : Cell) : String := if showMarker then s!"{cell.id}({cell.marker})" else s!"{cell.id}"

/-- The label of a cell — draw.rs:776-809. (The components used are `x[0]`, `x[1]`, and, if the mesh is not plane, `x[2]`; `x` has as many components as the
space has dimensions.) -/
def cellLabel (m : Mesh ℝ) (showMarker : Bool) (cell : Cell) : Res Mark := do
  let x ← (List.range m.ndim).mapM (labelCoord m cell)
  let a ← Res.idx x 0
  let b ← Res.idx x 1
  if m.ndim = 2 then pure (.text [a, b] none (cellText showMarker cell)) else do
    let c ← Res.idx x 2
    pure (.text [a, b, c] none (cellText showMarker cell))

/-- `Draw::cell_ids` — draw.rs:771-814. -/
def cellIds (m : Mesh ℝ) (showMarker : Bool) : Res (List Mark) := m.cells.mapM (cellLabel m showMarker)

/-- The length of the diagonal of the bounding box — draw.rs:824-828, 877-881, 916-920. -/
def diagonal (F : Features) : Res ℝ := do
  let s ← (List.range F.mesh.ndim).foldlM (fun acc i => do
    let hi ← Res.idx F.max i
    let lo ← Res.idx F.min i
    pure (acc + |hi - lo| * |hi - lo|)) 0
  pure (Real.sqrt s)

/-- Position and normal vector at `ksi` of an edge, face or shell — draw.rs:834-837, 886-894, 930-933, 946-954, 966-974. -/
def normalAt (m : Mesh ℝ) (kind : GeoKind) (points : List Nat) (ksi : Nat → ℝ) : Res ((Nat → ℝ) × (Nat → ℝ)) := do
  let pad ← Scratchpad.new m.ndim kind
  let pad ← setPad m pad points
  let (_, un, pad) ← pad.calcNormalVector m.ndim ksi
  let (x, _) ← pad.calcCoords m.ndim ksi
  pure (x, un)

/-- The point `x + s·un` with `d` components. -/
def ahead (d : Nat) (x un : Nat → ℝ) (s : ℝ) : List ℝ := (List.range d).map fun i => x i + s * un i

/-- The angle of the text at an edge — draw.rs:838-844. -/
def markerAngle (tol : ℝ) (un : Nat → ℝ) : ℝ :=
  if |un 1| < tol then 0 else if |un 0| < tol then 90 else Real.arctan (un 1 / un 0) * 180 / Real.pi

/-- The marks of one marked edge — draw.rs:830-862. -/
def edgeMark (F : Features) (s tol : ℝ) (e : Int × Nat × Nat) : Res (List Mark) :=
  if F.mesh.ndim = 2 then
    match F.edges.get (sort2 e.2.1 e.2.2) with
    | some edge => do
      let (x, un) ← normalAt F.mesh edge.kind edge.points fun _ => 0
      pure [.text (ahead 2 x un (1 / 2 * s)) (some (markerAngle tol un)) s!"{e.1}", .segment (ahead 2 x un 0) (ahead 2 x un s)]
    | none => pure []
  else do
    let p ← Res.idx F.mesh.points e.2.1
    let q ← Res.idx F.mesh.points e.2.2
    let x ← (List.range F.mesh.ndim).mapM fun i => do
      let a ← Res.idx p.coords i
      let b ← Res.idx q.coords i
      pure (1 / 2 * (a + b))
    let a ← Res.idx x 0
    let b ← Res.idx x 1
    let c ← Res.idx x 2
    pure [.text [a, b, c] none s!"{e.1}"]

/-- `Draw::edge_markers` — draw.rs:818-866; `mult` is `m_normal_vector_marker`, `tol` is `tol_edge_marker`. -/
def edgeMarkers (F : Features) (mult tol : ℝ) : Res (List Mark) := do
  let d ← diagonal F
  let l ← F.mesh.markedEdges.mapM (edgeMark F (d * mult) tol)
  pure l.flatten

/-- The reference point used for faces and shells — draw.rs:873-874, 888-894: the center. -/
def middleKsi (kind : GeoKind) : Nat → ℝ := if kind.classOf = .tri then fun _ => 1 / 3 else fun _ => 0

/-- The marks of one marked face — draw.rs:883-907. -/
def faceMark (F : Features) (s : ℝ) (e : Int × Nat × Nat × Nat × Nat) : Res (List Mark) :=
  match F.faces.get (sort4 e.2.1 e.2.2.1 e.2.2.2.1 e.2.2.2.2) with
  | some face => do
    let (x, un) ← normalAt F.mesh face.kind face.points (middleKsi face.kind)
    pure [.text (ahead 3 x un (1 / 2 * s)) none s!"{e.1}", .segment (ahead 3 x un 0) (ahead 3 x un s)]
  | none => pure []

/-- `Draw::face_markers` — draw.rs:867-911. -/
def faceMarkers (F : Features) (mult : ℝ) : Res (List Mark) :=
  if F.mesh.ndim = 2 then pure [] else do
    let d ← diagonal F
    let l ← F.mesh.markedFaces.mapM (faceMark F (d * mult))
    pure l.flatten

/-- The arrow at an edge — draw.rs:925-937. -/
def edgeArrow (F : Features) (s : ℝ) (e : EdgeKey × Feature) : Res (List Mark) := do
  let cells ← unwrap (F.all2dEdges.get e.1)
  if cells.length = 1 then do
    let (x, un) ← normalAt F.mesh e.2.kind e.2.points fun _ => 0
    pure [.arrow (ahead 2 x un 0) (ahead 2 x un s)]
  else pure []

/-- The line at a face — draw.rs:941-960. -/
def faceLine (F : Features) (s : ℝ) (e : FaceKey × Feature) : Res (List Mark) := do
  let cells ← unwrap (F.allFaces.get e.1)
  if cells.length = 1 then do
    let (x, un) ← normalAt F.mesh e.2.kind e.2.points (middleKsi e.2.kind)
    pure [.segment (ahead 3 x un 0) (ahead 3 x un s)]
  else pure []

/-- The line at a shell — draw.rs:962-979. -/
def shellLine (F : Features) (s : ℝ) (cellId : Nat) : Res (List Mark) := do
  let cell ← Res.idx F.mesh.cells cellId
  let (x, un) ← normalAt F.mesh cell.kind cell.points (middleKsi cell.kind)
  pure [.segment (ahead 3 x un 0) (ahead 3 x un s)]

/-- `Draw::normal_vectors` — draw.rs:914-982; `mult` is `m_normal_vector`; the orders are those of the maps of edges and faces. -/
def normalVectors (iterE : List (EdgeKey × Feature) → List (EdgeKey × Feature)) (iterF : List (FaceKey × Feature) → List (FaceKey × Feature))
    (F : Features) (mult : ℝ) : Res (List Mark) := do
  let d ← diagonal F
  if F.mesh.ndim = 2 then do
    let l ← (iterE F.edges).mapM (edgeArrow F (d * mult))
    pure l.flatten
  else do
    let l ← (iterF F.faces).mapM (faceLine F (d * mult))
    let l' ← F.shells.mapM (shellLine F (d * mult))
    pure (l.flatten ++ l'.flatten)

/-- `Draw::boundary_edges_3d` — draw.rs:983-998. -/
def boundaryEdges3d (F : Features) : Res (List Mark) :=
  if F.mesh.ndim = 3 then do
    let keys ← F.getBoundaryEdges
    keys.mapM fun k => do
      let a ← xyz F.mesh k.1
      let b ← xyz F.mesh k.2
      pure (.segment [a.1, a.2.1, a.2.2] [b.1, b.2.1, b.2.2])
  else pure []

/-- `Draw::boundary_faces` — draw.rs:1001-1010: the triangles given to `draw_triangles_3d`, if any. -/
def boundaryFaces3d (iter : List (FaceKey × Feature) → List (FaceKey × Feature)) (F : Features) : Res (Option TriState) :=
  if F.mesh.ndim = 3 then do
    let tr ← F.triangulate3dBoundary iter
    pure (if tr.triangles.length > 0 then some tr else none)
  else pure none

/-- `Draw::cells` — draw.rs:733-768: the commands for all cells (those of cables go to another canvas), and the triangles of the shells, if any. -/
def cells (m : Mesh ℝ) : Res (List Cmd × Option TriState) := do
  let l ← (List.range m.cells.length).mapM (drawCell m)
  let shells := if m.ndim = 3 then m.cells.filter fun c => c.kind.classOf = .tri ∨ c.kind.classOf = .qua else []
  if shells.length > 0 then do
    let tr ← fromSurface m (shells.map fun c => (c.kind, c.points))
    pure (l.flatten, some tr)
  else pure (l.flatten, none)

/-- `Draw::config_plot_range` — draw.rs:1013-1023: the arguments of `set_range`, if it is called; `big` and `low` are `f64::MAX` and `f64::MIN`. -/
def plotRange (big low : ℝ) (m : Mesh ℝ) (mRange : ℝ) : Res (Option (ℝ × ℝ × ℝ × ℝ)) := do
  let lim ← getLimits big low m
  let x0 ← Res.idx lim.1 0
  let x1 ← Res.idx lim.2 0
  let y0 ← Res.idx lim.1 1
  let y1 ← Res.idx lim.2 1
  pure (if x1 - x0 > 0 ∧ y1 - y0 > 0 then some (x0 - mRange * (x1 - x0), x1 + mRange * (x1 - x0), y0 - mRange * (y1 - y0), y1 + mRange * (y1 - y0)) else none)

/-- The options of `Draw` that decide what is drawn — draw.rs:60-170 (the `show_…` flags, the multipliers and the ranges). -/
structure Settings where
  showCells : Bool
  showCellIds : Bool
  showCellMarker : Bool
  showPointDots : Bool
  showPointIds : Bool
  showPointMarker : Bool
  showEdgeMarkers : Bool
  showFaceMarkers : Bool
  showNormalVectors : Bool
  showBoundaryEdges3d : Bool
  showBoundaryFaces : Bool
  mRange : ℝ
  mNormalVector : ℝ
  mNormalVectorMarker : ℝ
  tolEdgeMarker : ℝ
  range2d : Option (ℝ × ℝ × ℝ × ℝ)
  range3d : Option (ℝ × ℝ × ℝ × ℝ × ℝ × ℝ)

/-- What is given to the plot, one layer after the other, and the range set in the end. -/
inductive Layer
  | cells (cmds : List Cmd) (shells : Option TriState)
  | cellIds (l : List Mark)
  | pointDots (l : List Mark)
  | pointIds (l : List Mark)
  | edgeMarkers (l : List Mark)
  | faceMarkers (l : List Mark)
  | normals (l : List Mark)
  | boundaryFaces (tr : Option TriState)
  | boundaryEdges (l : List Mark)
  | range2 (r : ℝ × ℝ × ℝ × ℝ)
  | range3 (r : ℝ × ℝ × ℝ × ℝ × ℝ × ℝ)

/-- `if flag { … }` for one layer. -/
def layerIf {α : Type} (flag : Bool) (f : Res α) (g : α → Layer) : Res (List Layer) := if flag then f >>= fun a => pure [g a] else pure []

/-- The layers that need the features — draw.rs:1096-1119. -/
def featureLayers (o : Orders) (iterE : List (EdgeKey × Feature) → List (EdgeKey × Feature)) (iterF iterB : List (FaceKey × Feature) → List (FaceKey × Feature))
    (s : Settings) (m : Mesh ℝ) : Res (List Layer) :=
  if s.showEdgeMarkers || s.showFaceMarkers || s.showNormalVectors || s.showBoundaryEdges3d || s.showBoundaryFaces then do
    let F ← Features.new o m false
    let a ← layerIf s.showEdgeMarkers (edgeMarkers F s.mNormalVectorMarker s.tolEdgeMarker) .edgeMarkers
    let b ← layerIf s.showFaceMarkers (faceMarkers F s.mNormalVectorMarker) .faceMarkers
    let c ← layerIf s.showNormalVectors (normalVectors iterE iterF F s.mNormalVector) .normals
    let d ← layerIf s.showBoundaryFaces (boundaryFaces3d iterB F) .boundaryFaces
    let e ← layerIf s.showBoundaryEdges3d (boundaryEdges3d F) .boundaryEdges
    pure (a ++ b ++ c ++ d ++ e)
  else pure []

/-- The range — draw.rs:1123-1135. -/
def rangeLayer (s : Settings) (m : Mesh ℝ) : Res (List Layer) :=
  let auto : Res (List Layer) := plotRange f64Max (-f64Max) m s.mRange >>= fun r => pure (r.elim [] fun r => [.range2 r])
  if m.ndim = 2 then s.range2d.elim auto fun r => pure [.range2 r] else s.range3d.elim auto fun r => pure [.range3 r]

/-- `Draw::all` — draw.rs:1076-1192, without the callbacks, the zoom, the axes, the camera, the glyph and the file. -/
def all (o : Orders) (iterE : List (EdgeKey × Feature) → List (EdgeKey × Feature)) (iterF iterB : List (FaceKey × Feature) → List (FaceKey × Feature))
    (s : Settings) (m : Mesh ℝ) : Res (List Layer) := do
  let a ← layerIf s.showCells (cells m) fun r => .cells r.1 r.2
  let b ← layerIf s.showCellIds (cellIds m s.showCellMarker) .cellIds
  let c ← layerIf s.showPointDots (pointDots m) .pointDots
  let d ← layerIf s.showPointIds (pointIds m s.showPointMarker) .pointIds
  let e ← featureLayers o iterE iterF iterB s m
  let r ← rangeLayer s m
  pure (a ++ b ++ c ++ d ++ e ++ r)

end
end Gemlab.Draw
