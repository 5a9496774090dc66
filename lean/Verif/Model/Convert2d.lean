import Verif.Model.Features
import Verif.Model.Scratchpad

/-!
# Model of `/repo/src/mesh/convert_2d.rs`

Real numbers instead of `f64`. The iteration orders used by `Features::new` are the parameter `o`. `usize::MAX`, the value marking a
node that has no point yet, is `usizeMax`.
-/
namespace Gemlab.Mesh
noncomputable section
open Gemlab.Shapes

/-- The variables modified by the main loop: `dest.points`, `dest.cells`, `corners`, `edge_point_markers` and `pad`
— convert_2d.rs:73, 102-118. -/
structure ConvState where
  points : List (Point ℝ)
  cells : List Cell
  corners : HMap Nat Nat
  markers : List Int
  pad : Scratchpad

/-- Reading `dest.cells[c].points[m]`. -/
def getNode (cells : List Cell) (c m : Nat) : Res Nat := do
  let cell ← Res.idx cells c
  Res.idx cell.points m

/-- `dest.cells[c].points[m] = p`. -/
def setNode (cells : List Cell) (c m p : Nat) : Res (List Cell) := do
  let cell ← Res.idx cells c
  if m < cell.points.length then pure (cells.set c { cell with points := cell.points.set m p }) else .panic

/-- `target_node_to_edge` — convert_2d.rs:75-83. (`edge_node_id` and the store are in range, see `edgeNode_lt`.) -/
def nodeToEdge (target : GeoKind) : List Nat :=
  (List.range target.nedge).foldl (fun l e => (List.range' 2 (target.edgeNnode - 2)).foldl (fun l i => l.set (edgeNode target e i) e) l)
    (List.replicate target.nnode usizeMax)

/-- Coordinates of the cell, stored in the pad — convert_2d.rs:127-133. -/
def fillPad (m : Mesh ℝ) (source : GeoKind) (cell : Cell) (pad : Scratchpad) : Res Scratchpad :=
  (List.range source.nnode).foldlM (fun pad n => (List.range m.ndim).foldlM (fun pad j => do
    let id ← Res.idx cell.points n
    let p ← Res.idx m.points id
    let v ← Res.idx p.coords j
    Scratchpad.setXx pad n j v) pad) pad

/-- Markers of the points on edges — convert_2d.rs:135-144. -/
def edgePointMarkers (m : Mesh ℝ) (source : GeoKind) (nedge : Nat) (cell : Cell) (markers : List Int) : Res (List Int) :=
  if source.edgeNnode > 2 then
    (List.range nedge).foldlM (fun ms e => (List.range' 2 (source.edgeNnode - 2)).foldlM (fun (ms : List Int) i => do
      let id ← Res.idx cell.points (edgeNode source e i)
      let p ← Res.idx m.points id
      if e < ms.length then pure (ms.set e p.marker) else .panic) ms) markers
  else pure markers

/-- A corner node — convert_2d.rs:152-165. -/
def cornerStep (m : Mesh ℝ) (cell : Cell) (c : Nat) (s : ConvState) (n : Nat) : Res ConvState := do
  let old ← Res.idx cell.points n
  match s.corners.get old with
  | some new => do
    let cells ← setNode s.cells c n new
    pure { s with cells := cells }
  | none => do
    let p ← Res.idx m.points old
    let cells ← setNode s.cells c n s.points.length
    pure { s with points := s.points ++ [{ id := s.points.length, marker := p.marker, coords := p.coords }],
                  cells := cells, corners := s.corners.insert old s.points.length }

/-- A pair of edges shared with another cell — convert_2d.rs:172-181. (`edge_node_id` panics if the edge does not exist, which happens
if the neighbour is of another class.) -/
def neighborStep (target : GeoKind) (c : Nat) (cells : List Cell) (nb : Nat × Nat × Nat) : Res (List Cell) :=
  (List.range' 2 (target.edgeNnode - 2)).foldlM (fun cells i => do
    let n ← if nb.2.2 < target.nedge then pure (edgeNode target nb.2.2 i) else .panic
    let p ← getNode cells nb.2.1 n
    if p ≠ usizeMax then setNode cells c (edgeNodeInward target nb.1 i) p else pure cells) cells

/-- Marker of a new point — convert_2d.rs:188-193. -/
def newMarker (target : GeoKind) (markers : List Int) (n : Nat) : Res Int := do
  let e ← Res.idx (nodeToEdge target) n
  if e = usizeMax then pure 0 else Res.idx markers e

/-- A node other than the corners — convert_2d.rs:186-203. -/
def newStep (m : Mesh ℝ) (target : GeoKind) (c : Nat) (s : ConvState) (n : Nat) : Res ConvState := do
  let q ← getNode s.cells c n
  if q = usizeMax then do
    let marker ← newMarker target s.markers n
    let r ← unwrapRes (s.pad.calcCoords m.ndim fun i => refCoord target n i)
    let cells ← setNode s.cells c n s.points.length
    pure { s with points := s.points ++ [{ id := s.points.length, marker := marker, coords := (List.range m.ndim).map r.1 }],
                  cells := cells, pad := r.2 }
  else pure s

/-- Body of the main loop — convert_2d.rs:122-204. -/
def convStep (F : Features) (m : Mesh ℝ) (source target : GeoKind) (ncorner : Nat) (s : ConvState) (c : Nat) : Res ConvState := do
  let cell ← Res.idx m.cells c
  if cell.kind ≠ source then .err "all cells must have the same GeoKind"
  else do
    let pad ← fillPad m source cell s.pad
    let markers ← edgePointMarkers m source target.nedge cell s.markers
    let dcell ← Res.idx s.cells c
    let s := { s with cells := s.cells.set c { dcell with id := c, marker := cell.marker }, markers := markers, pad := pad }
    let s ← (List.range ncorner).foldlM (cornerStep m cell c) s
    let cells ← if target.edgeNnode > 2 then do
        let nbs ← getNeighbors2d F.mesh F.all2dEdges c
        nbs.foldlM (neighborStep target c) s.cells
      else pure s.cells
    (List.range' ncorner (target.nnode - ncorner)).foldlM (newStep m target c) { s with cells := cells }

/-- `Mesh::convert_2d` — convert_2d.rs:18-207. -/
def convert2d (o : Orders) (m : Mesh ℝ) (target : GeoKind) : Res (Mesh ℝ) :=
  if m.ndim ≠ 2 then .err "ndim must be equal to 2"
  else if m.cells.length < 1 then .err "the conversion requires at least one cell"
  else do
    let cell0 ← Res.idx m.cells 0
    if target.classOf ≠ cell0.kind.classOf then .err "target class must equal the GeoClass of current cells"
    else if target.classOf ≠ .tri ∧ target.classOf ≠ .qua then .err "target GeoClass must be Tri or Qua"
    else do
      let F ← Features.new o m true
      if m.cells.length * target.nnode < usizeMax then do
        let pad ← unwrapRes (Scratchpad.new m.ndim cell0.kind)
        let s ← (List.range m.cells.length).foldlM (convStep F m cell0.kind target (if cell0.kind.classOf = .tri then 3 else 4))
          { points := [], corners := [], markers := List.replicate target.nedge 0, pad := pad,
            cells := List.replicate m.cells.length { id := 0, marker := 0, kind := target, points := List.replicate target.nnode usizeMax } }
        pure { ndim := m.ndim, points := s.points, cells := s.cells, markedEdges := [], markedFaces := [] }
      else .panic

end
end Gemlab.Mesh
