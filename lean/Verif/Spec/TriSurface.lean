import Verif.Model.Mesh
import Verif.Model.ShapeFns
import Verif.Spec.Features

/-!
# Specification of the triangulation of a surface

Independent of the algorithm: which vertices the triangles have, where they are, and which of them are the same.
-/
namespace Gemlab.Mesh
noncomputable section
open Gemlab.Shapes

/-- A vertex of the triangulation: a point of the mesh, or the extra node `k` of the cell at position `cell` of the surface. -/
inductive Vertex where
  | node (point : Nat)
  | extra (cell k : Nat)
  deriving DecidableEq

/-- Cells that are triangulated. -/
def isSurfaceKind (k : GeoKind) : Bool := k.classOf == .tri || k.classOf == .qua

/-- Corner `i` of triangle `t` of the cell at position `s`. -/
def vertexOf (s : Nat) (cell : GeoKind × List Nat) (t i : Nat) : Vertex :=
  let m := triangulateNode cell.1 t i
  if m < cell.1.nnode then .node (cell.2.getD m 0) else .extra s (m - cell.1.nnode)

/-- The triangles of the cell at position `s`. -/
def cellTriangles (s : Nat) (cell : GeoKind × List Nat) : List (List Vertex) :=
  if isSurfaceKind cell.1 then (List.range cell.1.triangulateNtriangle).map fun t => (List.range 3).map (vertexOf s cell t) else []

/-- All triangles, cell by cell. -/
def surfaceTriangles (surface : List (GeoKind × List Nat)) : List (List Vertex) :=
  surface.zipIdx.flatMap fun e => cellTriangles e.2 e.1

/-- Coordinate `j` of the point with reference coordinates `ξ` of a cell (isoparametric interpolation of the points of the cell). -/
def isoPosition (m : Mesh ℝ) (cell : GeoKind × List Nat) (ξ : Nat → ℝ) (j : Nat) : ℝ :=
  ∑ n ∈ Finset.range cell.1.nnode, (coordsOf m (cell.2.getD n 0)).getD j 0 * calcInterp cell.1 ξ n

/-- Coordinate `j` of a vertex. -/
def vertexPosition (m : Mesh ℝ) (surface : List (GeoKind × List Nat)) (v : Vertex) (j : Nat) : ℝ :=
  match v with
  | .node p => (coordsOf m p).getD j 0
  | .extra s k =>
    let cell := surface.getD s (.lin2, [])
    isoPosition m cell (fun i => (((cell.1.triangulateExtraCoords.getD k []).getD i 0 : ℚ) : ℝ)) j

/-- What a triangulation of the surface must be: `label` lists the vertices of the points, without repetition; every point has the
coordinates of its vertex and is used by a triangle; and the triangles are those of the cells, in order. -/
structure IsTriangulation (m : Mesh ℝ) (surface : List (GeoKind × List Nat)) (label : List Vertex)
    (xx yy zz : List ℝ) (triangles : List (List Nat)) : Prop where
  distinct : label.Nodup
  x : xx = label.map fun v => vertexPosition m surface v 0
  y : yy = label.map fun v => vertexPosition m surface v 1
  z : zz = if m.ndim = 3 then label.map fun v => vertexPosition m surface v 2 else []
  used : ∀ v ∈ label, ∃ tri ∈ surfaceTriangles surface, v ∈ tri
  triangles : List.Forall₂ (List.Forall₂ fun q v => label[q]? = some v) triangles (surfaceTriangles surface)

end
end Gemlab.Mesh
