import Verif.Model.Shapes
import Mathlib.Algebra.BigOperators.Group.Finset.Basic

/-!
# Values of the interpolation functions and derivatives

`calc_interp` fills a vector, `calc_deriv` a matrix; here their entries as functions of the coordinates, in any field.
-/
namespace Gemlab.Shapes

variable {K : Type} [Field K]

/-- Entry `m` of the vector computed by `calc_interp` at the coordinates `ξ`
(`(interp k)` transcribes the code; meaningful for `m < k.nnode`, see `interp_length`). -/
def calcInterp (k : GeoKind) (ξ : Nat → K) (m : Nat) : K := PE.eval ξ ((interp k).getD m 0)

/-- Entry `(m, i)` of the matrix computed by `calc_deriv` (meaningful for `m < k.nnode`, `i < k.ndim`). -/
def calcDeriv (k : GeoKind) (ξ : Nat → K) (m i : Nat) : K := PE.eval ξ (((deriv k).getD m []).getD i 0)

/-- Component `i` of the vector computed by `Scratchpad::calc_coords`, `X m i` being the coordinates of the nodes
— scratchpad_calc_coords.rs:62-73 (`x = Xᵀ·N`). -/
def calcCoords (k : GeoKind) (X : Nat → Nat → K) (ξ : Nat → K) (i : Nat) : K :=
  ∑ m ∈ Finset.range k.nnode, X m i * calcInterp k ξ m

/-- Component `i` of `GeoKind::reference_coords(m)` — enums.rs:1049-1078 (the table is `GeoKind.referenceCoords`). -/
def refCoordQ (k : GeoKind) (m i : Nat) : ℚ := (k.referenceCoords.getD m []).getD i 0
def refCoord (k : GeoKind) (m i : Nat) : K := (refCoordQ k m i : ℚ)

/-- `edge_node_id(e, j)`, `edge_node_id_inward(e, j)`, `face_node_id(f, j)`, `face_edge_node_id(f, k, j)` — enums.rs:683-953. -/
def edgeNode (k : GeoKind) (e j : Nat) : Nat := (k.edgeNodeIds.getD e []).getD j 0
def edgeNodeInward (k : GeoKind) (e j : Nat) : Nat := (k.edgeNodeIdsInward.getD e []).getD j 0
def faceNode (k : GeoKind) (f j : Nat) : Nat := (k.faceNodeIds.getD f []).getD j 0
def faceEdgeNode (k : GeoKind) (f g j : Nat) : Nat := ((k.faceEdgeNodeIds.getD f []).getD g []).getD j 0

/-- Reference coordinates of the node `m` of a triangulation: a node of the shape, or an extra node
— scratchpad_triangulate.rs:44-56. -/
def triangulationNode (k : GeoKind) (m : Nat) : ℚ × ℚ :=
  let x := if k.nnode ≤ m then k.triangulateExtraCoords.getD (m - k.nnode) [] else k.referenceCoords.getD m []
  (x.getD 0 0, x.getD 1 0)

/-- `triangulate_triangle_nodes(t, i)` — enums.rs:1337-1366. -/
def triangulateNode (k : GeoKind) (t i : Nat) : Nat := (k.triangulateTriangles.getD t []).getD i 0

/-- Reference coordinates of corner `i` of triangle `t`. -/
def triangleCorner (k : GeoKind) (t i : Nat) : ℚ × ℚ := triangulationNode k (triangulateNode k t i)

end Gemlab.Shapes
