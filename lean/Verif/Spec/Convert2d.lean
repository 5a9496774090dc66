import Verif.Model.Convert2d
import Verif.Spec.Features
import Verif.Spec.RefShapes

/-!
# What a converted mesh is

Independent of the algorithm: the place of a node is a corner (a point of the given mesh), a position along an edge between two
corners, or the inside of a cell.
-/
namespace Gemlab.Mesh
noncomputable section
open Gemlab.Shapes Gemlab.Spec

/-- Id of the point of node `n` of cell `c`. -/
def nodeOf {K : Type} (m : Mesh K) (c n : Nat) : Nat := (((m.cells[c]?).map (·.points)).getD []).getD n 0

/-- Position of node `i` of an edge: zero at its first end, one at its second end. -/
def edgePos (k : GeoKind) (i : Nat) : ℚ := (refCoordQ (k.edgeKind.getD .lin2) i 0 + 1) / 2

/-- The local edge on which a node (not a corner) lies, and its number on the edge. -/
def edgeOfNode (k : GeoKind) (n : Nat) : Option (Nat × Nat) :=
  ((List.range k.nedge).flatMap fun e => (List.range' 2 (k.edgeNnode - 2)).map fun i => (e, i)).find? fun x => edgeNode k x.1 x.2 = n

/-- Where a node is: at a point of the given mesh; between the points `a < b`, at the fraction `t` of the way from `a` to `b`; or
the node `n` inside the cell `c`. -/
inductive Place where
  | corner (p : Nat)
  | edge (a b : Nat) (t : ℚ)
  | inside (c n : Nat)
  deriving DecidableEq

/-- The place of the node `n` of the cell `c` converted to `target`. (The first nodes are the corners, as many as edges.) -/
def place (m : Mesh ℝ) (target : GeoKind) (c n : Nat) : Place :=
  if n < target.nedge then .corner (nodeOf m c n)
  else match edgeOfNode target n with
    | some (e, i) =>
      let a := nodeOf m c (edgeNode target e 0)
      let b := nodeOf m c (edgeNode target e 1)
      if a < b then .edge a b (edgePos target i) else .edge b a (1 - edgePos target i)
    | none => .inside c n

/-- Image, by the isoparametric map of the cell `c` (of kind `k`) of the mesh `m`, of the reference position of the node `n` of `target`. -/
def isoNode (m : Mesh ℝ) (k target : GeoKind) (c n j : Nat) : ℝ :=
  interpolate k (fun i => (coordsOf m (nodeOf m c i)).getD j 0) (refCoord target n)

/-- Marker of a point. -/
def markerOf (m : Mesh ℝ) (p : Nat) : Int := ((m.points[p]?).map (·.marker)).getD 0

/-- Marker of a new point: the one of the corner, the one of the last middle point of the edge (if there is one), or zero. -/
def nodeMarker (m : Mesh ℝ) (k target : GeoKind) (c n : Nat) : Int :=
  if n < target.nedge then markerOf m (nodeOf m c n)
  else match edgeOfNode target n with
    | some (e, _) => if 2 < k.edgeNnode then markerOf m (nodeOf m c (edgeNode k e (k.edgeNnode - 1))) else 0
    | none => 0

/-- All cells are of kind `k`; the corners of a cell are different points; and two cells with an edge in common traverse it in opposite
directions, with the same points. -/
structure Conforming (m : Mesh ℝ) (k : GeoKind) : Prop where
  corners : ∀ c < m.cells.length, ∀ n < k.nedge, ∀ n' < k.nedge, nodeOf m c n = nodeOf m c n' → n = n'
  opposed : ∀ key c e c' e', c ≠ c' → HasEdge m key c e → HasEdge m key c' e' →
    ∀ i < k.edgeNnode, ∀ j < k.edgeNnode, edgePos k i + edgePos k j = 1 → nodeOf m c (edgeNode k e i) = nodeOf m c' (edgeNode k e' j)

/-- `M` has the cells of `m` with the kind `target`; the corners are those of `m`, with their coordinates and markers, renumbered. -/
structure IsRenumbered (m : Mesh ℝ) (target : GeoKind) (M : Mesh ℝ) : Prop where
  ndim : M.ndim = 2
  valid : ValidMesh M
  ncell : M.cells.length = m.cells.length
  cells : ∀ (c : Nat) (cell : Cell), m.cells[c]? = some cell → ∃ cell', M.cells[c]? = some cell' ∧ cell'.kind = target ∧ cell'.marker = cell.marker
  noMarked : M.markedEdges = [] ∧ M.markedFaces = []
  cornerData : ∀ c < m.cells.length, ∀ n < target.nedge,
    coordsOf M (nodeOf M c n) = coordsOf m (nodeOf m c n) ∧ markerOf M (nodeOf M c n) = markerOf m (nodeOf m c n)
  cornerShared : ∀ c < m.cells.length, ∀ n < target.nedge, ∀ c' < m.cells.length, ∀ n' < target.nedge,
    nodeOf M c n = nodeOf M c' n' ↔ nodeOf m c n = nodeOf m c' n'

/-- Moreover: two nodes are the same point exactly when they are at the same place; every node is where the isoparametric map of its cell
puts it; every point is a node; and the marker of a point is the one given by the first cell having it. -/
structure IsConverted (m : Mesh ℝ) (k target : GeoKind) (M : Mesh ℝ) : Prop where
  shared : ∀ c < m.cells.length, ∀ n < target.nnode, ∀ c' < m.cells.length, ∀ n' < target.nnode,
    nodeOf M c n = nodeOf M c' n' ↔ place m target c n = place m target c' n'
  coords : ∀ c < m.cells.length, ∀ n < target.nnode, ∀ j < 2, (coordsOf M (nodeOf M c n)).getD j 0 = isoNode m k target c n j
  used : ∀ p < M.points.length, ∃ c < m.cells.length, ∃ n < target.nnode, nodeOf M c n = p
  marker : ∀ c < m.cells.length, ∀ n < target.nnode, (∀ c' < c, ∀ n' < target.nnode, place m target c' n' ≠ place m target c n) →
    markerOf M (nodeOf M c n) = nodeMarker m k target c n

end
end Gemlab.Mesh
