import Verif.Model.Features

/-!
# What the features of a mesh are

Independent of the extraction algorithms: edges are unordered pairs of end points, faces are identified by (up to) four points.
-/
namespace Gemlab.Mesh
open Gemlab.Shapes

variable {K : Type}

/-- A mesh accepted by `check_ids_and_kind`, whose points have `ndim` coordinates: the ids are the positions, every cell has
the number of points of its kind, and these points exist. -/
structure ValidMesh (m : Mesh K) : Prop where
  coords : ∀ p ∈ m.points, p.coords.length = m.ndim
  pointIds : ∀ (i : Nat) (p : Point K), m.points[i]? = some p → p.id = i
  cellIds : ∀ (i : Nat) (c : Cell), m.cells[i]? = some c → c.id = i
  nnode : ∀ c ∈ m.cells, c.points.length = c.kind.nnode
  inRange : ∀ c ∈ m.cells, ∀ p ∈ c.points, p < m.points.length

/-- `key` is the pair of the end points of the local edge `e` of the 2D cell `c` (smaller id first). -/
def HasEdge (m : Mesh K) (key : Nat × Nat) (c e : Nat) : Prop :=
  ∃ cell a b, m.cells[c]? = some cell ∧ cell.kind.ndim = 2 ∧ e < cell.kind.nedge ∧
    cell.points[edgeNode cell.kind e 0]? = some a ∧ cell.points[edgeNode cell.kind e 1]? = some b ∧
    key.1 ≤ key.2 ∧ (key = (a, b) ∨ key = (b, a))

/-- `key` lists in increasing order the first four points of the local face `f` of the 3D cell `c` (or the three points of a
face with three nodes and `usize::MAX`). -/
def HasFace (m : Mesh K) (key : Nat × Nat × Nat × Nat) (c f : Nat) : Prop :=
  ∃ cell p0 p1 p2 p3, m.cells[c]? = some cell ∧ cell.kind.ndim = 3 ∧ f < cell.kind.nface ∧
    cell.points[faceNode cell.kind f 0]? = some p0 ∧ cell.points[faceNode cell.kind f 1]? = some p1 ∧
    cell.points[faceNode cell.kind f 2]? = some p2 ∧
    (if cell.kind.faceNnode > 3 then cell.points[faceNode cell.kind f 3]? = some p3 else p3 = usizeMax) ∧
    [key.1, key.2.1, key.2.2.1, key.2.2.2].Pairwise (· ≤ ·) ∧ [key.1, key.2.1, key.2.2.1, key.2.2.2].Perm [p0, p1, p2, p3]

/-- The first (cell, local entity) with a property. -/
def IsFirst (P : Nat → Nat → Prop) (c e : Nat) : Prop := P c e ∧ ∀ c' e', P c' e' → c < c' ∨ c = c' ∧ e ≤ e'

/-- There is exactly one (cell, local entity) with a property. -/
def ExactlyOne (P : Nat → Nat → Prop) : Prop := ∃ c e, P c e ∧ ∀ c' e', P c' e' → c' = c ∧ e' = e

/-- Marker of an edge: the one of the last marked edge with the same end points, or zero. -/
def edgeMarker (m : Mesh K) (key : Nat × Nat) : Int :=
  (((m.markedEdges.filter fun e => (e.2.1, e.2.2) = key ∨ (e.2.2, e.2.1) = key).getLast?).map (·.1)).getD 0

/-- Marker of a face: the one of the last marked face with the same points, or zero. -/
def faceMarker (m : Mesh K) (key : Nat × Nat × Nat × Nat) : Int :=
  (((m.markedFaces.filter fun e => [e.2.1, e.2.2.1, e.2.2.2.1, e.2.2.2.2].Perm [key.1, key.2.1, key.2.2.1, key.2.2.2]).getLast?).map
    (·.1)).getD 0

/-- Coordinates of a point. -/
def coordsOf (m : Mesh K) (p : Nat) : List K := ((m.points[p]?).map (·.coords)).getD []

/-- `f` has the kind and the points, in order, of the local edge `e` of the cell `c`. -/
def EdgeOf (m : Mesh K) (c e : Nat) (f : Feature) : Prop :=
  ∃ cell, m.cells[c]? = some cell ∧ cell.kind.edgeKind = some f.kind ∧ f.points.length = f.kind.nnode ∧
    ∀ (i : Nat), i < f.kind.nnode → f.points[i]? = cell.points[edgeNode cell.kind e i]?

/-- `f` has the kind and the points, in order, of the local face `k` of the cell `c`. -/
def FaceOf (m : Mesh K) (c k : Nat) (f : Feature) : Prop :=
  ∃ cell, m.cells[c]? = some cell ∧ cell.kind.faceKind = some f.kind ∧ f.points.length = f.kind.nnode ∧
    ∀ (i : Nat), i < f.kind.nnode → f.points[i]? = cell.points[faceNode cell.kind k i]?

/-- `f` has the kind and the points, in order, of the local edge `e` of the face `face`. -/
def FaceEdgeOf (face : Feature) (e : Nat) (f : Feature) : Prop :=
  e < face.kind.nedge ∧ face.kind.edgeKind = some f.kind ∧ f.points.length = f.kind.nnode ∧
    ∀ (i : Nat), i < f.kind.nnode → f.points[i]? = face.points[edgeNode face.kind e i]?

/-- `key` is the pair of the end points of the local edge `e` of a face. -/
def HasFaceEdge (face : Feature) (key : Nat × Nat) (e : Nat) : Prop :=
  ∃ a b, e < face.kind.nedge ∧ face.points[edgeNode face.kind e 0]? = some a ∧ face.points[edgeNode face.kind e 1]? = some b ∧
    key.1 ≤ key.2 ∧ (key = (a, b) ∨ key = (b, a))

end Gemlab.Mesh
