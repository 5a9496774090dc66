import Verif.Spec.Features
import Verif.Proofs.Join

/-!
# Meshes as sets of cells in space

A mesh without duplicated and unused points is determined, except for the numbers of the points, by its cells with the coordinates of
their nodes. Joining meshes should be nothing but putting together the cells.
-/
namespace Gemlab.Mesh
noncomputable section
open Gemlab Gemlab.Shapes Gemlab.Spec

/-- The cells of a mesh: marker, kind and the coordinates of the nodes. -/
def geomCells (M : Mesh ℝ) : List (Int × GeoKind × List (List ℝ)) := M.cells.map fun c => (c.marker, c.kind, c.points.map (coordsOf M))

/-- The edge between the places `x` and `y` has the marker `mk`. -/
def EdgeMarked (M : Mesh ℝ) (mk : Int) (x y : List ℝ) : Prop :=
  ∃ p q, (mk, p, q) ∈ M.markedEdges ∧ ((coordsOf M p = x ∧ coordsOf M q = y) ∨ (coordsOf M p = y ∧ coordsOf M q = x))

/-- The face with corners at the places `X` has the marker `mk`. -/
def FaceMarked (M : Mesh ℝ) (mk : Int) (X : List (List ℝ)) : Prop :=
  ∃ p q r s, (mk, p, q, r, s) ∈ M.markedFaces ∧ [coordsOf M p, coordsOf M q, coordsOf M r, coordsOf M s].Perm X

/-- A mesh in the plane or in space without unused points and without two points at the same place, whose marked edges and faces are given
once, by sorted and existing points. -/
structure Proper (M : Mesh ℝ) : Prop where
  valid : ValidMesh M
  dims : M.ndim = 2 ∨ M.ndim = 3
  distinct : ∀ p < M.points.length, ∀ q < M.points.length, coordsOf M p = coordsOf M q → p = q
  used : ∀ p < M.points.length, ∃ c ∈ M.cells, p ∈ c.points
  edges : ∀ mk p q, (mk, p, q) ∈ M.markedEdges → p ≤ q ∧ q < M.points.length
  edgesOnce : (M.markedEdges.map (·.2)).Nodup
  faces : ∀ mk p q r s, (mk, p, q, r, s) ∈ M.markedFaces → [p, q, r, s].Pairwise (· ≤ ·) ∧ s < M.points.length
  facesOnce : (M.markedFaces.map (·.2)).Nodup

/-- Two places are the same, or so far apart that the search for points distinguishes them. -/
def SameOrFar (dim : Nat) (x y : List ℝ) : Prop := x = y ∨ Real.sqrt dim * (1 / 10000) < euclid x y

/-- The edge `e` of cell number `c` of the list is between the places `x` and `y`. -/
def EdgeAt (L : List (Int × GeoKind × List (List ℝ))) (x y : List ℝ) (c e : Nat) : Prop :=
  ∃ mk k X, L[c]? = some (mk, k, X) ∧ k.ndim = 2 ∧ e < k.nedge ∧
    ((X[edgeNode k e 0]? = some x ∧ X[edgeNode k e 1]? = some y) ∨ (X[edgeNode k e 0]? = some y ∧ X[edgeNode k e 1]? = some x))

/-- The corners of face `f` of cell number `c` of the list are at the places `Y`. -/
def FaceAt (L : List (Int × GeoKind × List (List ℝ))) (Y : List (List ℝ)) (c f : Nat) : Prop :=
  ∃ mk k X y0 y1 y2 y3, L[c]? = some (mk, k, X) ∧ k.ndim = 3 ∧ f < k.nface ∧ X[faceNode k f 0]? = some y0 ∧ X[faceNode k f 1]? = some y1 ∧
    X[faceNode k f 2]? = some y2 ∧ X[faceNode k f 3]? = some y3 ∧ Y.Perm [y0, y1, y2, y3]

/-- The faces of the solid cells have at least four nodes. -/
def QuadFaces (L : List (Int × GeoKind × List (List ℝ))) : Prop := ∀ g ∈ L, g.2.1.ndim = 3 → 3 < g.2.1.faceNnode

/-- `x` is a corner of the boundary: the end of an edge (in the plane), or a corner of a face (in space), of one cell only. -/
def BoundaryCorner (dim : Nat) (L : List (Int × GeoKind × List (List ℝ))) (x : List ℝ) : Prop :=
  if dim = 2 then ∃ y, ExactlyOne (EdgeAt L x y) else ∃ Y, x ∈ Y ∧ ExactlyOne (FaceAt L Y)

/-- All nodes are within the box of the boundary corners, and the box has a positive size in all directions. -/
def Enclosed (dim : Nat) (L : List (Int × GeoKind × List (List ℝ))) : Prop :=
  ∀ d < dim, ∃ x x', BoundaryCorner dim L x ∧ BoundaryCorner dim L x' ∧ x.getD d 0 < x'.getD d 0 ∧
    ∀ g ∈ L, ∀ v ∈ g.2.2, x.getD d 0 ≤ v.getD d 0 ∧ v.getD d 0 ≤ x'.getD d 0

/-- The cells of several meshes, one mesh after the other. -/
def allCells (meshes : List (Mesh ℝ)) : List (Int × GeoKind × List (List ℝ)) := (meshes.map geomCells).flatten

/-- The first of the meshes where the edge is marked gives it the marker `mk`. -/
def FirstEdge (meshes : List (Mesh ℝ)) (mk : Int) (x y : List ℝ) : Prop :=
  ∃ (k : Nat) (A : Mesh ℝ), meshes[k]? = some A ∧ EdgeMarked A mk x y ∧ ∀ (j : Nat) (B : Mesh ℝ), j < k → meshes[j]? = some B → ∀ mk', ¬ EdgeMarked B mk' x y

/-- The first of the meshes where the face is marked gives it the marker `mk`. -/
def FirstFace (meshes : List (Mesh ℝ)) (mk : Int) (X : List (List ℝ)) : Prop :=
  ∃ (k : Nat) (A : Mesh ℝ), meshes[k]? = some A ∧ FaceMarked A mk X ∧ ∀ (j : Nat) (B : Mesh ℝ), j < k → meshes[j]? = some B → ∀ mk', ¬ FaceMarked B mk' X

/-- `M` is nothing but the meshes put together. -/
structure IsAssembly (meshes : List (Mesh ℝ)) (M : Mesh ℝ) : Prop where
  proper : Proper M
  cells : geomCells M = allCells meshes
  edges : ∀ mk x y, EdgeMarked M mk x y ↔ FirstEdge meshes mk x y
  faces : ∀ mk X, FaceMarked M mk X ↔ FirstFace meshes mk X
  points : ∀ pt ∈ M.points, ∃ A ∈ meshes, ∃ pt' ∈ A.points, pt.coords = pt'.coords ∧ pt.marker = pt'.marker
  /-- the points and cells of the first mesh keep their numbers -/
  first : ∀ A ∈ meshes.head?, A.points <+: M.points ∧ A.cells <+: M.cells

/-- What is needed for joining the meshes one after the other: they are proper, their coordinates are finite numbers, any two nodes are at
the same place or far from each other, and each mesh is added to a part that is enclosed by the corners of its boundary. -/
structure CanAssemble (dim : Nat) (meshes : List (Mesh ℝ)) : Prop where
  two : 2 ≤ meshes.length
  proper : ∀ A ∈ meshes, Proper A ∧ A.ndim = dim
  limits : ∀ A ∈ meshes, ∀ p ∈ A.points, ∀ v ∈ p.coords, -f64Max ≤ v ∧ v ≤ f64Max
  far : ∀ g ∈ allCells meshes, ∀ x ∈ g.2.2, ∀ g' ∈ allCells meshes, ∀ y ∈ g'.2.2, SameOrFar dim x y
  faces : dim = 3 → QuadFaces (allCells meshes.dropLast)
  enclosed : ∀ k, 0 < k → k < meshes.length → Enclosed dim (allCells (meshes.take k))

end
end Gemlab.Mesh
