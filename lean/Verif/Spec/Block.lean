import Verif.Model.Block
import Verif.Spec.Euclid
import Verif.Spec.Features

/-!
# Blocks: reachable blocks and the positions of the nodes of a subdivision

Independent of the loops of `subdivide`: where node `m` of the cell `(i, j, k)` is in the reference space of the block.
-/
namespace Gemlab.Block
noncomputable section
open Gemlab.Mesh Gemlab.Shapes

/-- Blocks reachable through the API, from the array (`nrow × ndim`) given to `Block::new`. Setters that return an error are included. -/
inductive Reached (inv : MatInverse) (nrow ndim : Nat) (at_ : Nat → Nat → ℝ) : Block → Prop
  | new {b} : Block.new inv nrow ndim at_ = .ok b → Reached inv nrow ndim at_ b
  | marker {b} (v) : Reached inv nrow ndim at_ b → Reached inv nrow ndim at_ (setMarker b v)
  | ndiv {b} (v) : Reached inv nrow ndim at_ b → Reached inv nrow ndim at_ (setNdiv b v).1
  | weights2d {b} (wx wy) : Reached inv nrow ndim at_ b → Reached inv nrow ndim at_ (setDivWeights2d b wx wy).1
  | weights3d {b} (wx wy wz) : Reached inv nrow ndim at_ b → Reached inv nrow ndim at_ (setDivWeights3d b wx wy wz).1
  | edgeConstraint {b} (e v) : Reached inv nrow ndim at_ b → Reached inv nrow ndim at_ (setEdgeConstraint b e v).1
  | faceConstraint {b} (f v) : Reached inv nrow ndim at_ b → Reached inv nrow ndim at_ (setFaceConstraint b f v).1
  | edgeMarker {b} (e v) : Reached inv nrow ndim at_ b → Reached inv nrow ndim at_ (setEdgeMarker b e v).1
  | faceMarker {b} (f v) : Reached inv nrow ndim at_ b → Reached inv nrow ndim at_ (setFaceMarker b f v).1
  | ring {b} (v) : Reached inv nrow ndim at_ b → Reached inv nrow ndim at_ (setTransformIntoRing b v).1

/-- What always holds for the data of a block. -/
structure WF (nrow ndim : Nat) (at_ : Nat → Nat → ℝ) (b : Block) : Prop where
  ndim_eq : b.ndim = ndim
  dims : b.ndim = 2 ∨ b.ndim = 3
  rowsOk : nrow = (if b.ndim = 2 then 4 else 8) ∨ nrow = (if b.ndim = 2 then 8 else 20)
  ndivLen : b.ndiv.length = b.ndim
  deltaLen : b.deltaKsi.length = b.ndim
  rows : ∀ a < b.ndim, (b.deltaKsi.getD a []).length = b.ndiv.getD a 0 ∧ 1 ≤ b.ndiv.getD a 0 ∧ (b.deltaKsi.getD a []).sum = 2
  padOk : b.pad.okXxt = true
  padNdim : b.pad.spaceNdim = b.ndim
  padKind : b.pad.kind = if b.ndim = 2 then .qua8 else .hex20
  corners : ∀ m < (if b.ndim = 2 then 4 else 8), ∀ j < b.ndim, b.pad.xxt j m = at_ m j
  all : nrow = b.pad.kind.nnode → ∀ m < nrow, ∀ j < b.ndim, b.pad.xxt j m = at_ m j
  mids : nrow ≠ b.pad.kind.nnode → ∀ t ∈ middle b.ndim, ∀ j < b.ndim, b.pad.xxt j t.1 = (at_ t.2.1 j + at_ t.2.2 j) / 2
  edgeC : ∀ e v, b.edgeConstraints.get e = some v → b.ndim = 2 ∧ e < 4
  faceC : ∀ f v, b.faceConstraints.get f = some v → b.ndim = 3 ∧ f < 6
  edgeM : ∀ e v, b.edgeMarkers.get e = some v → e < (if b.ndim = 2 then 4 else 12)
  faceM : ∀ f v, b.faceMarkers.get f = some v → b.ndim = 3 ∧ f < 6
  ring : b.argsRing.amin < b.argsRing.amax ∧ b.argsRing.rmin < b.argsRing.rmax ∧ b.argsRing.zmin < b.argsRing.zmax ∧
    0 ≤ b.argsRing.amin ∧ b.argsRing.amax ≤ Real.pi / 2

/-- The number of divisions along direction `a` (in 2D, there is one layer of cells). -/
def ndivAt (b : Block) (a : Nat) : Nat := if a < b.ndim then b.ndiv.getD a 0 else 1

/-- The left end, in the reference interval `[-1, 1]` of direction `a`, of division `i`. -/
def left (b : Block) (a i : Nat) : ℝ := -1 + ∑ l ∈ Finset.range i, del b a l

/-- The index of the division of the cell `(i, j, k)` along direction `a`. -/
def pick (i j k a : Nat) : Nat := if a = 0 then i else if a = 1 then j else k

/-- The position of node `m` of the cell `(i, j, k)` in the reference space of the block: the reference cell is mapped linearly to the
box of the divisions. -/
def nodePos (b : Block) (target : GeoKind) (i j k m : Nat) : List ℝ :=
  (List.range b.ndim).map fun a => left b a (pick i j k a) + del b a (pick i j k a) * ((1 + refCoord target m a) / 2)

/-- Number of the cell `(i, j, k)`: the x-direction is the fastest. -/
def cellNum (b : Block) (i j k : Nat) : Nat := i + ndivAt b 0 * (j + ndivAt b 1 * k)

/-- `(i, j, k)` is a cell. -/
def InGrid (b : Block) (i j k : Nat) : Prop := i < ndivAt b 0 ∧ j < ndivAt b 1 ∧ k < ndivAt b 2

/-- The divisions are not too small for the search grid of the subdivision: more than `0.0007` (of the length 2). -/
def NotTooFine (b : Block) : Prop := ∀ a < b.ndim, ∀ i < ndivAt b a, 7 / 10 ^ 4 < del b a i

/-- The kind of cells can be used in a block of this dimension. -/
def TargetOk (b : Block) (target : GeoKind) : Prop := target.classOf = if b.ndim = 2 then .qua else .hex

/-- The position `ξ` is the place of a node of the subdivision. -/
def IsNode (b : Block) (target : GeoKind) (ξ : List ℝ) : Prop :=
  ∃ i j k m, InGrid b i j k ∧ m < target.nnode ∧ ξ = nodePos b target i j k m

/-- The real coordinates of the position `ξ` of the block: isoparametric map (and constraints) or ring. -/
def mapped (b : Block) (ξ : List ℝ) : List ℝ :=
  match realCoords b ξ with
  | .ok r => r.1
  | _ => []

/-- The side of the block whose constraint moved the point at the position `ξ`. -/
def movedBy (b : Block) (ξ : List ℝ) : Option Nat :=
  match realCoords b ξ with
  | .ok r => r.2
  | _ => none

/-- The direction orthogonal to a side: in 2D the sides are bottom, right, top, left; in 3D x-, x+, y-, y+, z-, z+. -/
def sideDir (ndim s : Nat) : Nat := if ndim = 2 then (if s = 0 ∨ s = 2 then 1 else 0) else s / 2

/-- The value of the reference coordinate in the direction orthogonal to a side. -/
def sideVal (ndim s : Nat) : ℝ := if ndim = 2 then (if s = 1 ∨ s = 2 then 1 else -1) else (if s % 2 = 1 then 1 else -1)

/-- The position is on side `s` of the block. -/
def OnSide (ndim s : Nat) (ξ : List ℝ) : Prop := ξ.getD (sideDir ndim s) 0 = sideVal ndim s

/-- The directions along which node `m` is not at an end of the cell: none for a corner, one for a node within an edge. -/
def freeDirs (target : GeoKind) (m : Nat) : List Nat :=
  (List.range target.ndim).filter fun a => decide (refCoordQ target m a ≠ -1 ∧ refCoordQ target m a ≠ 1)

/-- The position of the end (`v = 0` or `1`) along direction `d` of the edge of node `m` of the cell `(i, j, k)`. -/
def endPos (b : Block) (target : GeoKind) (i j k m d : Nat) (v : ℝ) : List ℝ :=
  (List.range b.ndim).map fun a =>
    left b a (pick i j k a) + del b a (pick i j k a) * (if a = d then v else (1 + refCoord target m a) / 2)

/-- An end of the edge with the ends `lo` and `hi` along direction `d` was moved by the constraint of a side orthogonal to the edge. -/
def Pulled (b : Block) (lo hi : List ℝ) (d : Nat) : Prop :=
  ∃ s, (movedBy b lo = some s ∨ movedBy b hi = some s) ∧ sideDir b.ndim s = d

open Classical in
/-- Coordinates of a node at a corner or within an edge of a cell, for a block with constraints: the nodes within an edge that was pulled
are on the straight line between the ends of the edge. -/
def edgeCoords (b : Block) (target : GeoKind) (i j k m : Nat) : List ℝ :=
  match freeDirs target m with
  | [] => mapped b (nodePos b target i j k m)
  | d :: _ =>
    let lo := endPos b target i j k m d 0
    let hi := endPos b target i j k m d 1
    if Pulled b lo hi d then
      (List.range b.ndim).map fun c => (1 - (1 + refCoord target m d) / 2) * (mapped b lo).getD c 0 + (1 + refCoord target m d) / 2 * (mapped b hi).getD c 0
    else mapped b (nodePos b target i j k m)

/-- Coordinates of node `m` of the cell `(i, j, k)` of the mesh. If there are constraints and the edges have middle nodes then the nodes
inside a quadrilateral are placed by the interpolation functions of the quadrilateral without interior nodes. -/
def finalCoords (b : Block) (target : GeoKind) (i j k m : Nat) : List ℝ :=
  if hasConstraints b ∧ target.edgeNnode > 2 then
    if (freeDirs target m).length ≤ 1 then edgeCoords b target i j k m
    else match serendipity target with
      | none => mapped b (nodePos b target i j k m)
      | some ser => (List.range b.ndim).map fun c => Shapes.calcCoords ser (fun m' c => (edgeCoords b target i j k m').getD c 0) (refCoord target m) c
  else mapped b (nodePos b target i j k m)

/-! ## The block in terms of the data given by the user -/

/-- The kind whose nodes are the rows of the array given to `Block::new`. -/
def inputKind (nrow ndim : Nat) : GeoKind := if ndim = 2 then (if nrow = 4 then .qua4 else .qua8) else (if nrow = 8 then .hex8 else .hex20)

/-- The isoparametric map of the array given to `Block::new`. -/
def isoMap (nrow ndim : Nat) (at_ : Nat → Nat → ℝ) (ξ : List ℝ) : List ℝ :=
  (List.range ndim).map fun j => Shapes.calcCoords (inputKind nrow ndim) at_ (at' ξ) j

/-- A circle or a cylinder: the two components that matter, the centre and the radius. -/
structure Surface where
  p : Nat
  q : Nat
  cp : ℝ
  cq : ℝ
  r : ℝ

def surface2d : Constraint2d → Surface
  | .circle xc yc r => ⟨0, 1, xc, yc, r⟩

def surface3d : Constraint3d → Surface
  | .cylinderX yc zc r => ⟨1, 2, yc, zc, r⟩
  | .cylinderY xc zc r => ⟨0, 2, xc, zc, r⟩
  | .cylinderZ xc yc r => ⟨0, 1, xc, yc, r⟩

/-- The constraint of side `s` of a block. -/
def constraintOf (b : Block) (s : Nat) : Option Surface :=
  if b.ndim = 2 then (b.edgeConstraints.get s).map surface2d else (b.faceConstraints.get s).map surface3d

/-- Distance from the centre (from the axis of the cylinder). -/
def Surface.dist (S : Surface) (x : List ℝ) : ℝ := Real.sqrt ((x.getD S.p 0 - S.cp) ^ 2 + (x.getD S.q 0 - S.cq) ^ 2)

/-- The point is on the circle or cylinder. -/
def Surface.On (S : Surface) (x : List ℝ) : Prop := (x.getD S.p 0 - S.cp) ^ 2 + (x.getD S.q 0 - S.cq) ^ 2 = S.r ^ 2

/-- The radial projection: two components are scaled with respect to the centre, the others are unchanged. -/
def Surface.project (S : Surface) (x : List ℝ) : List ℝ :=
  (List.range x.length).map fun a =>
    if a = S.p then S.cp + S.r / S.dist x * (x.getD S.p 0 - S.cp)
    else if a = S.q then S.cq + S.r / S.dist x * (x.getD S.q 0 - S.cq)
    else x.getD a 0

/-- The position is on side `s` of the block and this side has a constraint. -/
def Active (b : Block) (ξ : List ℝ) (s : Nat) (S : Surface) : Prop := s < 2 * b.ndim ∧ OnSide b.ndim s ξ ∧ constraintOf b s = some S

/-- The point is not at the right distance, or it is at the centre. -/
def Surface.Off (S : Surface) (x : List ℝ) : Prop := S.dist x ≤ 1 / 10 ^ 8 ∨ S.dist x ≠ S.r

/-- `s` is the first side with a constraint that the point (with coordinates `x`) does not satisfy. -/
def FirstOff (b : Block) (ξ x : List ℝ) (s : Nat) (S : Surface) : Prop :=
  Active b ξ s S ∧ S.Off x ∧ ∀ s' < s, ∀ S', Active b ξ s' S' → ¬ S'.Off x

/-- The map of a ring: radius, angle and z are linear. -/
def ringMap (b : Block) (ξ : List ℝ) : List ℝ :=
  let A := b.argsRing
  let r := A.rmin + (ξ.getD 0 0 + 1) / 2 * (A.rmax - A.rmin)
  let t := A.amin + (ξ.getD 1 0 + 1) / 2 * (A.amax - A.amin)
  let z := A.zmin + (ξ.getD 2 0 + 1) / 2 * (A.zmax - A.zmin)
  if b.ndim = 2 then [r * Real.cos t, r * Real.sin t] else [r * Real.cos t, r * Real.sin t, z]

/-! ## The mesh -/

open Classical in
/-- The list of the different elements, in the order of their first occurrence (after those of `H`). -/
def distinctFrom (H L : List (List ℝ)) : List (List ℝ) := L.foldl (fun H ξ => if ξ ∈ H then H else H ++ [ξ]) H

/-- The positions of the nodes of cell number `n`. -/
def cellPositions (b : Block) (target : GeoKind) (n : Nat) : List (List ℝ) :=
  (List.range target.nnode).map (nodePos b target (n % ndivAt b 0) (n / ndivAt b 0 % ndivAt b 1) (n / ndivAt b 0 / ndivAt b 1))

/-- The different positions of nodes, in the order of the first `N` cells and their nodes. -/
def nodeList (b : Block) (target : GeoKind) (N : Nat) : List (List ℝ) := distinctFrom [] ((List.range N).flatMap (cellPositions b target))

/-- Number of cells. -/
def numCells (b : Block) : Nat := ndivAt b 0 * (ndivAt b 1 * ndivAt b 2)

/-- The point of node `m` of the cell `(i, j, k)` of a mesh. -/
def ptAt (b : Block) (M : Mesh ℝ) (i j k m : Nat) : Nat := (((M.cells[cellNum b i j k]?).map (·.points)).getD []).getD m 0

open Classical in
/-- The mesh is the subdivision of the block into cells of the kind `target` (except the marked edges and faces). -/
structure IsSubdivision (b : Block) (target : GeoKind) (M : Mesh ℝ) : Prop where
  /-- The dimension is that of the block. -/
  ndim : M.ndim = b.ndim
  /-- One cell for each combination of divisions, numbered with the x-direction first; all have the marker of the block and the kind. -/
  ncell : M.cells.length = numCells b
  cells : ∀ i j k, InGrid b i j k → ∃ c, M.cells[cellNum b i j k]? = some c ∧ c.id = cellNum b i j k ∧ c.marker = b.marker ∧ c.kind = target ∧
    c.points.length = target.nnode
  /-- One point for each position, numbered in the order of the first occurrence. -/
  npoint : M.points.length = (nodeList b target (numCells b)).length
  points : ∀ (p : Nat) pt, M.points[p]? = some pt → pt.id = p ∧ pt.marker = 0 ∧ pt.coords.length = b.ndim
  node : ∀ i j k m, InGrid b i j k → m < target.nnode →
    ptAt b M i j k m < M.points.length ∧ ptAt b M i j k m = (nodeList b target (numCells b)).idxOf (nodePos b target i j k m)
  /-- Coordinates of the points. -/
  coords : ∀ i j k m, InGrid b i j k → m < target.nnode → coordsOf M (ptAt b M i j k m) = finalCoords b target i j k m

/-- Some node of the subdivision has to be moved by a constraint but is at the centre. -/
def Unmappable (nrow ndim : Nat) (at_ : Nat → Nat → ℝ) (b : Block) (target : GeoKind) : Prop :=
  b.transformIntoRing = false ∧ ∃ ξ s S, IsNode b target ξ ∧ FirstOff b ξ (isoMap nrow ndim at_ ξ) s S ∧ S.dist (isoMap nrow ndim at_ ξ) ≤ 1 / 10 ^ 8

/-- The corner kind of a block: its numbering of corners, edges and faces. -/
def cornerKind (ndim : Nat) : GeoKind := if ndim = 2 then .qua4 else .hex8

/-- The position is on edge `e` of the block: the coordinates that are constant along this edge are those of the edge. -/
def OnBlockEdge (ndim e : Nat) (ξ : List ℝ) : Prop :=
  ∀ a < ndim, refCoordQ (cornerKind ndim) (edgeNode (cornerKind ndim) e 0) a = refCoordQ (cornerKind ndim) (edgeNode (cornerKind ndim) e 1) a →
    ξ.getD a 0 = refCoord (cornerKind ndim) (edgeNode (cornerKind ndim) e 0) a

/-- The position is on face `f` of the block. -/
def OnBlockFace (f : Nat) (ξ : List ℝ) : Prop :=
  ∀ a < 3, (∀ t < 4, refCoordQ .hex8 (faceNode .hex8 f t) a = refCoordQ .hex8 (faceNode .hex8 f 0) a) → ξ.getD a 0 = refCoord .hex8 (faceNode .hex8 f 0) a

/-- The marked edges and faces of the subdivision. -/
structure IsMarked (b : Block) (target : GeoKind) (M : Mesh ℝ) : Prop where
  /-- An edge is marked with `mk` exactly if it is an edge of a cell, on an edge of the block that has the marker `mk`; the pair is sorted. -/
  edges : ∀ mk p q, (mk, p, q) ∈ M.markedEdges ↔ ∃ e i j k ε, b.edgeMarkers.get e = some mk ∧ InGrid b i j k ∧ ε < target.nedge ∧
    OnBlockEdge b.ndim e (nodePos b target i j k (edgeNode target ε 0)) ∧ OnBlockEdge b.ndim e (nodePos b target i j k (edgeNode target ε 1)) ∧
    (p, q) = sort2 (ptAt b M i j k (edgeNode target ε 0)) (ptAt b M i j k (edgeNode target ε 1))
  /-- No edge is marked twice. -/
  edgesOnce : (M.markedEdges.map (·.2)).Nodup
  /-- In 2D there are no marked faces. In 3D a face is marked with `mk` exactly if it is a face of a cell, on a face of the block that has
  the marker `mk`; the corners are sorted. -/
  faces : ∀ mk key, (mk, key) ∈ M.markedFaces ↔ b.ndim = 3 ∧ ∃ f i j k φ, b.faceMarkers.get f = some mk ∧ InGrid b i j k ∧ φ < target.nface ∧
    (∀ t < 4, OnBlockFace f (nodePos b target i j k (faceNode target φ t))) ∧
    key = sort4 (ptAt b M i j k (faceNode target φ 0)) (ptAt b M i j k (faceNode target φ 1)) (ptAt b M i j k (faceNode target φ 2))
      (ptAt b M i j k (faceNode target φ 3))
  /-- No face is marked twice. -/
  facesOnce : (M.markedFaces.map (·.2)).Nodup

/-- The sizes of arrays accepted by `Block::new`. -/
def AcceptedShape (nrow ndim : Nat) : Prop := (ndim = 2 ∧ (nrow = 4 ∨ nrow = 8)) ∨ (ndim = 3 ∧ (nrow = 8 ∨ nrow = 20))

/-- The Jacobian matrix of the isoparametric map of the given array, at the centre of the block. -/
def centreJacobian (nrow ndim : Nat) (at_ : Nat → Nat → ℝ) (i j : Nat) : ℝ :=
  ∑ m ∈ Finset.range (inputKind nrow ndim).nnode, at_ m i * Shapes.calcDeriv (inputKind nrow ndim) (fun _ => 0) m j

end
end Gemlab.Block
