import Verif.Spec.Generators
import Verif.Spec.Assembly
import Verif.Props.Block

/-!
# Meshes from blocks given by the user: what the generators promise

The input of `from_blocks_2d` and `from_blocks_3d` is brought to the same form: regions with a marker, the numbers and the coordinates of
their corners, weights, and an optional constraint.
-/
namespace Gemlab.Structured
noncomputable section
open Classical
open Gemlab.Mesh Gemlab.Shapes Gemlab.Block

/-- A region. -/
structure Region where
  marker : Int
  corners : List Nat
  coords : List (List ℝ)
  weights : List (List ℝ)
  constraint : Option (Nat × Surface)

/-- Region number `i`, if its data is there: all corners are points of the list, and the lists of weights and constraints are long enough. -/
def region2d (blocks : Blocks2d) (i : Nat) : Option Region := do
  let r ← blocks.regions[i]?
  let corners := [r.2.1, r.2.2.1, r.2.2.2.1, r.2.2.2.2]
  let coords ← corners.mapM fun p => (blocks.points[p]?).map fun x => [x.1, x.2]
  let w ← blocks.divWeights[i]?
  let c ← blocks.edgeConstraints[i]?
  some { marker := r.1, corners := corners, coords := coords, weights := [w.1, w.2], constraint := c.map fun c => (c.1, surface2d c.2) }

def region3d (blocks : Blocks3d) (i : Nat) : Option Region := do
  let r ← blocks.regions[i]?
  let corners := [r.2.1, r.2.2.1, r.2.2.2.1, r.2.2.2.2.1, r.2.2.2.2.2.1, r.2.2.2.2.2.2.1, r.2.2.2.2.2.2.2.1, r.2.2.2.2.2.2.2.2]
  let coords ← corners.mapM fun p => (blocks.points[p]?).map fun x => [x.1, x.2.1, x.2.2]
  let w ← blocks.divWeights[i]?
  let c ← blocks.faceConstraints[i]?
  some { marker := r.1, corners := corners, coords := coords, weights := [w.1, w.2.1, w.2.2], constraint := c.map fun c => (c.1, surface3d c.2) }

/-- Coordinate `j` of corner `m`. -/
def Region.at_ (d : Region) (m j : Nat) : ℝ := at' (d.coords.getD m []) j

/-- The weights are used if they are given for all directions. -/
def Region.Weighted (d : Region) : Prop := ∀ w ∈ d.weights, w ≠ []

/-- A region that can be used: the map to the region has a positive Jacobian at the centre, the sums of the weights are not less than one,
and the constraint is for an existing side. -/
structure Region.Accepted (ndim : Nat) (d : Region) : Prop where
  jacobian : 0 < detN ndim (centreJacobian (2 ^ ndim) ndim d.at_)
  weights : d.Weighted → ∀ w ∈ d.weights, 1 ≤ w.sum
  side : ∀ c, d.constraint = some c → c.1 < 2 * ndim

/-- The marker of the edge between two points: that of the last entry of the list with these points, in any order. -/
def edgeMark (marked : List (Int × Nat × Nat)) (p q : Nat) : Option Int :=
  ((marked.filter fun e => (e.2.1 = p ∧ e.2.2 = q) ∨ (e.2.1 = q ∧ e.2.2 = p)).getLast?).map (·.1)

/-- The marker of the face with the given corners: that of the last entry of the list with these points, in any order. -/
def faceMark (marked : List (Int × Nat × Nat × Nat × Nat)) (corners : List Nat) : Option Int :=
  ((marked.filter fun f => [f.2.1, f.2.2.1, f.2.2.2.1, f.2.2.2.2].Perm corners).getLast?).map (·.1)

/-- The block `b` has the settings: marker, divisions, constraint of each side, markers of edges and of faces; it is not made a ring. -/
structure HasSettings (inv : MatInverse) (nrow ndim : Nat) (at_ : Nat → Nat → ℝ) (marker : Int) (ndiv : List Nat) (deltaKsi : List (List ℝ))
    (constraint : Nat → Option Surface) (edges faces : Nat → Option Int) (b : Block) : Prop where
  reached : Block.Reached inv nrow ndim at_ b
  marker_eq : b.marker = marker
  ndiv_eq : b.ndiv = ndiv
  delta_eq : b.deltaKsi = deltaKsi
  constraints : ∀ s, constraintOf b s = constraint s
  edgeMarks : ∀ e, b.edgeMarkers.get e = edges e
  faceMarks : ∀ f, b.faceMarkers.get f = faces f
  ring : b.transformIntoRing = false

/-- The block of a region: divided in proportion to the weights (without weights: two equal divisions in each direction); the constraint is that
of the given side; each edge and face of the block has the marker of the list, if there is one for its corners. -/
def IsRegionBlock (inv : MatInverse) (ndim : Nat) (d : Region) (edges : List (Int × Nat × Nat)) (faces : List (Int × Nat × Nat × Nat × Nat)) (b : Block) : Prop :=
  HasSettings inv (2 ^ ndim) ndim d.at_ d.marker
    (if d.Weighted then d.weights.map List.length else List.replicate ndim 2)
    (if d.Weighted then d.weights.map proportional else List.replicate ndim (equalDivisions 2))
    (fun s => (d.constraint.filter fun c => c.1 = s).map (·.2))
    (fun e => if e < (cornerKind ndim).nedge then
      edgeMark edges (d.corners.getD (edgeNode (cornerKind ndim) e 0) 0) (d.corners.getD (edgeNode (cornerKind ndim) e 1) 0) else none)
    (fun f => if f < (cornerKind ndim).nface then faceMark faces ((List.range 4).map fun t => d.corners.getD (faceNode (cornerKind ndim) f t) 0) else none) b

/-- `A` is the mesh of the region `d`: the subdivision of its block. -/
def IsRegionMesh (inv : MatInverse) (ndim : Nat) (d : Region) (edges : List (Int × Nat × Nat)) (faces : List (Int × Nat × Nat × Nat × Nat)) (target : GeoKind)
    (A : Mesh ℝ) : Prop :=
  ∃ b, IsRegionBlock inv ndim d edges faces b ∧ IsSubdivision b target A ∧ IsMarked b target A

/-- A node of the subdivision of the region has to be moved by the constraint but is at its centre. -/
def Region.Unmappable (inv : MatInverse) (ndim : Nat) (d : Region) (target : GeoKind) : Prop :=
  ∃ edges faces b, IsRegionBlock inv ndim d edges faces b ∧ Block.Unmappable (2 ^ ndim) ndim d.at_ b target

/-- All regions can be used, and their kind of cells is right. -/
def AllUsable (inv : MatInverse) (ndim n : Nat) (region : Nat → Option Region) (target : GeoKind) : Prop :=
  2 ≤ n ∧ (target.classOf = if ndim = 2 then .qua else .hex) ∧ ∀ i < n, ∀ d, region i = some d → d.Accepted ndim ∧ ¬ d.Unmappable inv ndim target

/-- The data of all regions is there, and the weights are not too small for the search grid. -/
def AllGiven (n : Nat) (region : Nat → Option Region) : Prop := ∀ i < n, ∃ d, region i = some d ∧ (d.Weighted → ∀ w ∈ d.weights, WeightsOk w)

/-- Number of divisions of a region along a direction. -/
def Region.divs (ndim : Nat) (d : Region) (a : Nat) : Nat := if a < ndim then (if d.Weighted then (d.weights.getD a []).length else 2) else 1

/-- The positions of the lines between the divisions, from 0 to 1. -/
def Region.ticks (d : Region) (a : Nat) : Nat → ℝ := if d.Weighted then weightTicks (d.weights.getD a []) else evenTicks 2

/-- The bilinear (trilinear) map from the unit square (cube) to the region. -/
def Region.place (ndim : Nat) (d : Region) (p : List ℝ) : List ℝ := isoMap (2 ^ ndim) ndim d.at_ (p.map fun x => 2 * x - 1)

/-- `M'` is the mesh `M` with the points in another order; the numbers in the lists of marked edges and faces, however, are those of `M`. -/
structure Reordered (M M' : Mesh ℝ) : Prop where
  cells : geomCells M' = geomCells M
  ndim : M'.ndim = M.ndim
  points : (M'.points.map fun p => (p.coords, p.marker)).Perm (M.points.map fun p => (p.coords, p.marker))
  ids : ∀ (i : Nat) p, M'.points[i]? = some p → p.id = i
  edges : M'.markedEdges = M.markedEdges
  faces : M'.markedFaces = M.markedFaces

end
end Gemlab.Structured
