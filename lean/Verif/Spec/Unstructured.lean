import Verif.Model.Unstructured
import Verif.Spec.Features
import Verif.Spec.GraphSource

/-!
# What the mesh generators do, and what they must be given

`tritet` is not part of the repository: its functions are parameters of the model. The *contract* assumed in the theorems says that
the setters, called with indices in the range, succeed and write down the data in the given place (and nothing else). Nothing is
assumed about the algorithms of the generators; the shape of the output arrays is an explicit hypothesis (`GoodOutput`).
-/
namespace Gemlab.Unstructured
open Gemlab.Mesh Gemlab.Shapes

variable {T : Type}

/-! ## Contracts -/

/-- The data written down by a `Trigen`; a place not yet written is `none`. -/
@[ext] structure TriInput where
  /-- marker, x, y -/
  points : List (Option (Int × ℝ × ℝ))
  /-- marker and the two points -/
  segments : List (Option (Int × Nat × Nat))
  /-- marker, x, y, maximum area -/
  regions : List (Option (Int × ℝ × ℝ × Option ℝ))
  holes : List (Option (ℝ × ℝ))

/-- The contract of the functions that prepare the input of `Trigen`. -/
structure Trigen.Contract (lib : Trigen T) (view : T → TriInput) : Prop where
  newNoPanic : ∀ n s r h, lib.new n s r h ≠ .panic
  new : ∀ n s r h t, lib.new n s r h = .ok t →
    view t = ⟨List.replicate n none, List.replicate (s.getD 0) none, List.replicate (r.getD 0) none, List.replicate (h.getD 0) none⟩
  setPoint : ∀ t i mk x y, i < (view t).points.length →
    ∃ t', lib.setPoint t i mk x y = .ok t' ∧ view t' = { view t with points := (view t).points.set i (some (mk, x, y)) }
  setSegment : ∀ t i mk a b, i < (view t).segments.length → a < (view t).points.length → b < (view t).points.length →
    ∃ t', lib.setSegment t i mk a b = .ok t' ∧ view t' = { view t with segments := (view t).segments.set i (some (mk, a, b)) }
  setRegion : ∀ t i mk x y w, i < (view t).regions.length →
    ∃ t', lib.setRegion t i mk x y w = .ok t' ∧ view t' = { view t with regions := (view t).regions.set i (some (mk, x, y, w)) }
  setHole : ∀ t i x y, i < (view t).holes.length →
    ∃ t', lib.setHole t i x y = .ok t' ∧ view t' = { view t with holes := (view t).holes.set i (some (x, y)) }

/-- The output arrays of `Trigen` describe a mesh with at least two points and one cell, whose cells have the right number of nodes. -/
structure Trigen.GoodOutput (lib : Trigen T) (t : T) (o2 : Bool) : Prop where
  npoint : 2 ≤ lib.outNpoint t
  ncell : 1 ≤ lib.outNcell t
  nnode : lib.outCellNpoint t = if o2 then 6 else 3
  range : ∀ i < lib.outNcell t, ∀ m < lib.outCellNpoint t, lib.outCellPoint t i m < lib.outNpoint t

/-- The data written down by a `Tetgen`. A facet is its marker and its points. -/
@[ext] structure TetInput where
  points : List (Option (Int × ℝ × ℝ × ℝ))
  facets : List (Option Int × List (Option Nat))
  regions : List (Option (Int × ℝ × ℝ × ℝ × Option ℝ))
  holes : List (Option (ℝ × ℝ × ℝ))

/-- The contract of the functions that prepare the input of `Tetgen`. -/
structure Tetgen.Contract (lib : Tetgen T) (view : T → TetInput) : Prop where
  newNoPanic : ∀ n s r h, lib.new n s r h ≠ .panic
  new : ∀ n s r h t, lib.new n s r h = .ok t →
    view t = ⟨List.replicate n none, (s.getD []).map fun k => (none, List.replicate k none), List.replicate (r.getD 0) none,
      List.replicate (h.getD 0) none⟩
  setPoint : ∀ t i mk x y z, i < (view t).points.length →
    ∃ t', lib.setPoint t i mk x y z = .ok t' ∧ view t' = { view t with points := (view t).points.set i (some (mk, x, y, z)) }
  setFacetMarker : ∀ t i mk, i < (view t).facets.length →
    ∃ t', lib.setFacetMarker t i mk = .ok t' ∧ view t' = { view t with facets := (view t).facets.modify i fun f => (some mk, f.2) }
  setFacetPoint : ∀ t i m p, (∃ f, (view t).facets[i]? = some f ∧ m < f.2.length) → p < (view t).points.length →
    ∃ t', lib.setFacetPoint t i m p = .ok t' ∧
      view t' = { view t with facets := (view t).facets.modify i fun f => (f.1, f.2.set m (some p)) }
  setRegion : ∀ t i mk x y z w, i < (view t).regions.length →
    ∃ t', lib.setRegion t i mk x y z w = .ok t' ∧ view t' = { view t with regions := (view t).regions.set i (some (mk, x, y, z, w)) }
  setHole : ∀ t i x y z, i < (view t).holes.length →
    ∃ t', lib.setHole t i x y z = .ok t' ∧ view t' = { view t with holes := (view t).holes.set i (some (x, y, z)) }

/-- The output arrays of `Tetgen`. A call that reads a marked face leaves six numbers in the buffer; the corners (and, for quadratic
cells, the middle points) of the face are points of the mesh. -/
structure Tetgen.GoodOutput (lib : Tetgen T) (t : T) (o2 : Bool) : Prop where
  npoint : 2 ≤ lib.outNpoint t
  ncell : 1 ≤ lib.outNcell t
  nnode : lib.outCellNpoint t = if o2 then 10 else 4
  range : ∀ i < lib.outNcell t, ∀ m < lib.outCellNpoint t, lib.outCellPoint t i m < lib.outNpoint t
  face : ∀ i < lib.outNMarkedFace t, ∀ buf : List Nat, buf.length = 6 → (lib.outMarkedFace t i buf).2.length = 6
  faceRange : ∀ i < lib.outNMarkedFace t, ∀ buf : List Nat, buf.length = 6 → ∀ m < (if o2 then 6 else 3), ∀ q,
    (lib.outMarkedFace t i buf).2[m]? = some q → q < lib.outNpoint t
  /-- the points of the face do not depend on the old contents of the buffer -/
  faceBuffer : ∀ i < lib.outNMarkedFace t, ∀ buf buf' : List Nat, buf.length = 6 → buf'.length = 6 →
    (lib.outMarkedFace t i buf).1 = (lib.outMarkedFace t i buf').1 ∧
    ∀ m < (if o2 then 6 else 3), (lib.outMarkedFace t i buf).2[m]? = (lib.outMarkedFace t i buf').2[m]?

/-! ## The mesh given by the output arrays -/

/-- The mesh of the output arrays of `Trigen`: same points, markers, cells, and the segments with a nonzero marker as marked edges. -/
noncomputable def triMesh (lib : Trigen T) (t : T) (kind : GeoKind) : Mesh ℝ where
  ndim := 2
  points := (List.range (lib.outNpoint t)).map fun i => ⟨i, lib.outPointMarker t i, [lib.outPoint t i 0, lib.outPoint t i 1]⟩
  cells := (List.range (lib.outNcell t)).map fun i => ⟨i, lib.outCellMarker t i, kind, (List.range kind.nnode).map (lib.outCellPoint t i)⟩
  markedEdges := ((List.range (lib.outNsegment t)).filter fun i => lib.outSegmentMarker t i ≠ 0).map fun i =>
    (lib.outSegmentMarker t i, lib.outSegmentPoint t i 0, lib.outSegmentPoint t i 1)
  markedFaces := []

/-- The marker of a point: TetGen's own marker `1` of boundary points is removed. -/
def tetMarker (mk : Int) : Int := if mk = 1 then 0 else mk

/-- Marker and points of the marked face `i` in the output of `Tetgen`. -/
def outFace (lib : Tetgen T) (t : T) (i : Nat) : Int × List Nat := lib.outMarkedFace t i (List.replicate 6 0)

/-- The mesh of the output arrays of `Tetgen`, with the faces with a nonzero marker as marked faces (of three points). -/
noncomputable def tetMesh (lib : Tetgen T) (t : T) (kind : GeoKind) : Mesh ℝ where
  ndim := 3
  points := (List.range (lib.outNpoint t)).map fun i =>
    ⟨i, tetMarker (lib.outPointMarker t i), [lib.outPoint t i 0, lib.outPoint t i 1, lib.outPoint t i 2]⟩
  cells := (List.range (lib.outNcell t)).map fun i => ⟨i, lib.outCellMarker t i, kind, (List.range kind.nnode).map (lib.outCellPoint t i)⟩
  markedEdges := []
  markedFaces := ((List.range (lib.outNMarkedFace t)).filter fun i => (outFace lib t i).1 ≠ 0).map fun i =>
    ((outFace lib t i).1, (outFace lib t i).2.getD 0 0, (outFace lib t i).2.getD 1 0, (outFace lib t i).2.getD 2 0, usizeMax)

/-- The mesh after the optional renumbering: the points are permuted (with their markers and coordinates) and the cells refer to the
new numbers; everything else, including the lists of marked edges and faces, is the same. -/
structure IsRenumbered (m m' : Mesh ℝ) : Prop where
  ndim : m'.ndim = m.ndim
  marked : m'.markedEdges = m.markedEdges ∧ m'.markedFaces = m.markedFaces
  perm : ∃ map : List Nat, map.Perm (List.range m.points.length) ∧ m'.points.length = m.points.length ∧
    (∀ (i : Nat) (p : Point ℝ) (j : Nat), m.points[i]? = some p → map[i]? = some j → m'.points[j]? = some ⟨j, p.marker, p.coords⟩) ∧
    m'.cells = m.cells.map fun c => { c with points := c.points.map fun q => map.getD q 0 }

/-- The result `r` of a generator that ends with the mesh `m` and the optional renumbering. Renumbering may return an error; it does not
panic if the points of the mesh are connected through the cells. -/
def Ends (renumber : Bool) (m : Mesh ℝ) (r : Res (Mesh ℝ)) : Prop :=
  if renumber then (∀ m', r = .ok m' → IsRenumbered m m') ∧
    (Spec.Connected (Spec.Source.mesh m.points.length (m.cells.map (·.points))).Adj m.points.length → r ≠ .panic)
  else r = .ok m

/-! ## Planar straight line graph -/

/-- The mean of a coordinate over a list of points. -/
noncomputable def meanCoord (m : Mesh ℝ) (ps : List Nat) (d : Nat) : ℝ := (ps.map fun p => (coordsOf m p).getD d 0).sum / (ps.length : ℝ)

/-- The input of the generator for a 2D mesh: its points; every edge of its 2D cells exactly once, in increasing order of the pairs
of end points, with the marker of the edge and with the points in the order of the first cell that has this edge; a region for each
cell, at the mean of its points; the holes. -/
structure IsPslg (m : Mesh ℝ) (holes : List (ℝ × ℝ)) (maxAreas : Option (HMap Int ℝ)) (v : TriInput) : Prop where
  points : v.points = m.points.map fun p => some (p.marker, p.coords.getD 0 0, p.coords.getD 1 0)
  segments : ∃ keys : List (Nat × Nat), keys.Pairwise (fun k k' => k.1 < k'.1 ∨ k.1 = k'.1 ∧ k.2 < k'.2) ∧
    (∀ key, key ∈ keys ↔ ∃ c e, HasEdge m key c e) ∧ v.segments.length = keys.length ∧
    ∀ (i : Nat) (key : Nat × Nat), keys[i]? = some key → ∃ c e cell a b, IsFirst (HasEdge m key) c e ∧ m.cells[c]? = some cell ∧
      cell.points[edgeNode cell.kind e 0]? = some a ∧ cell.points[edgeNode cell.kind e 1]? = some b ∧
      v.segments[i]? = some (some (edgeMarker m key, a, b))
  regions : v.regions = m.cells.map fun c => some (c.marker, meanCoord m c.points 0, meanCoord m c.points 1, maxAreas.bind fun ma => ma.get c.marker)
  holes : v.holes = holes.map some

/-- `p` is an end point of an edge of a 2D cell. -/
def EdgeEnd (m : Mesh ℝ) (p : Nat) : Prop := ∃ key c e, HasEdge m key c e ∧ (p = key.1 ∨ p = key.2)

/-- The end points of the edges are not all on a line parallel to an axis. -/
def EdgesSpread (m : Mesh ℝ) : Prop := ∀ i < 2, ∃ p q, EdgeEnd m p ∧ EdgeEnd m q ∧ (coordsOf m p).getD i 0 < (coordsOf m q).getD i 0

/-! ## Piecewise linear complex -/

/-- The input of the generator for a 3D mesh: its points; a facet for each 2D cell, then a facet for each face of the 3D cells exactly
once, in increasing order of the keys of the faces, with the points in the order of the first cell that has this face; the given
regions and holes. -/
structure IsPlc (m : Mesh ℝ) (regions : List (Int × ℝ × ℝ × ℝ)) (holes : List (ℝ × ℝ × ℝ)) (maxVolumes : Option (HMap Int ℝ)) (v : TetInput) : Prop where
  points : v.points = m.points.map fun p => some (p.marker, p.coords.getD 0 0, p.coords.getD 1 0, p.coords.getD 2 0)
  facets : ∃ (shells : List Cell) (keys : List (Nat × Nat × Nat × Nat)),
    shells = m.cells.filter (fun c => c.kind.ndim = 2) ∧
    keys.Pairwise (fun k k' => k.1 < k'.1 ∨ k.1 = k'.1 ∧ (k.2.1 < k'.2.1 ∨ k.2.1 = k'.2.1 ∧ (k.2.2.1 < k'.2.2.1 ∨
      k.2.2.1 = k'.2.2.1 ∧ k.2.2.2 < k'.2.2.2))) ∧
    (∀ key, key ∈ keys ↔ ∃ c f, HasFace m key c f) ∧
    v.facets.length = shells.length + keys.length ∧
    (∀ (i : Nat) (c : Cell), shells[i]? = some c → v.facets[i]? = some (some c.marker, c.points.map some)) ∧
    ∀ (i : Nat) (key : Nat × Nat × Nat × Nat), keys[i]? = some key → ∃ c k f, IsFirst (HasFace m key) c k ∧ FaceOf m c k f ∧
      v.facets[shells.length + i]? = some (some (faceMarker m key), f.points.map some)
  regions : v.regions = regions.map fun r => some (r.1, r.2.1, r.2.2.1, r.2.2.2, maxVolumes.bind fun ma => ma.get r.1)
  holes : v.holes = holes.map some

/-- `p` is a point of a 2D cell, or one of the first three points (corners) of a face of a 3D cell. -/
def FacetPoint (m : Mesh ℝ) (p : Nat) : Prop :=
  (∃ cell ∈ m.cells, cell.kind.ndim = 2 ∧ p ∈ cell.points) ∨
  ∃ cell ∈ m.cells, cell.kind.ndim = 3 ∧ ∃ f < cell.kind.nface, ∃ i < 3, cell.points[faceNode cell.kind f i]? = some p

/-- These points are not all on a plane normal to an axis. -/
def FacetsSpread (m : Mesh ℝ) : Prop := ∀ i < 3, ∃ p q, FacetPoint m p ∧ FacetPoint m q ∧ (coordsOf m p).getD i 0 < (coordsOf m q).getD i 0

/-! ## The quarter of a ring -/

/-- The point `j` of the closed polygon of a quarter of a ring: along the x-axis from A to C, along the outer circle to D, down the y-axis
to B, along the inner circle back to A. -/
structure IsRingPoint (rmin rmax : ℝ) (nr na : Nat) (pos : Nat → ℝ × ℝ) : Prop where
  bottom : ∀ j ≤ nr, pos j = (rmin + (j : ℝ) * ((rmax - rmin) / nr), 0)
  outer : ∀ j ≤ na, pos (nr + j) = (rmax * Real.cos ((j : ℝ) / na * (Real.pi / 2)), rmax * Real.sin ((j : ℝ) / na * (Real.pi / 2)))
  left : ∀ j ≤ nr, pos (nr + na + j) = (0, rmax - (j : ℝ) * ((rmax - rmin) / nr))
  inner : ∀ j ≤ na, pos ((nr + na + nr + j) % (2 * nr + 2 * na)) =
    (rmin * Real.cos ((1 - (j : ℝ) / na) * (Real.pi / 2)), rmin * Real.sin ((1 - (j : ℝ) / na) * (Real.pi / 2)))

/-- The marker of the point `j` of this polygon: only the corners have one. -/
def ringCorner (nr na j : Nat) : Int :=
  if j = 0 then -1 else if j = nr then -3 else if j = nr + na then -4 else if j = nr + na + nr then -2 else 0

/-- The marker of the side `j` (from the point `j` to the next one) of this polygon. -/
def ringSide (nr na j : Nat) : Int :=
  if j < nr then -7 else if j < nr + na then -6 else if j < nr + na + nr then -8 else -5

/-- The input of the generator for a quarter of a ring: the closed polygon and a region with the marker 1 near A. -/
structure IsRing2d (rmin rmax : ℝ) (nr na : Nat) (v : TriInput) : Prop where
  points : ∃ pos : Nat → ℝ × ℝ, IsRingPoint rmin rmax nr na pos ∧
    v.points = (List.range (2 * nr + 2 * na)).map fun j => some (ringCorner nr na j, (pos j).1, (pos j).2)
  segments : v.segments = (List.range (2 * nr + 2 * na)).map fun j => some (ringSide nr na j, j, (j + 1) % (2 * nr + 2 * na))
  regions : v.regions = [some (1, rmin + 1 / 10 ^ 4, 1 / 10 ^ 4, none)]
  holes : v.holes = []

/-- The facets of a quarter of a ring in 3D (marker and points): the caps at the bottom (points `0 … n - 1`) and at the top (points `n … 2 n - 1`),
the facets on y=0 and x=0, the facets of the inner cylinder and those of the outer cylinder. -/
def ringFacet (nr na k : Nat) : Int × List Nat :=
  let n := 2 * nr + 2 * na
  if k = 0 then (-9, List.range n)
  else if k = 1 then (-10, (List.range n).map (n + ·))
  else if k = 2 then (-7, List.range (nr + 1) ++ (List.range (nr + 1)).map fun i => n + (nr - i))
  else if k = 3 then (-8, ((List.range (nr + 1)).map fun i => nr + na + (nr - i)) ++ (List.range (nr + 1)).map fun i => n + (nr + na + i))
  else if k < 4 + na then
    let a := nr + na + nr + (k - 4)
    (-5, [a, (a + 1) % n, n + (a + 1) % n, n + a])
  else
    let a := nr + (k - 4 - na)
    (-6, [a, a + 1, n + (a + 1), n + a])

/-- The input of the generator for a quarter of a ring in 3D: the polygon at the heights 0 and `thickness`, the facets, and a region near A. -/
structure IsRing3d (rmin rmax thickness : ℝ) (nr na : Nat) (v : TetInput) : Prop where
  points : ∃ pos : Nat → ℝ × ℝ, IsRingPoint rmin rmax nr na pos ∧
    v.points = ((List.range (2 * nr + 2 * na)).map fun j => some (ringCorner nr na j, (pos j).1, (pos j).2, (0 : ℝ))) ++
      (List.range (2 * nr + 2 * na)).map fun j => some (ringCorner nr na j, (pos j).1, (pos j).2, thickness)
  facets : v.facets = (List.range (4 + 2 * na)).map fun k => (some (ringFacet nr na k).1, (ringFacet nr na k).2.map some)
  regions : v.regions = [some (1, rmin + 1 / 10 ^ 4, 1 / 10 ^ 4, 1 / 10 ^ 4, none)]
  holes : v.holes = []

/-- The marker `f` of a point, given its first marker `m0` and the set `S` of the markers of the faces with this point: the greatest of
these markers, where `m0 = 0` does not count. -/
def IsRaisedMarker (S : Int → Prop) (m0 f : Int) : Prop :=
  ((¬ ∃ s, S s) → f = m0) ∧ ((∃ s, S s) → IsGreatest {s | S s ∨ (s = m0 ∧ m0 ≠ 0)} f)

/-- The point `q` is one of the first `n` points of the marked face `i`. -/
def FaceHas (lib : Tetgen T) (t : T) (n i q : Nat) : Prop := ∃ m < n, (outFace lib t i).2[m]? = some q

/-- The mesh `m'` is `m` with the markers of the points changed by the marked faces of `n` points. -/
structure IsRaised (lib : Tetgen T) (t : T) (n : Nat) (m m' : Mesh ℝ) : Prop where
  rest : m' = { m with points := m'.points }
  length : m'.points.length = m.points.length
  points : ∀ (q : Nat) (p : Point ℝ), m.points[q]? = some p → ∃ f, m'.points[q]? = some ⟨p.id, f, p.coords⟩ ∧
    IsRaisedMarker (fun s => ∃ i < lib.outNMarkedFace t, FaceHas lib t n i q ∧ s = (outFace lib t i).1) p.marker f

/-- Distance of a point to the z-axis (or to the origin in 2D). -/
noncomputable def axisDist (p : Point ℝ) : ℝ := √((p.coords.getD 0 0) ^ 2 + (p.coords.getD 1 0) ^ 2)

/-- `p'` is the point `p` after moving it along the ray from the axis until its distance to the axis is `r`; a point whose distance
already differs by at most `1e-15` stays. -/
def OnCircle (r : ℝ) (p p' : Point ℝ) : Prop :=
  p'.id = p.id ∧ p'.marker = p.marker ∧ p'.coords.length = p.coords.length ∧ (∀ (k : Nat), 2 ≤ k → p'.coords[k]? = p.coords[k]?) ∧
  ((p' = p ∧ |r - axisDist p| ≤ 1 / 10 ^ 15) ∨
    (axisDist p' = r ∧ p'.coords.getD 0 0 = r / axisDist p * p.coords.getD 0 0 ∧ p'.coords.getD 1 0 = r / axisDist p * p.coords.getD 1 0))

/-- The constraints: the points with the marker -5 are moved onto the circle of radius `rmin`, the points with the marker -6 onto the
circle of radius `rmax`, and nothing else changes. -/
structure IsConstrained (rmin rmax : ℝ) (m m' : Mesh ℝ) : Prop where
  rest : m' = { m with points := m'.points }
  points : List.Forall₂ (fun p p' => (p.marker = -5 → OnCircle rmin p p') ∧ (p.marker = -6 → OnCircle rmax p p') ∧
    (p.marker ≠ -5 → p.marker ≠ -6 → p' = p)) m.points m'.points

/-- No point to be moved is on the axis (where the direction of the motion is not defined). -/
def OffAxis (m : Mesh ℝ) : Prop := ∀ p ∈ m.points, p.marker = -5 ∨ p.marker = -6 → axisDist p ≠ 0

end Gemlab.Unstructured
