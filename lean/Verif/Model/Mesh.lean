import Verif.Model.Res
import Verif.Model.GeoKind
import Verif.Model.GraphUnd
import Mathlib.Order.Defs.LinearOrder

/-!
# Model of `/repo/src/mesh/mesh.rs`, `/repo/src/mesh/check.rs` and `GraphUnd::renumber_mesh`

Coordinates (`f64`) are elements of a type `K`; the functions below only copy or compare them. Markers (`i32`) are integers
(without their range). A loop that mutates the mesh and may return early with an error is given as a function
returning the resulting mesh together with the outcome, so that partial updates remain visible. (After a panic the mesh is
not observable and the component is meaningless.)
-/
namespace Gemlab.Mesh
open Gemlab

/-- `Point` — mesh.rs:27-36. -/
structure Point (K : Type) where
  id : Nat
  marker : Int
  coords : List K
  deriving DecidableEq

/-- `Cell` — mesh.rs:40-54. -/
structure Cell where
  id : Nat
  marker : Int
  kind : GeoKind
  points : List Nat
  deriving DecidableEq

/-- `usize::MAX` on a 64-bit target, the fourth point of a marked triangular face. -/
def usizeMax : Nat := 2 ^ 64 - 1

/-- `Mesh` — mesh.rs:110-135. Marked edges are `(marker, p1, p2)`, marked faces are `(marker, p1, p2, p3, p4)`. -/
structure Mesh (K : Type) where
  ndim : Nat
  points : List (Point K)
  cells : List Cell
  markedEdges : List (Int × Nat × Nat)
  markedFaces : List (Int × Nat × Nat × Nat × Nat)
  deriving DecidableEq

variable {K : Type}

/-- `Mesh::new_zero_homogeneous` — mesh.rs:194-238. -/
def newZeroHomogeneous [Zero K] (spaceNdim npoint ncell : Nat) (kind : GeoKind) : Res (Mesh K) :=
  if spaceNdim < 2 || spaceNdim > 3 then .err "space_ndim must be 2 or 3"
  else if npoint < 2 then .err "npoint must be ≥ 2"
  else if ncell < 1 then .err "ncell must be ≥ 1"
  else if kind.ndim > spaceNdim then .err "geo_ndim cannot be greater than space_ndim"
  else .ok {
    ndim := spaceNdim
    points := (List.range npoint).map fun i => { id := i, marker := 0, coords := List.replicate spaceNdim 0 }
    cells := (List.range ncell).map fun i => { id := i, marker := 1, kind := kind, points := List.replicate kind.nnode 0 }
    markedEdges := []
    markedFaces := [] }

def msgNoMarkedPoint : String := "cannot find at least one point with the given mark (and filter)"

/-- `Mesh::search_marked_points` — mesh.rs:340-360. The sort is the (stable) insertion sort; sorting integers, the result does not
depend on the algorithm. The filter is a pure function (in Rust it may carry state). -/
def searchMarkedPoints (m : Mesh K) (marker : Int) (filter : List K → Bool) : Res (List Nat) :=
  let ids := m.points.filterMap fun p => if p.marker = marker && filter p.coords then some p.id else none
  if ids.length = 0 then .err msgNoMarkedPoint else .ok (ids.insertionSort (· ≤ ·))

/-- `Mesh::search_first_marked_point` — mesh.rs:429-439. -/
def searchFirstMarkedPoint (m : Mesh K) (marker : Int) (filter : List K → Bool) : Res Nat :=
  match m.points.find? (fun p => p.marker = marker && filter p.coords) with
  | some p => .ok p.id
  | none => .err msgNoMarkedPoint

section Limits
variable [LinearOrder K]

/-- Body of the loops of `get_limits` and `get_cell_bounding_box` for one point: all `ndim` components — mesh.rs:478-481, 495-498. -/
def updateLimits (ndim : Nat) (coords : List K) (mm : List K × List K) : Res (List K × List K) :=
  (List.range ndim).foldlM (fun (mm : List K × List K) i => do
    let a ← Res.idx mm.1 i
    let b ← Res.idx mm.2 i
    let x ← Res.idx coords i
    let mn ← Res.setIdx mm.1 i (min a x)
    let mx ← Res.setIdx mm.2 i (max b x)
    pure (mn, mx)) mm

/-- `Mesh::get_limits` — mesh.rs:474-484; `big` and `low` stand for `f64::MAX` and `f64::MIN`. -/
def getLimits (big low : K) (m : Mesh K) : Res (List K × List K) :=
  m.points.foldlM (fun mm p => updateLimits m.ndim p.coords mm) (List.replicate m.ndim big, List.replicate m.ndim low)

/-- `Mesh::get_cell_bounding_box` — mesh.rs:489-501. -/
def getCellBoundingBox (big low : K) (m : Mesh K) (cellId : Nat) : Res (List K × List K) := do
  let cell ← Res.idx m.cells cellId
  cell.points.foldlM (fun mm p => do
    let pt ← Res.idx m.points p
    updateLimits m.ndim pt.coords mm) (List.replicate m.ndim big, List.replicate m.ndim low)

end Limits

/-- One selected point in `get_sorted_points`: id and sort key (z, y, x) or (y, x) — mesh.rs:560-571. -/
def sortKey (ndim : Nat) (c : List K) : Res (List K) := do
  let x ← Res.idx c 0
  let y ← Res.idx c 1
  if ndim = 3 then do
    let z ← Res.idx c 2
    pure [z, y, x]
  else pure [y, x]

/-- `Mesh::get_sorted_points` — mesh.rs:548-578. `argsort` stands for `argsort2_f64` / `argsort3_f64` of `russell_lab` (indices
that sort the keys lexicographically); the filter receives the key (in Rust `(x, y, z)`, `z = 0` in 2D). -/
def getSortedPoints (argsort : List (List K) → List Nat) (m : Mesh K) (pointIds : List Nat) (filter : List K → Bool) :
    Res (List Nat) := do
  let sel ← pointIds.foldlM (fun (acc : List (Nat × List K)) nid => do
    let p ← Res.idx m.points nid
    let key ← sortKey m.ndim p.coords
    pure (if filter key then acc ++ [(nid, key)] else acc)) []
  (argsort (sel.map Prod.snd)).mapM fun i => do
    let a ← Res.idx sel i
    pure a.1

/-! ## Renumbering -/

/-- `for k in 0..ndim { dst[k] = src[k] }` — mesh.rs:602-604. -/
def copyCoords (ndim : Nat) (src dst : List K) : Res (List K) :=
  (List.range ndim).foldlM (fun d k => do
    let v ← Res.idx src k
    Res.setIdx d k v) dst

/-- One pass of the loop over the old ids — mesh.rs:596-606. The state is (points of the mesh, updated flags). -/
def renumberStep (ndim : Nat) (orig : List (Point K)) (map : List Nat) (old : Nat) (s : List (Point K) × List Bool) :
    Res (List (Point K) × List Bool) := do
  let new ← Res.idx map old
  if orig.length ≤ new then .err "new point id is out of range" else do
    let src ← Res.idx orig old
    let dst ← Res.idx s.1 new
    let cs ← copyCoords ndim src.coords dst.coords
    let pts ← Res.setIdx s.1 new { id := new, marker := src.marker, coords := cs }
    let upd ← Res.setIdx s.2 new true
    pure (pts, upd)

/-- The loop; stops at the first error. -/
def renumberLoop (ndim : Nat) (orig : List (Point K)) (map : List Nat) : List Nat → List (Point K) × List Bool →
    (List (Point K) × List Bool) × Res Unit
  | [], s => (s, .ok ())
  | old :: rest, s =>
    match renumberStep ndim orig map old s with
    | .ok s' => renumberLoop ndim orig map rest s'
    | .err e => (s, .err e)
    | .panic => (s, .panic)

/-- `cell.points[i] = old_to_new[cell.points[i]]` for all points of all cells — mesh.rs:613-618. -/
def renumberCells (map : List Nat) (cells : List Cell) : Res (List Cell) :=
  cells.mapM fun c => do
    let ps ← c.points.mapM fun p => Res.idx map p
    pure { c with points := ps }

/-- `Mesh::renumber_points` — mesh.rs:589-620: the mesh afterwards and the outcome. -/
def renumberPoints (m : Mesh K) (map : List Nat) : Mesh K × Res Unit :=
  if map.length ≠ m.points.length then (m, .err "old_to_new.len() must be equal to the number of points")
  else
    let r := renumberLoop m.ndim m.points map (List.range m.points.length) (m.points, List.replicate m.points.length false)
    let m1 := { m with points := r.1.1 }
    match r.2 with
    | .ok _ =>
      if r.1.2.all id then
        match renumberCells map m.cells with
        | .ok cells => ({ m1 with cells := cells }, .ok ())
        | .err e => (m1, .err e)
        | .panic => (m1, .panic)
      else (m1, .err "not all points have been updated")
    | .err e => (m1, .err e)
    | .panic => (m1, .panic)

/-- `GraphUnd::renumber_mesh` — graph_und.rs:501-507. -/
def renumberMesh (m : Mesh K) (checkConnectivity : Bool) : Mesh K × Res Unit :=
  let r : Res (List Nat) := do
    let g ← GraphUnd.fromMesh m.points.length (m.cells.map (·.points)) true checkConnectivity
    let (_, ordering) ← GraphUnd.cuthillMckee g none
    GraphUnd.getOldToNewMap ordering
  match r with
  | .ok map => renumberPoints m map
  | .err e => (m, .err e)
  | .panic => (m, .panic)

/-! ## Check -/

/-- Loop over the points — check.rs:21-25. -/
def checkPointIds (points : List (Point K)) : Res Unit :=
  (List.range points.length).forM fun i => do
    let p ← Res.idx points i
    if p.id ≠ i then Res.err "incorrect point id found; ids must be sequential" else pure ()

/-- Loop over the cells — check.rs:26-38. -/
def checkCells (npoint : Nat) (cells : List Cell) : Res Unit :=
  (List.range cells.length).forM fun i => do
    let c ← Res.idx cells i
    if c.id ≠ i then Res.err "incorrect cell id found; ids must be sequential"
    else if c.points.length ≠ c.kind.nnode then Res.err "number of cell points does not correspond to kind.nnode()"
    else c.points.forM fun p =>
      if npoint ≤ p then Res.err "the id of a point specified in the points list of a cell is out of bounds" else pure ()

/-- `Mesh::check_ids_and_kind` — check.rs:19-40. -/
def checkIdsAndKind (m : Mesh K) : Res Unit := do
  checkPointIds m.points
  checkCells m.points.length m.cells

end Gemlab.Mesh
