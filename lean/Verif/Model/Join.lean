import Verif.Model.Features

/-!
# Model of `/repo/src/mesh/join_meshes.rs`

The `unwrap_or`/`?` error messages are kept. The vector `map_old_to_new_point_id_b` is filled in the order of its indices, so it is
built by appending.
-/
namespace Gemlab.Mesh
open Gemlab.Shapes
noncomputable section

/-- Iteration orders of the hash maps used by `join_two_meshes` (`search`: of each container of the grid, given its key). -/
structure JoinOrders where
  features : Orders
  search : Option Nat → List (Nat × List ℝ) → List (Nat × List ℝ)
  edgeKeys : List EdgeKey → List EdgeKey
  faceKeys : List FaceKey → List FaceKey

structure JoinOrders.Valid (o : JoinOrders) : Prop where
  features : o.features.Valid
  search : ∀ k, IterOrder (o.search k)
  edgeKeys : IterOrder o.edgeKeys
  faceKeys : IterOrder o.faceKeys

/-- State of the renumbering loop: the points added so far, the next id and the map of ids. -/
structure JoinState where
  added : List (Point ℝ)
  next : Nat
  map : List Nat

/-- Body of the loop over the points of mesh B — join_meshes.rs:38-53. -/
def joinPoint (iter : Option Nat → List (Nat × List ℝ) → List (Nat × List ℝ)) (grid : GridSearch) (s : JoinState) (p : Point ℝ) : Res JoinState := do
  let outside ← GridSearch.isOutside grid p.coords
  let found ← if outside then pure none else GridSearch.search (iter (GridSearch.calcContainerKey grid p.coords)) grid p.coords
  match found with
  | some id => pure { s with map := s.map ++ [id] }
  | none => pure { added := s.added ++ [{ id := s.next, marker := p.marker, coords := p.coords }], next := s.next + 1,
                   map := s.map ++ [s.next] }

/-- Body of the loop over the cells of mesh B — join_meshes.rs:57-65. -/
def joinCell (map : List Nat) (s : List Cell × Nat) (c : Cell) : Res (List Cell × Nat) := do
  let pts ← c.points.mapM fun id => Res.idx map id
  pure (s.1 ++ [{ id := s.2, marker := c.marker, kind := c.kind, points := pts }], s.2 + 1)

/-- Insertion of a marker if the key is absent — join_meshes.rs:88-90, 99-101. -/
def insertAbsent {Key : Type} [DecidableEq Key] (h : HMap Key Int) (k : Key) (v : Int) : HMap Key Int :=
  if (h.get k).isNone then h.insert k v else h

/-- Rebuilt list: keys sorted, with their markers — join_meshes.rs:107-122. -/
def sortedMarks {Key : Type} [DecidableEq Key] (iter : List Key → List Key) (le : Key → Key → Prop) [DecidableRel le] (h : HMap Key Int) :
    Res (List (Int × Key)) :=
  if h.length > 0 then ((iter (h.map (·.1))).insertionSort le).mapM fun k => do
    let v ← unwrap (h.get k)
    pure (v, k)
  else pure []

/-- Key of a marked edge of mesh B — join_meshes.rs:83-86. -/
def joinEdgeKey (map : List Nat) (e : Int × Nat × Nat) : Res EdgeKey := do
  let p1 ← Res.idx map e.2.1
  let p2 ← Res.idx map e.2.2
  pure (sort2 p1 p2)

/-- Key of a marked face of mesh B — join_meshes.rs:93-98. (The fourth point of a triangular face is `usize::MAX`, out of range.) -/
def joinFaceKey (map : List Nat) (e : Int × Nat × Nat × Nat × Nat) : Res FaceKey := do
  let p1 ← Res.idx map e.2.1
  let p2 ← Res.idx map e.2.2.1
  let p3 ← Res.idx map e.2.2.2.1
  let p4 ← Res.idx map e.2.2.2.2
  pure (sort4 p1 p2 p3 p4)

/-- `join_two_meshes` — join_meshes.rs:17-127. -/
def joinTwoMeshes (o : JoinOrders) (a b : Mesh ℝ) : Res (Mesh ℝ) :=
  if a.ndim ≠ b.ndim then .err "meshes must have the same ndim"
  else do
    let boundary ← Features.new o.features a false
    let grid0 ← GridSearch.new boundary.min boundary.max none none none
    let grid ← a.points.foldlM (fun g p => GridSearch.insert g p.id p.coords) grid0
    let s ← b.points.foldlM (joinPoint o.search grid) { added := [], next := a.points.length, map := [] }
    let cells ← b.cells.foldlM (joinCell s.map) ([], a.cells.length)
    let edgesMap ← b.markedEdges.foldlM (fun h e => do
      let k ← joinEdgeKey s.map e
      pure (insertAbsent h k e.1)) (markedEdgesMap a)
    let facesMap ← b.markedFaces.foldlM (fun h e => do
      let k ← joinFaceKey s.map e
      pure (insertAbsent h k e.1)) (markedFacesMap a)
    let edges ← sortedMarks o.edgeKeys edgeKeyLe edgesMap
    let faces ← sortedMarks o.faceKeys faceKeyLe facesMap
    pure { ndim := a.ndim, points := a.points ++ s.added, cells := a.cells ++ cells.1, markedEdges := edges, markedFaces := faces }

/-- `join_meshes` — join_meshes.rs:139-149. -/
def joinMeshes (o : JoinOrders) : List (Mesh ℝ) → Res (Mesh ℝ)
  | a :: b :: rest => do
    let m ← joinTwoMeshes o a b
    rest.foldlM (joinTwoMeshes o) m
  | _ => .err "meshes.len() must be at least 2"

/-- `Mesh::check_overlapping_points` — check.rs:122-140 (the message is printed in Rust). `iter` gives the iteration order of each
container. -/
def checkOverlappingPoints (iter : Option Nat → List (Nat × List ℝ) → List (Nat × List ℝ)) (m : Mesh ℝ) (tol : ℝ) : Res Unit := do
  let lim ← getLimits f64Max (-f64Max) m
  let grid0 ← GridSearch.new lim.1 lim.2 none (some tol) none
  let grid ← m.points.foldlM (fun g p => GridSearch.insert g p.id p.coords) grid0
  m.points.forM fun p => do
    let found ← GridSearch.search (iter (GridSearch.calcContainerKey grid p.coords)) grid p.coords
    match found with
    | some id => if id ≠ p.id then .err "found overlapping points" else pure ()
    | none => pure ()

end
end Gemlab.Mesh
