import Verif.Model.Features

/-!
# Model of further queries of `Features`

`/repo/src/mesh/features.rs`, `edges.rs`, `faces.rs`. `Edges`/`Faces` (lists of references to edges or faces) are lists of features.
-/
namespace Gemlab.Mesh
open Gemlab.Shapes
noncomputable section

/-- `.get(key).ok_or("INTERNAL ERROR")` — features.rs:917-921, 950-954. -/
def lookup {Key : Type} [DecidableEq Key] (map : HMap Key Feature) (key : Key) : Res Feature :=
  match map.get key with
  | some f => .ok f
  | none => .err "INTERNAL ERROR: data is inconsistent"

/-- `Features::search_edges` — features.rs:910-927. -/
def Features.searchEdges (f : Features) (go : GridOrders) (a : At) (filter : List ℝ → Bool) : Res (List Feature) := do
  let keys ← f.searchEdgeKeys go a filter
  keys.mapM (lookup f.edges)

/-- `Features::search_faces` — features.rs:943-960. -/
def Features.searchFaces (f : Features) (go : GridOrders) (a : At) (filter : List ℝ → Bool) : Res (List Feature) := do
  let keys ← f.searchFaceKeys go a filter
  keys.mapM (lookup f.faces)

/-- `Features::search_many_edges` — features.rs:977-1002. -/
def Features.searchManyEdges (f : Features) (go : GridOrders) (ats : List At) (filter : List ℝ → Bool) : Res (List Feature) := do
  let found ← ats.mapM fun a => f.searchEdgeKeys go a filter
  (found.flatten.dedup.insertionSort edgeKeyLe).mapM (lookup f.edges)

/-- `Features::search_many_faces` — features.rs:1019-1044. -/
def Features.searchManyFaces (f : Features) (go : GridOrders) (ats : List At) (filter : List ℝ → Bool) : Res (List Feature) := do
  let found ← ats.mapM fun a => f.searchFaceKeys go a filter
  (found.flatten.dedup.insertionSort faceKeyLe).mapM (lookup f.faces)

/-- `Features::search_features_2d` — features.rs:1060-1126. -/
def Features.searchFeatures2d (f : Features) (go : GridOrders) (cellsByPoints : Bool) (a : At) (filter : List ℝ → Bool) :
    Res (List Nat × List Nat × List Feature) :=
  if f.mesh.ndim ≠ 2 then .err "search_features_2d works in 2D only"
  else do
    let ids ← f.searchPointIds go a filter
    let accept : EdgeKey → Bool := fun k => ids.contains k.1 && ids.contains k.2
    let keys := collectKeys f.pointToEdges accept ids
    let cellIds := (ids.flatMap fun p => (((f.pointToEdges.get p).getD []).filter fun k => cellsByPoints || accept k).flatMap fun k =>
      ((f.all2dEdges.get k).getD []).map (·.1)).dedup
    let edges ← (keys.insertionSort edgeKeyLe).mapM (lookup f.edges)
    pure (ids, cellIds.insertionSort (· ≤ ·), edges)

/-- `Features::get_cells_via_2d_edge` — features.rs:344-349. -/
def Features.getCellsVia2dEdge (f : Features) (edge : Feature) : Res (List Nat) := do
  let key ← edge.edgeKey
  let cells ← unwrap (f.all2dEdges.get key)
  pure ((cells.map (·.1)).insertionSort (· ≤ ·))

/-- `Features::get_cells_via_face` — features.rs:384-389. -/
def Features.getCellsViaFace (f : Features) (face : Feature) : Res (List Nat) := do
  let key ← face.faceKey
  let cells ← unwrap (f.allFaces.get key)
  pure ((cells.map (·.1)).insertionSort (· ≤ ·))

/-- `Features::get_cells_via_2d_edges` — features.rs:420-424. -/
def Features.getCellsVia2dEdges (f : Features) (edges : List Feature) : Res (List Nat) := do
  let ids ← edges.mapM f.getCellsVia2dEdge
  pure (ids.flatten.insertionSort (· ≤ ·))

/-- `Features::get_cells_via_faces` — features.rs:467-471. -/
def Features.getCellsViaFaces (f : Features) (faces : List Feature) : Res (List Nat) := do
  let ids ← faces.mapM f.getCellsViaFace
  pure (ids.flatten.insertionSort (· ≤ ·))

/-- `Features::get_points_via_2d_edges` — features.rs:504-509, `get_points_via_faces` — features.rs:512-517, `Edges::all_points` —
edges.rs:267-278 and `Faces::all_points` — faces.rs:82-93: the sorted set of the points. -/
def allPoints (features : List Feature) : List Nat := (features.flatMap (·.points)).dedup.insertionSort (· ≤ ·)

/-- `Features::search_marked_edges` — features.rs:671-675 (the values of the map in the order `iter`, filtered, and sorted by key;
the keys are computed before sorting here: `sort_by_key` calls `key()` on every edge when there are at least two). -/
def Features.searchMarkedEdges (f : Features) (iter : List (EdgeKey × Feature) → List (EdgeKey × Feature)) (marker : Int) :
    Res (List Feature) := do
  let sel := ((iter f.edges).map (·.2)).filter fun e => e.marker = marker
  let keyed ← sel.mapM fun e => do
    let k ← e.edgeKey
    pure (k, e)
  pure ((keyed.insertionSort fun a b => edgeKeyLe a.1 b.1).map (·.2))

/-- `Features::search_marked_faces` — features.rs:680-684. -/
def Features.searchMarkedFaces (f : Features) (iter : List (FaceKey × Feature) → List (FaceKey × Feature)) (marker : Int) :
    Res (List Feature) := do
  let sel := ((iter f.faces).map (·.2)).filter fun e => e.marker = marker
  let keyed ← sel.mapM fun e => do
    let k ← e.faceKey
    pure (k, e)
  pure ((keyed.insertionSort fun a b => faceKeyLe a.1 b.1).map (·.2))

/-- `Features::get_boundary_edges` — features.rs:606-632 (in an unspecified order). -/
def Features.getBoundaryEdges (f : Features) : Res (List EdgeKey) :=
  if f.mesh.ndim = 2 then pure ((f.all2dEdges.filter fun e => e.2.length == 1).map (·.1))
  else f.faces.foldlM (fun set e => do
    let shares ← unwrap (f.allFaces.get e.1)
    if shares.length = 1 then
      (List.range e.2.kind.nedge).foldlM (fun set j => do
        let a ← Res.idx e.2.points (edgeNode e.2.kind j 0)
        let b ← Res.idx e.2.points (edgeNode e.2.kind j 1)
        let p ← Res.idx f.mesh.points a
        let q ← Res.idx f.mesh.points b
        pure (HSet.insert set (sort2 p.id q.id))) set
    else pure set) []

end
end Gemlab.Mesh
