import Verif.Model.Mesh
import Verif.Model.ShapeFns
import Verif.Model.GridSearch
import Verif.Lib.HMap
import Mathlib.Data.List.Dedup

/-!
# Model of the extraction and search of mesh features

`/repo/src/mesh/features.rs`, `edges.rs`, `faces.rs` and `/repo/src/mesh/algorithms/extract_*.rs`.

Hash maps are `HMap`, hash sets are duplicate-free lists; whenever the code iterates over one of them, the order is given by
an arbitrary function (`iter…`), about which theorems only assume that it permutes the entries. `Features::new` and the
searches use real coordinates (`GridSearch`), the extraction uses any linear order `K`.
-/
namespace Gemlab

/-- `entry(key).or_insert(Vec::new()).push(v)`. -/
def HMap.push {K V : Type} [DecidableEq K] (m : HMap K (List V)) (k : K) (v : V) : HMap K (List V) :=
  m.insert k ((m.get k).getD [] ++ [v])

/-- `HashSet::insert`. -/
def HSet.insert {K : Type} [DecidableEq K] (s : List K) (x : K) : List K := if x ∈ s then s else s ++ [x]

/-- `entry(key).or_insert(HashSet::new()).insert(v)`. -/
def HMap.addTo {K V : Type} [DecidableEq K] [DecidableEq V] (m : HMap K (List V)) (k : K) (v : V) : HMap K (List V) :=
  m.insert k (HSet.insert ((m.get k).getD []) v)

namespace Mesh
open Gemlab.Shapes

/-- `EdgeKey` — edges.rs:11. -/
abbrev EdgeKey := Nat × Nat
/-- `FaceKey` — faces.rs:12. -/
abbrev FaceKey := Nat × Nat × Nat × Nat

/-- `sort2` of `russell_lab`. -/
def sort2 (a b : Nat) : EdgeKey := if a > b then (b, a) else (a, b)

/-- `sort4` of `russell_lab` (a sorting network in `russell_lab`; here insertion sort). -/
def sort4 (a b c d : Nat) : FaceKey :=
  match [a, b, c, d].insertionSort (· ≤ ·) with
  | [a', b', c', d'] => (a', b', c', d')
  | _ => (a, b, c, d)

/-- `struct Edge` — edges.rs:17-26 and `struct Face` — faces.rs:18-27 (same fields). -/
structure Feature where
  kind : GeoKind
  points : List Nat
  marker : Int
  deriving DecidableEq

/-- `Option::unwrap`. -/
def unwrap {α : Type} : Option α → Res α
  | some a => .ok a
  | none => .panic

/-- `Edge::key` — edges.rs:30-34. -/
def Feature.edgeKey (f : Feature) : Res EdgeKey := do
  let a ← Res.idx f.points 0
  let b ← Res.idx f.points 1
  pure (sort2 a b)

/-- `Face::key` — faces.rs:31-39. -/
def Feature.faceKey (f : Feature) : Res FaceKey := do
  let a ← Res.idx f.points 0
  let b ← Res.idx f.points 1
  let c ← Res.idx f.points 2
  if f.points.length > 3 then do
    let d ← Res.idx f.points 3
    pure (sort4 a b c d)
  else pure (sort4 a b c usizeMax)

/-- Key of the local edge `e` of a cell (or face) of this kind with these points — extract_all_2d_edges.rs:23-27,
extract_features_3d.rs:86-90, features.rs:586-594. -/
def localEdgeKey (kind : GeoKind) (points : List Nat) (e : Nat) : Res EdgeKey := do
  let a ← Res.idx points (edgeNode kind e 0)
  let b ← Res.idx points (edgeNode kind e 1)
  pure (sort2 a b)

/-- Key of the local face `f` — extract_all_faces.rs:22-38. -/
def localFaceKey (kind : GeoKind) (points : List Nat) (f : Nat) : Res FaceKey := do
  let a ← Res.idx points (faceNode kind f 0)
  let b ← Res.idx points (faceNode kind f 1)
  let c ← Res.idx points (faceNode kind f 2)
  if kind.faceNnode > 3 then do
    let d ← Res.idx points (faceNode kind f 3)
    pure (sort4 a b c d)
  else pure (sort4 a b c usizeMax)

variable {K : Type}

/-- `extract_all_2d_edges` — extract_all_2d_edges.rs:17-34. -/
def extractAll2dEdges (m : Mesh K) : Res (HMap EdgeKey (List (Nat × Nat))) :=
  if m.ndim ≠ 2 then .panic
  else m.cells.foldlM (fun edges cell =>
    if cell.kind.ndim = 2 then
      (List.range cell.kind.nedge).foldlM (fun edges e => do
        let key ← localEdgeKey cell.kind cell.points e
        pure (edges.push key (cell.id, e))) edges
    else pure edges) []

/-- `extract_all_faces` — extract_all_faces.rs:16-45. -/
def extractAllFaces (m : Mesh K) : Res (HMap FaceKey (List (Nat × Nat))) :=
  if m.ndim ≠ 3 then .panic
  else m.cells.foldlM (fun faces cell =>
    if cell.kind.ndim = 3 then
      (List.range cell.kind.nface).foldlM (fun faces f => do
        let key ← localFaceKey cell.kind cell.points f
        pure (faces.push key (cell.id, f))) faces
    else pure faces) []

/-- Map from edge keys to markers — extract_features_2d.rs:19-24, extract_features_3d.rs:25-31. -/
def markedEdgesMap (m : Mesh K) : HMap EdgeKey Int :=
  m.markedEdges.foldl (fun h e => h.insert (sort2 e.2.1 e.2.2) e.1) []

/-- Map from face keys to markers — extract_features_3d.rs:26, 32-36. -/
def markedFacesMap (m : Mesh K) : HMap FaceKey Int :=
  m.markedFaces.foldl (fun h e => h.insert (sort4 e.2.1 e.2.2.1 e.2.2.2.1 e.2.2.2.2) e.1) []

/-- Results of the extraction. -/
structure Extracted (K : Type) where
  points : List Nat
  edges : HMap EdgeKey Feature
  faces : HMap FaceKey Feature
  limits : List K × List K

section
variable [LinearOrder K]

/-- `points.insert(id)` and the update of `min` and `max` — extract_features_2d.rs:56-60, extract_features_3d.rs:73-77,
features.rs:252-256. -/
def addPoint (m : Mesh K) (s : List Nat × (List K × List K)) (id : Nat) : Res (List Nat × (List K × List K)) := do
  let p ← Res.idx m.points id
  let mm ← updateLimits m.ndim p.coords s.2
  pure (HSet.insert s.1 id, mm)

/-- Body of the loop of `extract_features_2d` for an accepted edge — extract_features_2d.rs:44-64. (In the code, the list of
points, the set of points and the limits are updated in one loop over the nodes; here, one after the other.) -/
def addEdge2d (m : Mesh K) (s : Extracted K) (key : EdgeKey) (shared : List (Nat × Nat)) : Res (Extracted K) := do
  let ce ← Res.idx shared 0
  let cell ← Res.idx m.cells ce.1
  let kind ← unwrap cell.kind.edgeKind
  let pts ← (List.range cell.kind.edgeNnode).mapM fun i => Res.idx cell.points (edgeNode cell.kind ce.2 i)
  let pm ← pts.foldlM (addPoint m) (s.points, s.limits)
  pure { s with points := pm.1, limits := pm.2,
                edges := s.edges.insert key ⟨kind, pts, ((markedEdgesMap m).get key).getD 0⟩ }

/-- `extract_features_2d` — extract_features_2d.rs:11-69; `big` and `low` are `f64::MAX` and `f64::MIN`. -/
def extractFeatures2d (iter : List (EdgeKey × List (Nat × Nat)) → List (EdgeKey × List (Nat × Nat))) (big low : K) (m : Mesh K)
    (all : HMap EdgeKey (List (Nat × Nat))) (extractAll : Bool) : Res (Extracted K) :=
  if m.ndim ≠ 2 then .panic
  else (iter all).foldlM (fun s e => if extractAll || e.2.length == 1 then addEdge2d m s e.1 e.2 else pure s)
    { points := [], edges := [], faces := [], limits := (List.replicate m.ndim big, List.replicate m.ndim low) }

/-- Edge `e` of an accepted face, skipped when its key has been handled — extract_features_3d.rs:83-107. -/
def addFaceEdge (m : Mesh K) (kind : GeoKind) (pts : List Nat) (edges : HMap EdgeKey Feature) (e : Nat) :
    Res (HMap EdgeKey Feature) := do
  let key ← localEdgeKey kind pts e
  if (edges.get key).isSome then pure edges
  else do
    let ekind ← unwrap kind.edgeKind
    let epts ← (List.range kind.edgeNnode).mapM fun i => Res.idx pts (edgeNode kind e i)
    pure (edges.insert key ⟨ekind, epts, ((markedEdgesMap m).get key).getD 0⟩)

/-- Body of the loop of `extract_features_3d` for an accepted face — extract_features_3d.rs:60-110. -/
def addFace3d (m : Mesh K) (s : Extracted K) (key : FaceKey) (shared : List (Nat × Nat)) : Res (Extracted K) := do
  let cf ← Res.idx shared 0
  let cell ← Res.idx m.cells cf.1
  let kind ← unwrap cell.kind.faceKind
  let pts ← (List.range cell.kind.faceNnode).mapM fun i => Res.idx cell.points (faceNode cell.kind cf.2 i)
  let pm ← pts.foldlM (addPoint m) (s.points, s.limits)
  let edges ← (List.range kind.nedge).foldlM (addFaceEdge m kind pts) s.edges
  pure { points := pm.1, limits := pm.2, edges := edges,
         faces := s.faces.insert key ⟨kind, pts, ((markedFacesMap m).get key).getD 0⟩ }

/-- Order of face keys (lexicographic, as for Rust tuples). -/
def faceKeyLe (a b : FaceKey) : Prop :=
  a.1 < b.1 ∨ a.1 = b.1 ∧ (a.2.1 < b.2.1 ∨ a.2.1 = b.2.1 ∧ (a.2.2.1 < b.2.2.1 ∨ a.2.2.1 = b.2.2.1 ∧ a.2.2.2 ≤ b.2.2.2))
instance : DecidableRel faceKeyLe := fun a b => by unfold faceKeyLe; infer_instance

/-- Order of edge keys (lexicographic, as for Rust tuples). -/
def edgeKeyLe (a b : EdgeKey) : Prop := a.1 < b.1 ∨ a.1 = b.1 ∧ a.2 ≤ b.2
instance : DecidableRel edgeKeyLe := fun a b => by unfold edgeKeyLe; infer_instance

/-- `extract_features_3d` — extract_features_3d.rs:11-114; `iter` is the order in which the keys are collected before sorting. -/
def extractFeatures3d (iter : List FaceKey → List FaceKey) (big low : K) (m : Mesh K)
    (all : HMap FaceKey (List (Nat × Nat))) (extractAll : Bool) : Res (Extracted K) :=
  if m.ndim ≠ 3 then .panic
  else ((iter (all.map (·.1))).insertionSort faceKeyLe).foldlM (fun s key => do
      let shared ← unwrap (all.get key)
      if extractAll || shared.length == 1 then addFace3d m s key shared else pure s)
    { points := [], edges := [], faces := [], limits := (List.replicate m.ndim big, List.replicate m.ndim low) }

/-- Rods and shells: all their points are features — features.rs:247-260. -/
def addRodsAndShells (m : Mesh K) (s : List Nat × (List K × List K)) : Res (List Nat × (List K × List K)) :=
  m.cells.foldlM (fun s cell =>
    if cell.kind.ndim = 1 ∨ (cell.kind.ndim = 2 ∧ m.ndim = 3) then cell.points.foldlM (addPoint m) s else pure s) s

end

/-- Maps from points to edges or faces — features.rs:269-287. -/
def pointToFeatures {Key : Type} [DecidableEq Key] (entries : List (Key × Feature)) : HMap Nat (List Key) :=
  entries.foldl (fun h e => e.2.points.foldl (fun h p => h.addTo p e.1) h) []

/-- `Features::get_neighbors_2d` — features.rs:580-603, of a mesh `m` with the map `all` (field `all_2d_edges`). -/
def getNeighbors2d (m : Mesh K) (all : HMap EdgeKey (List (Nat × Nat))) (cellId : Nat) : Res (List (Nat × Nat × Nat)) :=
  if m.ndim ≠ 2 then .panic
  else do
    let cell ← Res.idx m.cells cellId
    (List.range cell.kind.nedge).foldlM (fun res e => do
      let key ← localEdgeKey cell.kind cell.points e
      let shares ← unwrap (all.get key)
      pure (res ++ (shares.filter (fun s => s.1 ≠ cellId)).map fun s => (e, s.1, s.2))) []

noncomputable section

/-- `f64::MAX`; `f64::MIN` is its negative. -/
def f64Max : ℝ := (2 - 1 / 2 ^ 52) * 2 ^ 1023

/-- `struct Features` — features.rs:134-205. -/
structure Features where
  mesh : Mesh ℝ
  all2dEdges : HMap EdgeKey (List (Nat × Nat))
  allFaces : HMap FaceKey (List (Nat × Nat))
  points : List Nat
  edges : HMap EdgeKey Feature
  faces : HMap FaceKey Feature
  cables : List Nat
  shells : List Nat
  min : List ℝ
  max : List ℝ
  grid : GridSearch
  pointToEdges : HMap Nat (List EdgeKey)
  pointToFaces : HMap Nat (List FaceKey)

/-- The iteration orders of the hash maps and sets used by `Features::new`. -/
structure Orders where
  edges2d : List (EdgeKey × List (Nat × Nat)) → List (EdgeKey × List (Nat × Nat))
  faceKeys : List FaceKey → List FaceKey
  points : List Nat → List Nat
  edges : List (EdgeKey × Feature) → List (EdgeKey × Feature)
  faces : List (FaceKey × Feature) → List (FaceKey × Feature)

/-- All of them permute. -/
structure Orders.Valid (o : Orders) : Prop where
  edges2d : IterOrder o.edges2d
  faceKeys : IterOrder o.faceKeys
  points : IterOrder o.points
  edges : IterOrder o.edges
  faces : IterOrder o.faces

/-- Maps and features of a mesh of either dimension — features.rs:226-245 (first part of `Features::new`). -/
def extract (o : Orders) (m : Mesh ℝ) (extractAll : Bool) :
    Res (HMap EdgeKey (List (Nat × Nat)) × HMap FaceKey (List (Nat × Nat)) × Extracted ℝ) :=
  if m.ndim = 2 then do
    let all ← extractAll2dEdges m
    let x ← extractFeatures2d o.edges2d f64Max (-f64Max) m all extractAll
    pure (all, [], x)
  else if m.ndim = 3 then do
    let all ← extractAllFaces m
    let x ← extractFeatures3d o.faceKeys f64Max (-f64Max) m all extractAll
    pure ([], all, x)
  else .panic

/-- `Result::unwrap`. -/
def unwrapRes {α : Type} : Res α → Res α
  | .ok a => .ok a
  | _ => .panic

/-- `grid.insert(*point_id, &mesh.points[*point_id].coords).unwrap()` for all points — features.rs:264-266. -/
def insertPoints (m : Mesh ℝ) (grid : GridSearch) (ids : List Nat) : Res GridSearch :=
  ids.foldlM (fun g id => do
    let p ← Res.idx m.points id
    unwrapRes (GridSearch.insert g id p.coords)) grid

/-- `Features::new` — features.rs:224-324. -/
def Features.new (o : Orders) (m : Mesh ℝ) (extractAll : Bool) : Res Features := do
  let (all2d, allF, x) ← extract o m extractAll
  let pm ← addRodsAndShells m (x.points, x.limits)
  let grid0 ← unwrapRes (GridSearch.new pm.2.1 pm.2.2 none none none)
  let grid ← insertPoints m grid0 (o.points pm.1)
  pure {
    mesh := m, all2dEdges := all2d, allFaces := allF, points := pm.1, edges := x.edges, faces := x.faces,
    cables := m.cells.filterMap fun c => if c.kind.ndim = 1 then some c.id else none
    shells := if m.ndim = 3 then m.cells.filterMap fun c => if c.kind.ndim = 2 then some c.id else none else []
    min := pm.2.1, max := pm.2.2, grid := grid,
    pointToEdges := pointToFeatures (o.edges x.edges),
    pointToFaces := pointToFeatures (o.faces x.faces) }

/-- `enum At` — enums.rs:3-33. -/
inductive At where
  | X (x : ℝ) | Y (y : ℝ) | Z (z : ℝ) | XY (x y : ℝ) | YZ (y z : ℝ) | XZ (x z : ℝ) | XYZ (x y z : ℝ)
  | Circle (x y r : ℝ) | Cylinder (ax ay az bx by' bz r : ℝ)

/-- The iteration orders of the two levels of hash maps of the grid. -/
structure GridOrders where
  outer : List (Nat × HMap Nat (List ℝ)) → List (Nat × HMap Nat (List ℝ))
  inner : List (Nat × List ℝ) → List (Nat × List ℝ)

/-- The `match at` of `Features::search_point_ids` — features.rs:704-793. -/
def searchGrid (go : GridOrders) (ndim : Nat) (g : GridSearch) (a : At) (filter : List ℝ → Bool) : Res (List Nat) :=
  match a with
  | .X x => if ndim = 2 then g.searchOnLine go.outer go.inner [x, 0] [x, 1] filter
            else g.searchOnPlane go.outer go.inner 0 x filter
  | .Y y => if ndim = 2 then g.searchOnLine go.outer go.inner [0, y] [1, y] filter
            else g.searchOnPlane go.outer go.inner 1 y filter
  | .Z z => if ndim = 2 then .err "At::Z works in 3D only" else g.searchOnPlane go.outer go.inner 2 z filter
  | .XY x y =>
    if ndim = 2 then do
      let r ← g.search go.inner [x, y]
      pure r.toList
    else g.searchOnLine go.outer go.inner [x, y, 0] [x, y, 1] filter
  | .YZ y z => if ndim = 2 then .err "At::YZ works in 3D only"
               else g.searchOnLine go.outer go.inner [0, y, z] [1, y, z] filter
  | .XZ x z => if ndim = 2 then .err "At::XZ works in 3D only"
               else g.searchOnLine go.outer go.inner [x, 0, z] [x, 1, z] filter
  | .XYZ x y z =>
    if ndim = 2 then .err "At::XYZ works in 3D only"
    else do
      let r ← g.search go.inner [x, y, z]
      pure r.toList
  | .Circle x y r => if ndim = 2 then g.searchOnCircle go.outer go.inner [x, y] r filter
                     else .err "At::Circle works in 2D only"
  | .Cylinder ax ay az bx by' bz r =>
    if ndim = 2 then .err "At::Cylinder works in 3D only"
    else g.searchOnCylinder go.outer go.inner [ax, ay, az] [bx, by', bz] r filter

/-- `Features::search_point_ids` — features.rs:700-800 (the `HashSet` and the final sort are `dedup` and insertion sort). -/
def Features.searchPointIds (f : Features) (go : GridOrders) (a : At) (filter : List ℝ → Bool) : Res (List Nat) := do
  let ids ← searchGrid go f.mesh.ndim f.grid a filter
  if ids.length = 0 then .err "cannot find any point with given constraints/filter"
  else pure (ids.dedup.insertionSort (· ≤ ·))

/-- Keys collected from the points found — features.rs:823-834, 867-886 (`accept` is the test on the points of the key). -/
def collectKeys {Key : Type} [DecidableEq Key] (map : HMap Nat (List Key)) (accept : Key → Bool) (pointIds : List Nat) : List Key :=
  (pointIds.flatMap fun p => ((map.get p).getD []).filter accept).dedup

/-- `Features::search_edge_keys` — features.rs:816-841. -/
def Features.searchEdgeKeys (f : Features) (go : GridOrders) (a : At) (filter : List ℝ → Bool) : Res (List EdgeKey) := do
  let ids ← f.searchPointIds go a filter
  let keys := collectKeys f.pointToEdges (fun k => ids.contains k.1 && ids.contains k.2) ids
  if keys.length = 0 then .err "cannot find any edge with given constraints/filter"
  else pure (keys.insertionSort edgeKeyLe)

/-- `Features::search_face_keys` — features.rs:857-894. -/
def Features.searchFaceKeys (f : Features) (go : GridOrders) (a : At) (filter : List ℝ → Bool) : Res (List FaceKey) :=
  if f.mesh.ndim ≠ 3 then .err "cannot find face keys in 2D"
  else do
    let ids ← f.searchPointIds go a filter
    let keys := collectKeys f.pointToFaces (fun k => ids.contains k.1 && ids.contains k.2.1 && ids.contains k.2.2.1 &&
      (decide (k.2.2.2 = usizeMax) || ids.contains k.2.2.2)) ids
    if keys.length = 0 then .err "cannot find any face with given constraints/filter"
    else pure (keys.insertionSort faceKeyLe)

end

end Mesh
end Gemlab
