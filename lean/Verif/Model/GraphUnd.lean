import Verif.Model.Res
import Mathlib.Data.List.Sort

/-!
# Model of `/repo/src/graph/graph_und.rs` (undirected graph)

* `Vec<T>` is `List T`; `usize` is `Nat`; `VecDeque` is `List` (front first).
* `HashSet<usize>` is a duplicate-free `List Nat`, whose order stands for the (arbitrary) iteration order.
* The sentinel `usize::MAX` in `parent` is `none`.
* Out-of-range indexing is `Res.panic`.
-/
namespace Gemlab.GraphUnd

open Gemlab

/-- `struct GraphUnd`, graph_und.rs:24-58. -/
structure Graph where
  adjacency : List (List Nat)
  queue : List Nat
  explored : List Bool
  nedge : Nat
  degree : List Nat
  pMinDegree : Nat
  distance : List Nat
  parent : List (Option Nat)
  deriving DecidableEq, Repr

/-- State of the breadth-first loop shared by four functions (graph_und.rs:71-86, 241-258, 284-300, 335-347):
the `explored` flags, the `queue`, and the data `σ` updated when a node is discovered. -/
structure Bfs (σ : Type) where
  explored : List Bool
  queue : List Nat
  data : σ

/-- The inner `for b in &adjacency[a] { if !explored[*b] { explored[*b] = true; queue.push_back(*b); … } }`
(graph_und.rs:76-81, 245-252, 288-295, 339-345). `visit a b` stands for the `…`, the only part in which
the four loops differ. -/
def visitRow {σ : Type} (visit : Nat → Nat → σ → Res σ) (a : Nat) : List Nat → Bfs σ → Res (Bfs σ)
  | [], s => .ok s
  | b :: bs, s =>
    match s.explored[b]? with
    | none => .panic
    | some true => visitRow visit a bs s
    | some false =>
      match visit a b s.data with
      | .ok d => visitRow visit a bs { explored := s.explored.set b true, queue := s.queue ++ [b], data := d }
      | .err m => .err m
      | .panic => .panic

theorem count_false_set (l : List Bool) (b : Nat) (h : l[b]? = some false) :
    (l.set b true).count false + 1 = l.count false := by
  induction l generalizing b with
  | nil => simp at h
  | cons x xs ih =>
    cases b with
    | zero => simp at h; subst h; simp
    | succ b =>
      simp at h
      have := ih b h
      simp [List.count_cons]; omega

theorem visitRow_measure {σ : Type} (visit : Nat → Nat → σ → Res σ) (a : Nat) (row : List Nat)
    (s s' : Bfs σ) (h : visitRow visit a row s = .ok s') :
    s'.queue.length + s'.explored.count false = s.queue.length + s.explored.count false := by
  induction row generalizing s with
  | nil => simp [visitRow] at h; subst h; rfl
  | cons b bs ih =>
    unfold visitRow at h
    split at h
    · simp at h
    · exact ih _ h
    · rename_i hb
      split at h
      · have := ih _ h
        have hc := count_false_set _ _ hb
        simp at this; omega
      · simp at h
      · simp at h

/-- The outer `while queue.len() != 0 { if let Some(a) = queue.pop_front() { for … } }`
(graph_und.rs:74-84, 243-255, 286-299, 337-347). Terminates because every iteration pops one node and
only pushes nodes it marks as explored. -/
def bfsLoop {σ : Type} (visit : Nat → Nat → σ → Res σ) (adj : List (List Nat)) (s : Bfs σ) : Res (Bfs σ) :=
  match _hq : s.queue with
  | [] => .ok s
  | a :: q =>
    match adj[a]? with
    | none => .panic
    | some row =>
      match _hr : visitRow visit a row { s with queue := q } with
      | .ok s' => bfsLoop visit adj s'
      | .err m => .err m
      | .panic => .panic
termination_by s.queue.length + s.explored.count false
decreasing_by
  have := visitRow_measure visit a row _ _ _hr
  simp at this
  rw [_hq]
  simp; omega

/-- `explored[root] = true; queue.push_back(root)` followed by the loop (graph_und.rs:72-84, 235-255, 284-299, 335-347). -/
def bfs {σ : Type} (visit : Nat → Nat → σ → Res σ) (adj : List (List Nat)) (root : Nat) (d0 : σ) : Res (Bfs σ) :=
  if root < adj.length then
    bfsLoop visit adj { explored := (List.replicate adj.length false).set root true, queue := [root], data := d0 }
  else .panic

/-- The error message of the connectivity check, graph_und.rs:87. -/
def msgDisconnected : String := "there are hanging vertices/edges in the mesh (graph is disconnected)"

/-- First index with the smallest degree: graph_und.rs:100-107 (`if degree[p] < min_degree`, scanning upwards,
`p_min_degree` initialised with 0 and `min_degree` with `usize::MAX`, modelled by `none`). -/
def pMinDegree (degree : List Nat) : Nat :=
  (degree.zipIdx.foldl (fun (acc : Nat × Option Nat) (dp : Nat × Nat) =>
    match acc.2 with
    | none => (dp.2, some dp.1)
    | some m => if dp.1 < m then (dp.2, some dp.1) else acc) (0, none)).1

/-- Sort key of graph_und.rs:111, `(degree[*p], *p)` in lexicographic order. -/
def leByDegree (degree : List Nat) (p q : Nat) : Bool :=
  let dp := degree.getD p 0
  let dq := degree.getD q 0
  decide (dp < dq) || (decide (dp = dq) && decide (p ≤ q))

/-- `GraphUnd::from_adjacency_set`, graph_und.rs:62-141. The order of each row of `adjSet` is the arbitrary iteration
order of the hash set. Simplification: the look-up `degree[*p]` in the sort key is total (`getD`); it is in range whenever
the adjacency sets only mention existing nodes, which both callers guarantee (they index `adjacency_set[*p]` first).
The sorting algorithm is irrelevant because the keys are distinct; insertion sort is used. -/
def fromAdjacencySet (adjSet : List (List Nat)) (calcDegree checkConnectivity : Bool) : Res Graph :=
  let nnode := adjSet.length
  let explored0 := List.replicate nnode false
  let check : Res (List Bool) :=
    if checkConnectivity then
      match bfs (fun _ _ (u : Unit) => .ok u) adjSet 0 () with
      | .ok s => if s.explored.all id then .ok s.explored else .err msgDisconnected
      | .err m => .err m
      | .panic => .panic
    else .ok explored0
  match check with
  | .err m => .err m
  | .panic => .panic
  | .ok explored =>
    let degree := if calcDegree then adjSet.map List.length else []
    let adjacency :=
      if calcDegree then adjSet.map (fun row => row.insertionSort (fun p q => leByDegree degree p q = true))
      else adjSet.map (fun row => row.insertionSort (fun p q => p ≤ q))
    .ok { adjacency := adjacency, queue := [], explored := explored,
          nedge := (adjacency.map List.length).sum / 2,
          degree := degree, pMinDegree := pMinDegree degree, distance := [], parent := [] }

/-- `HashSet::insert`. -/
def setInsert (s : List Nat) (x : Nat) : List Nat := if x ∈ s then s else s ++ [x]

/-- `adjacency_set[a].insert(b)` (panics if `a` is out of range), graph_und.rs:168-169, 193-194. -/
def adjInsert (adj : List (List Nat)) (a b : Nat) : Res (List (List Nat)) := do
  let row ← Res.idx adj a
  Res.setIdx adj a (setInsert row b)

/-- `adjacency_set[a].insert(b); adjacency_set[b].insert(a);` graph_und.rs:168-169, 193-194. -/
def adjInsert2 (adj : List (List Nat)) (a b : Nat) : Res (List (List Nat)) := do
  let adj ← adjInsert adj a b
  adjInsert adj b a

/-- Inserting a list of pairs one after the other (the `for` loops of graph_und.rs:166-170, 189-198). -/
def adjInsertAll (adj : List (List Nat)) : List (Nat × Nat) → Res (List (List Nat))
  | [] => .ok adj
  | (a, b) :: es => do
    let adj ← adjInsert2 adj a b
    adjInsertAll adj es

/-- Number of distinct node ids, graph_und.rs:157-163. -/
def countNodes (edges : List (Nat × Nat)) : Nat :=
  (edges.foldl (fun s (ab : Nat × Nat) => setInsert (setInsert s ab.1) ab.2) []).length

/-- `GraphUnd::from_edges`, graph_und.rs:150-174. The input is a two-column table; the check `ncorner < 2`
(line 155) cannot fail for a list of pairs and is not modelled. -/
def fromEdges (edges : List (Nat × Nat)) (calcDegree checkConnectivity : Bool) : Res Graph := do
  let adjSet ← adjInsertAll (List.replicate (countNodes edges) []) edges
  fromAdjacencySet adjSet calcDegree checkConnectivity

/-- The pairs `(a, b)`, `a ≠ b`, of points of a cell in loop order, graph_und.rs:190-192. -/
def cellPairs (points : List Nat) : List (Nat × Nat) :=
  points.flatMap (fun a => (points.filter (fun b => b ≠ a)).map (fun b => (a, b)))

/-- `GraphUnd::from_mesh`, graph_und.rs:186-204, of a mesh with `npoint` points whose cells have the point lists `cells`
(the only parts of the mesh it reads). -/
def fromMesh (npoint : Nat) (cells : List (List Nat)) (calcDegree checkConnectivity : Bool) : Res Graph := do
  let adjSet ← adjInsertAll (List.replicate npoint []) (cells.flatMap cellPairs)
  fromAdjacencySet adjSet calcDegree checkConnectivity

/-- Discovery step of `cuthill_mckee`: `ordering[label] = *b; label += 1` (graph_und.rs:247-248). -/
def visitCM (_a b : Nat) (d : List Nat × Nat) : Res (List Nat × Nat) :=
  if d.2 < d.1.length then .ok (d.1.set d.2 b, d.2 + 1) else .panic

/-- Discovery step of `calc_distance`: `distance[*b] = distance[a] + 1` (graph_und.rs:342). -/
def visitDist (a b : Nat) (d : List Nat) : Res (List Nat) := do
  let da ← Res.idx d a
  Res.setIdx d b (da + 1)

/-- Discovery step of `shortest_path_bfs`: `distance[*b] = distance[a] + 1; parent[*b] = a` (graph_und.rs:292-293). -/
def visitPath (a b : Nat) (d : List Nat × List (Option Nat)) : Res (List Nat × List (Option Nat)) := do
  let dist ← visitDist a b d.1
  let par ← Res.setIdx d.2 b (some a)
  return (dist, par)

/-- `GraphUnd::calc_distance`, graph_und.rs:321-356: returns the updated graph and the largest distance.
`explored` is reset entry by entry for `i < nnode` (panics when the stored vector is shorter). -/
def calcDistance (g : Graph) (root : Nat) : Res (Graph × Nat) :=
  let nnode := g.adjacency.length
  if g.explored.length < nnode then .panic else
  match bfs visitDist g.adjacency root (List.replicate nnode 0) with
  | .ok s =>
    .ok ({ g with explored := s.explored, queue := s.queue, distance := s.data },
         s.data.foldl (fun m d => if d > m then d else m) 0)
  | .err m => .err m
  | .panic => .panic

/-- The backward loop of `shortest_path_bfs`, graph_und.rs:301-308: `path.insert(0, parent[current])` until the sentinel.
Rust loops for ever on a cyclic `parent` vector; the fuel (`nnode`) is proved sufficient (`backtrack` never returns `none`). -/
def backtrack (parent : List (Option Nat)) : Nat → Nat → List Nat → Option (Res (List Nat))
  | 0, current, path =>
    match parent[current]? with
    | none => some .panic
    | some none => some (.ok path)
    | some (some _) => none
  | fuel + 1, current, path =>
    match parent[current]? with
    | none => some .panic
    | some none => some (.ok path)
    | some (some p) => backtrack parent fuel p (p :: path)

/-- `GraphUnd::shortest_path_bfs`, graph_und.rs:269-310. The outer `none` would be an infinite loop. -/
def shortestPathBfs (g : Graph) (source destination : Nat) : Option (Res (Graph × List Nat)) :=
  let nnode := g.adjacency.length
  if g.explored.length < nnode then some .panic else
  match bfs visitPath g.adjacency source (List.replicate nnode 0, List.replicate nnode none) with
  | .ok s =>
    match backtrack s.data.2 nnode destination [destination] with
    | none => none
    | some (.ok path) =>
      some (.ok ({ g with explored := s.explored, queue := s.queue, distance := s.data.1, parent := s.data.2 }, path))
    | some (.err m) => some (.err m)
    | some .panic => some .panic
  | .err m => some (.err m)
  | .panic => some .panic

/-- Selection of the next root, graph_und.rs:390-401: among the nodes at distance `maxDistance`, the first with the
smallest degree. -/
def nextRoot (distance degree : List Nat) (maxDistance : Nat) : Option Nat :=
  ((distance.zip degree).zipIdx.foldl (fun (acc : Option (Nat × Nat)) (x : (Nat × Nat) × Nat) =>
    if x.1.1 = maxDistance then
      match acc with
      | none => some (x.1.2, x.2)
      | some (m, i) => if x.1.2 < m then some (x.1.2, x.2) else some (m, i)
    else acc) none).map (·.2)

/-- The error messages of graph_und.rs:222, 368, 419. -/
def msgNeedDegreeCM : String :=
  "Cuthill-McKee algorithm requires the degree of vertices (calc_degree must be set to true)"
def msgNeedDegreePP : String := "pseudo_peripheral requires the degree of vertices (calc_degree must be set to true)"
def msgNoConvergence : String := "INTERNAL ERROR: iterations did not converge"

/-- The iterations of `pseudo_peripheral`, graph_und.rs:386-417, with the number of iterations left. -/
def ppLoop : Nat → Graph → Nat → Nat → Res (Graph × Nat)
  | 0, _, _, _ => .err msgNoConvergence
  | n + 1, g, root, maxDistance =>
    match nextRoot g.distance g.degree maxDistance with
    | none => .ok (g, root)
    | some r =>
      match calcDistance g r with
      | .ok (g', next) => if next = maxDistance then .ok (g', r) else ppLoop n g' r next
      | .err m => .err m
      | .panic => .panic

/-- `GraphUnd::pseudo_peripheral`, graph_und.rs:364-422 (`MAX_ITERATIONS = 10`). -/
def pseudoPeripheral (g : Graph) (start : Option Nat) : Res (Graph × Nat) :=
  if g.degree.length ≠ g.adjacency.length then .err msgNeedDegreePP
  else
    let root := start.getD g.pMinDegree
    match calcDistance g root with
    | .ok (g', maxDistance) => ppLoop 10 g' root maxDistance
    | .err m => .err m
    | .panic => .panic

/-- The second half of `cuthill_mckee`, graph_und.rs:230-263: label the nodes in breadth-first order from `root`,
then reverse. -/
def cmFrom (g : Graph) (root : Nat) : Res (Graph × List Nat) :=
  let nnode := g.adjacency.length
  if g.explored.length < nnode then .panic
  else if root < nnode then
    match bfs visitCM g.adjacency root ((List.replicate nnode 0).set 0 root, 1) with
    | .ok s => .ok ({ g with explored := s.explored, queue := s.queue }, s.data.1.reverse)
    | .err m => .err m
    | .panic => .panic
  else .panic

/-- `GraphUnd::cuthill_mckee`, graph_und.rs:218-264. -/
def cuthillMckee (g : Graph) (start : Option Nat) : Res (Graph × List Nat) :=
  if g.degree.length ≠ g.adjacency.length then .err msgNeedDegreeCM
  else
    match start with
    | some p => cmFrom g p
    | none =>
      match pseudoPeripheral g none with
      | .ok (g, root) => cmFrom g root
      | .err m => .err m
      | .panic => .panic

/-- `GraphUnd::calc_bandwidth`, graph_und.rs:430-448. -/
def calcBandwidth (g : Graph) : Nat :=
  g.adjacency.zipIdx.foldl (fun band (ri : List Nat × Nat) =>
    let bandI := ri.1.foldl (fun bi j =>
      if j > ri.2 then
        let delta := (j - ri.2) + 1
        if delta > bi then delta else bi
      else bi) 1
    if bandI > band then bandI else band) 0

/-- `GraphUnd::get_old_to_new_map`, graph_und.rs:487-494. -/
def getOldToNewMap (ordering : List Nat) : Res (List Nat) :=
  ordering.zipIdx.foldlM (fun m (on : Nat × Nat) => Res.setIdx m on.1 on.2) (List.replicate ordering.length 0)

/-- `GraphUnd::get_degree`, graph_und.rs:524-533. -/
def getDegree (g : Graph) (node : Nat) : Res Nat :=
  if g.degree.length ≠ g.adjacency.length then
    .err "degree information is not available (calc_degree must be set to true)"
  else if node ≥ g.adjacency.length then .err "node index out of bounds"
  else Res.idx g.degree node

/-- `GraphUnd::has_edge`, graph_und.rs:539-545. -/
def hasEdge (g : Graph) (a b : Nat) : Bool :=
  if a ≥ g.adjacency.length ∨ b ≥ g.adjacency.length then false
  else (g.adjacency.getD a []).contains b

/-- `GraphUnd::get_edges`, graph_und.rs:550-561. -/
def getEdges (g : Graph) : List (Nat × Nat) :=
  g.adjacency.zipIdx.flatMap (fun (ra : List Nat × Nat) =>
    (ra.1.filter (fun b => ra.2 < b)).map (fun b => (ra.2, b)))

end Gemlab.GraphUnd
