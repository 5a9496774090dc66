import Verif.Model.Res
import Mathlib.Order.Defs.LinearOrder
import Mathlib.Data.List.Dedup

/-!
# Model of `/repo/src/graph/graph_dir.rs` (directed weighted graph, Floyd–Warshall)

* The number type `W` is a parameter: any linear order with an addition, a zero and a one. `big : W` stands for `f64::MAX`.
  Theorems instantiate it with exact arithmetic, or only assume what rounded addition satisfies.
* The matrices `dist` and `next` (russell `Matrix`, `NumMatrix<usize>`) are functions on pairs of indices; only entries
  below `nnode` are meaningful and an index out of range is a panic. (In russell, an out-of-range row index may silently
  alias another entry instead of panicking; all theorems are about indices in range.)
* `next = usize::MAX` is `none`.
* `draw` is in `Model/DrawGraph`, `str_mat` in `Model/Reports`.
-/
namespace Gemlab.GraphDir

variable {W : Type} [LinearOrder W] [Add W] [Zero W] [One W]

/-- `GraphDir` — graph_dir.rs:44-74. -/
structure Graph (W : Type) where
  edges : List (Nat × Nat)
  weights : List W
  nnode : Nat
  dist : Nat → Nat → W
  next : Nat → Nat → Option Nat
  readyPath : Bool

/-- Number of distinct node ids in the table (the size of the `HashSet`) — graph_dir.rs:109-115. -/
def countNodes (edges : List (Nat × Nat)) : Nat := (edges.flatMap fun e => [e.1, e.2]).dedup.length

/-- `GraphDir::new` — graph_dir.rs:100-125. The table has exactly two columns here (the `ncorner < 2` error cannot occur). -/
def new (edges : List (Nat × Nat)) : Graph W where
  edges := edges
  weights := List.replicate edges.length 1
  nnode := countNodes edges
  dist := fun _ _ => 0
  next := fun _ _ => some 0
  readyPath := false

/-- `set_weight` — graph_dir.rs:147-152 (the assertion and the index may panic). -/
def setWeight (g : Graph W) (edge : Nat) (v : W) : Res (Graph W) :=
  if 0 ≤ v then do
    let w ← Res.setIdx g.weights edge v
    .ok { g with weights := w, readyPath := false }
  else .panic

/-- One matrix entry assigned. -/
def set2 {α : Type} (m : Nat → Nat → α) (i j : Nat) (v : α) : Nat → Nat → α :=
  fun a b => if a = i ∧ b = j then v else m a b

/-- The two matrices under construction. -/
structure DN (W : Type) where
  dist : Nat → Nat → W
  next : Nat → Nat → Option Nat

/-- Initial matrices: zero diagonal, `f64::MAX` elsewhere, no next hop — graph_dir.rs:270-280. -/
def initDN (big : W) : DN W := ⟨fun i j => if i = j then 0 else big, fun _ _ => none⟩

/-- One edge written into the matrices — graph_dir.rs:285-287. -/
def putEdge (nnode : Nat) (m : DN W) (e : (Nat × Nat) × W) : Res (DN W) :=
  if e.1.1 < nnode ∧ e.1.2 < nnode then
    .ok ⟨set2 m.dist e.1.1 e.1.2 e.2, set2 m.next e.1.1 e.1.2 (some e.1.2)⟩
  else .panic

/-- `calc_dist_and_next` — graph_dir.rs:268-289. It does not touch `ready_path`. -/
def calcDistAndNext (big : W) (g : Graph W) : Res (Graph W) := do
  let m ← (g.edges.zip g.weights).foldlM (putEdge g.nnode) (initDN big)
  .ok { g with dist := m.dist, next := m.next }

/-- Body of the triple loop — graph_dir.rs:234-238. -/
def relax (k i : Nat) (m : DN W) (j : Nat) : DN W :=
  let sum := m.dist i k + m.dist k j
  if m.dist i j > sum then ⟨set2 m.dist i j sum, set2 m.next i j (m.next i k)⟩ else m

/-- The two inner loops for a fixed `k` — graph_dir.rs:232-240. -/
def phase (n : Nat) (m : DN W) (k : Nat) : DN W :=
  (List.range n).foldl (fun m i => (List.range n).foldl (relax k i) m) m

/-- `shortest_paths_fw` — graph_dir.rs:228-243. -/
def shortestPathsFw (big : W) (g : Graph W) : Res (Graph W) := do
  let g ← calcDistAndNext big g
  let m := (List.range g.nnode).foldl (phase g.nnode) ⟨g.dist, g.next⟩
  .ok { g with dist := m.dist, next := m.next, readyPath := true }

/-- Error message of `path` before a path-finding call. -/
def msgNotReady : String := "a path finding algorithm (e.g., shortest_paths_fw) must be called first"
/-- Error message of `path` for an unreachable end point. -/
def msgNoPath : String := "no path found"

/-- The `while` loop of `path` — graph_dir.rs:254-260. `fuel` bounds the number of iterations; `none` means that the loop
has not finished yet. `cur = none` is `current_point == usize::MAX`. -/
def pathLoop (n : Nat) (next : Nat → Nat → Option Nat) (endPt : Nat) : Nat → Option Nat → List Nat → Option (Res (List Nat))
  | _, none, _ => some (.err msgNoPath)
  | 0, some cur, path => if cur = endPt then some (.ok path) else none
  | fuel + 1, some cur, path =>
    if cur = endPt then some (.ok path)
    else if cur < n ∧ endPt < n then
      match next cur endPt with
      | none => some (.err msgNoPath)
      | some c => pathLoop n next endPt fuel (some c) (path ++ [c])
    else some .panic

/-- `path` — graph_dir.rs:248-262. -/
def path (g : Graph W) (fuel start endPt : Nat) : Option (Res (List Nat)) :=
  if g.readyPath then pathLoop g.nnode g.next endPt fuel (some start) [start]
  else some (.err msgNotReady)

/-- Mutating calls a user can make on a graph. -/
inductive Op (W : Type) where
  | setWeight (edge : Nat) (v : W)
  | shortestPathsFw
  | calcDistAndNext

/-- One call. -/
def step (big : W) (g : Graph W) : Op W → Res (Graph W)
  | .setWeight e v => setWeight g e v
  | .shortestPathsFw => shortestPathsFw big g
  | .calcDistAndNext => calcDistAndNext big g

/-- A sequence of calls on a new graph. -/
def runOps (big : W) (edges : List (Nat × Nat)) (ops : List (Op W)) : Res (Graph W) :=
  ops.foldlM (step big) (new edges)

end Gemlab.GraphDir
