import Verif.Model.GraphUnd
import Verif.Model.GraphDir
import Verif.Model.Features
import Verif.Model.MeshText
import Verif.Model.GridCells

/-!
# Model of the statistics and printed summaries

`GraphUnd::{get_nnode, get_nedge, density, print_non_zero_pattern}` (graph_und.rs:459-478, 510-517, 571-579),
`GraphDir::{get_nedge, get_nnode, str_mat}` (graph_dir.rs:155-162, 295-358), `Display` of `Edge`, `Edges`, `Face`, `Faces`
(edges.rs:280-299, faces.rs:110-132), `Display` of `GridSearch` (grid_search.rs:827-853), `GridCells::{limits, stat}` and its
`Display` (grid_cells.rs:346-348, 471-531).

Texts are lists of characters. The formatting of floating-point numbers is a parameter. What is printed is the text returned by the
model's function.
-/
namespace Gemlab.Reports
open Gemlab Gemlab.MeshText

/-- `{:1$}` of `" "`: a blank padded to the given width (never fewer than one blank) — graph_und.rs:469, 477, graph_dir.rs:330, 356. -/
def blanks (width : Nat) : Text := List.replicate (max width 1) ' '

/-- `{:>1$}`: padded with blanks on the left — graph_dir.rs:341-350. -/
def padLeft (t : Text) (width : Nat) : Text := List.replicate (width - t.length) ' ' ++ t

/-- `{:?}` of a slice: the items between brackets, separated by a comma and a blank. -/
def sepBy (sep : Text) : List Text → Text
  | [] => []
  | [t] => t
  | t :: ts => t ++ sep ++ sepBy sep ts

/-- `{:?}` of a slice of texts already formatted. -/
def showList (ts : List Text) : Text := '[' :: sepBy ", ".toList ts ++ [']']

/-! ## Undirected graphs -/

/-- `GraphUnd::get_nnode` — graph_und.rs:510-512. -/
def undNnode (g : GraphUnd.Graph) : Nat := g.adjacency.length

/-- `GraphUnd::get_nedge` — graph_und.rs:515-517. -/
def undNedge (g : GraphUnd.Graph) : Nat := g.nedge

/-- `GraphUnd::density` — graph_und.rs:571-579 (exact arithmetic in a field instead of `f64`). -/
def density {K : Type} [Field K] [LinearOrder K] (g : GraphUnd.Graph) : K :=
  let nnode : K := (g.adjacency.length : K)
  let nedge : K := (g.nedge : K)
  if nnode ≤ 1 then 0 else (2 * nedge) / (nnode * (nnode - 1))

/-- The row `i` of the pattern after `non_zeros_pattern[i][i] = "D"` and the loop over the neighbours; an index out of range panics —
graph_und.rs:463-466. -/
def patternRow (n i : Nat) (nbr : List Nat) : Res Text := do
  let row ← Res.setIdx (List.replicate n '.') i 'D'
  nbr.foldlM (fun row j => Res.setIdx row j '#') row

/-- One printed row — graph_und.rs:471-475. -/
def patternLine (row : Text) : Text := '│' :: (row.flatMap fun s => [' ', s]) ++ " │\n".toList

/-- `GraphUnd::print_non_zero_pattern`: the text printed — graph_und.rs:459-478. -/
def printPattern (g : GraphUnd.Graph) : Res Text := do
  let n := g.adjacency.length
  let rows ← g.adjacency.zipIdx.mapM fun (p : List Nat × Nat) => patternRow n p.2 p.1
  let width := n * 2 + 1
  pure ("\n┌".toList ++ blanks width ++ "┐\n".toList ++ rows.flatMap patternLine ++ "└".toList ++ blanks width ++ "┘\n".toList)

/-! ## Directed graphs -/

/-- `GraphDir::get_nedge` — graph_dir.rs:155-157. -/
def dirNedge {W : Type} (g : GraphDir.Graph W) : Nat := g.edges.length

/-- `GraphDir::get_nnode` (rows of the matrix of distances) — graph_dir.rs:160-162. -/
def dirNnode {W : Type} (g : GraphDir.Graph W) : Nat := g.nnode

/-- One entry: `∞` for the sentinels `usize::MAX` (`none`) and `f64::MAX` (`big`) — graph_dir.rs:307-321, 338-351. `fmt` is `{}` of an
`f64`. -/
def entry {W : Type} [DecidableEq W] (fmt : W → Text) (big : W) (nextMat : Bool) (g : GraphDir.Graph W) (i j : Nat) : Text :=
  if nextMat then
    match g.next i j with
    | none => ['∞']
    | some v => showNat v
  else if g.dist i j = big then ['∞'] else fmt (g.dist i j)

/-- The largest number of characters of an entry — graph_dir.rs:302-326. -/
def maxWidth {W : Type} [DecidableEq W] (fmt : W → Text) (big : W) (nextMat : Bool) (g : GraphDir.Graph W) : Nat :=
  (List.range g.nnode).foldl (fun w i => (List.range g.nnode).foldl (fun w j => max (entry fmt big nextMat g i j).length w) w) 0

/-- The loop over the rows — graph_dir.rs:331-354. -/
def matBody {W : Type} [DecidableEq W] (fmt : W → Text) (big : W) (nextMat : Bool) (g : GraphDir.Graph W) (width : Nat) : Text :=
  (List.range g.nnode).flatMap fun i =>
    (if i > 0 then " │\n".toList else []) ++
    (List.range g.nnode).flatMap fun j =>
      (if j = 0 then ['│'] else []) ++ padLeft (entry fmt big nextMat g i j) width

/-- `GraphDir::str_mat` — graph_dir.rs:295-358 (the matrices are square; the `[]` printed on the console for an empty matrix is
`strMatConsole`). -/
def strMat {W : Type} [DecidableEq W] (fmt : W → Text) (big : W) (nextMat : Bool) (g : GraphDir.Graph W) : Text :=
  let width := maxWidth fmt big nextMat g + 1
  "┌".toList ++ blanks (width * g.nnode + 1) ++ "┐\n".toList ++ matBody fmt big nextMat g width ++ " │\n".toList ++
    "└".toList ++ blanks (width * g.nnode + 1) ++ "┘".toList

/-- What `str_mat` prints on the console — graph_dir.rs:297-300. -/
def strMatConsole {W : Type} (g : GraphDir.Graph W) : Text := if g.nnode = 0 then "[]".toList else []

/-! ## Edges and faces -/
open Gemlab.Mesh

/-- `Display` of `Edge` (`{:?}` of a pair) — edges.rs:280-285. -/
def showEdge (e : Feature) : Res Text := do
  let k ← e.edgeKey
  pure ('(' :: sepBy ", ".toList [showNat k.1, showNat k.2] ++ [')'])

/-- `Display` of `Face` — faces.rs:110-120. -/
def showFace (f : Feature) : Res Text := do
  let k ← f.faceKey
  if f.points.length = 3 then
    pure ('(' :: sepBy ", ".toList [showNat k.1, showNat k.2.1, showNat k.2.2.1, "MAX".toList] ++ [')'])
  else pure ('(' :: sepBy ", ".toList [showNat k.1, showNat k.2.1, showNat k.2.2.1, showNat k.2.2.2] ++ [')'])

/-- One iteration of the loop of `Display` of `Edges` and `Faces` — edges.rs:289-295, faces.rs:124-130. -/
def showAllGo (one : Feature → Res Text) : List (Feature × Nat) → Text → Res Text
  | [], b => .ok b
  | (e, i) :: es, b => do
    let b := if i > 0 then b ++ ", ".toList else b
    let t ← one e
    showAllGo one es (b ++ t)

/-- `Display` of `Edges` — edges.rs:287-299. -/
def showEdges (all : List Feature) : Res Text := showAllGo showEdge all.zipIdx []

/-- `Display` of `Faces` — faces.rs:122-132. -/
def showFaces (all : List Feature) : Res Text := showAllGo showFace all.zipIdx []

/-! ## Grids -/

/-- `ids.sort()` on a `Vec<usize>`. -/
def sortIds (l : List Nat) : List Nat := l.insertionSort (· ≤ ·)

/-- A container as one line of text — grid_search.rs:837, grid_cells.rs:512. -/
def containerLine (key : Nat) (ids : List Nat) : Text := showNat key ++ ": ".toList ++ showList (ids.map showNat) ++ ['\n']

/-- State of the loop over the containers: the text and the set `unique_items`. `idsOf` gives the ids of a container in the (arbitrary)
order of iteration — grid_search.rs:833-842, grid_cells.rs:508-517. -/
def showContainers {C : Type} (idsOf : C → List Nat) (containers : HMap Nat C) : List Nat → Text × List Nat → Res (Text × List Nat)
  | [], s => .ok s
  | key :: keys, s => do
    let c ← unwrap (containers.get key)
    let ids := sortIds (idsOf c)
    showContainers idsOf containers keys (s.1 ++ containerLine key ids, ids.foldl HSet.insert s.2)

/-- `Display` of `GridSearch` — grid_search.rs:827-853. `iter` is the order of iteration of the hash map of containers, `iterC` of the
container maps and `iterS` of the hash set. -/
def showGrid (iter : List (Nat × HMap Nat (List ℝ)) → List (Nat × HMap Nat (List ℝ)))
    (iterC : List (Nat × List ℝ) → List (Nat × List ℝ)) (iterS : List Nat → List Nat) (g : GridSearch) : Res Text := do
  let indices := sortIds ((iter g.containers).map (·.1))
  let s ← showContainers (fun c => (iterC c).map (·.1)) g.containers indices ([], [])
  let ids := sortIds (iterS s.2)
  pure (s.1 ++ "ids = ".toList ++ showList (ids.map showNat) ++ ['\n'] ++
    "nitem = ".toList ++ showNat s.2.length ++ ['\n'] ++
    "ncontainer = ".toList ++ showNat g.containers.length ++ ['\n'] ++
    "ndiv = ".toList ++ showList (g.ndiv.map showNat) ++ ['\n'])

/-- `GridCells::limits` — grid_cells.rs:346-348. -/
def limits (g : GridCells) : List ℝ × List ℝ := (g.xmin, g.xmax)

/-- `Display` of `GridCells` — grid_cells.rs:502-531. -/
def showCells (iter : List (Nat × List Nat) → List (Nat × List Nat)) (iterS : List Nat → List Nat) (g : GridCells) : Res Text := do
  let indices := sortIds ((iter g.containers).map (·.1))
  let s ← showContainers iterS g.containers indices ([], [])
  let largeIds := sortIds (iterS g.largeCells)
  pure (s.1 ++ "large_cells = ".toList ++ showList (largeIds.map showNat) ++ ['\n'] ++
    "ncell = ".toList ++ showNat (s.2.length + g.largeCells.length) ++ ['\n'] ++
    "ncontainer = ".toList ++ showNat g.containers.length ++ ['\n'] ++
    "ndiv = ".toList ++ showList (g.ndiv.map showNat) ++ ['\n'])

/-- State of the loop of `stat`: `unique_items`, `max_container_num_items`, `container_num_items` — grid_cells.rs:472-483. -/
structure Tally where
  items : List Nat
  most : Nat
  counts : List Nat

/-- One container — grid_cells.rs:475-482. -/
def tally (iterS : List Nat → List Nat) (s : Tally) (container : List Nat) : Tally :=
  let n := container.length
  { items := (iterS container).foldl HSet.insert s.items, most := max s.most n, counts := s.counts ++ [n] }

/-- `GridCells::stat` — grid_cells.rs:471-499. `dbg` is `{:?}` of an `f64`; `hist stations data` is the text of the histogram of
`russell_lab` (a dependency, not modelled) with these stations and data. -/
def stat (dbg : ℝ → Text) (hist : List Nat → List Nat → Text) (iter : List (Nat × List Nat) → List (Nat × List Nat))
    (iterS : List Nat → List Nat) (g : GridCells) : Text :=
  let s := ((iter g.containers).map (·.2)).foldl (tally iterS) ⟨[], 0, []⟩
  "Summary\n=======\n".toList ++
    "ncell total = ".toList ++ showNat (s.items.length + g.largeCells.length) ++ ['\n'] ++
    "xmin = ".toList ++ showList (g.xmin.map dbg) ++ ['\n'] ++
    "xmax = ".toList ++ showList (g.xmax.map dbg) ++ ['\n'] ++
    "side_length = ".toList ++ dbg g.sideLength ++ ['\n'] ++
    "num of non-empty containers = ".toList ++ showNat g.containers.length ++ ['\n'] ++
    "max container num items = ".toList ++ showNat s.most ++ ['\n'] ++
    "\nHistogram of container num items\n================================\n".toList ++
    hist (List.range (s.most + 2)) s.counts

end Gemlab.Reports
