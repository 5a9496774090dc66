import Verif.Model.GridSearch
import Verif.Model.Mesh

/-!
# Model of `/repo/src/mesh/grid_cells.rs` (`draw` is in `Model/DrawGrids`; `Display`, `stat` and `limits` are in `Model/Reports`)

Real numbers instead of `f64`; `f64::MAX` is the real number with that value. Modelled for `ndim = 2` and `ndim = 3`. A vector of
`[min, max]` pairs (`x_min_max`, a bounding box) is a pair of lists. A `HashSet` is the list of its elements, iterated in an arbitrary
order. `v as usize` of a float is `Nat.floor` (0 for negative numbers, as the saturating cast).
-/
namespace Gemlab
noncomputable section
open Classical
open Gemlab.Mesh

/-- `f64::MAX`. -/
def f64Max : ℝ := (2 - 1 / 2 ^ 52) * 2 ^ 1023

/-- `struct GridCells` — grid_cells.rs:65-74. -/
structure GridCells where
  mesh : Mesh ℝ
  ndiv : List Nat
  xmin : List ℝ
  xmax : List ℝ
  sideLength : ℝ
  boxes : List (List ℝ × List ℝ)
  containers : HMap Nat (List Nat)
  largeCells : List Nat

namespace GridCells

/-- `mesh.points[point_id].coords[i]` for `i in 0..ndim` — grid_cells.rs:147-149. -/
def readCoords (m : Mesh ℝ) (pid : Nat) : Res (List ℝ) := do
  let p ← Res.idx m.points pid
  (List.range m.ndim).mapM fun i => Res.idx p.coords i

/-- Variables of the first loop: limits, bounding box of the current cell, largest extents, bounding boxes — grid_cells.rs:138-143. -/
structure Scan where
  xmin : List ℝ
  xmax : List ℝ
  box : List ℝ × List ℝ
  largest : List ℝ
  boxes : List (List ℝ × List ℝ)

/-- One point of a cell (`m == 0` is `first`) — grid_cells.rs:146-161. -/
def scanPoint (m : Mesh ℝ) (first : Bool) (pid : Nat) (s : Scan) : Res Scan := do
  let x ← readCoords m pid
  .ok { s with
    xmin := List.zipWith min s.xmin x
    xmax := List.zipWith max s.xmax x
    box := if first then (x, x) else (List.zipWith min s.box.1 x, List.zipWith max s.box.2 x) }

/-- One cell — grid_cells.rs:144-169. -/
def scanCell (m : Mesh ℝ) (s : Scan) (cell : Cell) : Res Scan := do
  let s ← cell.points.zipIdx.foldlM (fun (s : Scan) (pk : Nat × Nat) => scanPoint m (pk.2 == 0) pk.1 s) s
  .ok { s with
    largest := (List.range m.ndim).map fun i => max (at' s.largest i) (at' s.box.2 i - at' s.box.1 i)
    boxes := s.boxes ++ [s.box] }

/-- The first loop — grid_cells.rs:138-169. -/
def scan (m : Mesh ℝ) : Res Scan :=
  m.cells.foldlM (scanCell m)
    { xmin := List.replicate m.ndim f64Max, xmax := List.replicate m.ndim (-f64Max),
      box := (List.replicate m.ndim 0, List.replicate m.ndim 0), largest := List.replicate m.ndim (-f64Max), boxes := [] }

/-- `max` of the components `0..ndim` — grid_cells.rs:172-175 and 182-185. -/
def largestOf (ndim : Nat) (v : Nat → ℝ) : ℝ := (List.range' 1 (ndim - 1)).foldl (fun s i => max s (v i)) (v 0)

/-- Extent of a bounding box. -/
def extent (b : List ℝ × List ℝ) (i : Nat) : ℝ := at' b.2 i - at' b.1 i

/-- The large cells and the largest length among the others — grid_cells.rs:178-193. -/
def splitLarge (ndim : Nat) (boxes : List (List ℝ × List ℝ)) (threshold : ℝ) : List Nat × ℝ :=
  boxes.zipIdx.foldl (fun (acc : List Nat × ℝ) bk =>
    if largestOf ndim (extent bk.1) ≥ threshold then (acc.1 ++ [bk.2], acc.2)
    else (acc.1, (List.range ndim).foldl (fun s i => max s (extent bk.1 i)) acc.2)) ([], -f64Max)

/-- `containers.entry(key).or_insert(HashSet::new()).insert(cell_id)` — grid_cells.rs:243-244. -/
def addTo (c : HMap Nat (List Nat)) (key id : Nat) : HMap Nat (List Nat) :=
  c.insert key (if id ∈ (c.get key).getD [] then (c.get key).getD [] else (c.get key).getD [] ++ [id])

/-- The corners of the bounding box that are visited — grid_cells.rs:234-241 (in 2D, `t` is always 0 and not used). -/
def corners (ndim : Nat) (b : List ℝ × List ℝ) : List (List ℝ) :=
  [b.1, b.2].flatMap fun r => [b.1, b.2].flatMap fun s => ([b.1, b.2].take (ndim - 1)).map fun t =>
    if ndim = 3 then [at' r 0, at' s 1, at' t 2] else [at' r 0, at' s 1]

/-- The loop that fills the containers — grid_cells.rs:228-248. -/
def fill (ndim : Nat) (side : ℝ) (ndiv : List Nat) (xmin : List ℝ) (boxes : List (List ℝ × List ℝ)) (large : List Nat) :
    HMap Nat (List Nat) :=
  boxes.zipIdx.foldl (fun (c : HMap Nat (List Nat)) bk =>
    if bk.2 ∈ large then c
    else (corners ndim bk.1).foldl (fun c x => addTo c (utilContainerKey ndim side ndiv xmin x) bk.2) c) []

/-- `GridCells::new` — grid_cells.rs:90-261. -/
def new (m : Mesh ℝ) (tolerance borderTol largeCutoff largePct : Option ℝ) : Res GridCells :=
  let ndim := m.ndim
  let tolerance := tolerance.getD (1 / 10000)
  if tolerance ≤ 0 then .err "tolerance must be > 0.0"
  else
    let borderTol := borderTol.getD (1 / 100)
    if borderTol < 0 then .err "border_tol must be ≥ 0.0"
    else
      let cutoff := largeCutoff.getD (3 / 4)
      if cutoff < 0 ∨ cutoff > 1 then .err "large_cutoff must be in [0.0, 1.0]"
      else
        let largePct := largePct.getD (1 / 5)
        if largePct < 0 ∨ largePct > 1 then .err "large_pct must be in [0.0, 1.0]"
        else do
          let s ← scan m
          let largestLength := largestOf ndim (at' s.largest)
          let sl := splitLarge ndim s.boxes (cutoff * largestLength)
          let pct : ℝ := (sl.1.length : ℝ) / (m.cells.length : ℝ)
          let large := if pct ≤ largePct then sl.1 else []
          let side := (if pct ≤ largePct then sl.2 else largestLength) + 2 * tolerance
          let xmin := if borderTol > 0 then s.xmin.map (fun v => v - borderTol) else s.xmin
          let xmax := if borderTol > 0 then s.xmax.map (fun v => v + borderTol) else s.xmax
          if ∃ i < ndim, ¬ at' xmax i > at' xmin i then .panic
          else
            let ndiv := (List.range ndim).map fun i => ⌈(at' xmax i - at' xmin i) / side⌉₊
            let xmax := (List.range ndim).map fun i => at' xmin i + side * ((ndiv.getD i 0 : Nat) : ℝ)
            .ok { mesh := m, ndiv := ndiv, xmin := xmin, xmax := xmax, sideLength := side, boxes := s.boxes,
                  containers := fill ndim side ndiv xmin s.boxes large, largeCells := large }

/-- `GridCells::in_cell` — grid_cells.rs:264-290: the answer and the new content of `ksi_or_zeta`. -/
def inCell (g : GridCells) (zeta x : List ℝ) (cellId : Nat) : Res (Bool × List ℝ) := do
  let b ← Res.idx g.boxes cellId
  if ∃ i < g.mesh.ndim, at' x i < at' b.1 i ∨ at' x i > at' b.2 i then .ok (false, zeta)
  else do
    let cell ← Res.idx g.mesh.cells cellId
    let corner := fun (k : Nat) => (do
      let pid ← Res.idx cell.points k
      let p ← Res.idx g.mesh.points pid
      .ok p.coords : Res (List ℝ))
    if cell.kind = .tri3 then do
      let xa ← corner 0
      let xb ← corner 1
      let xc ← corner 2
      if xa.length < 2 ∨ xb.length < 2 ∨ xc.length < 2 ∨ x.length < 2 then .panic
      else
        let z := triangleCoords (at' xa 0, at' xa 1) (at' xb 0, at' xb 1) (at' xc 0, at' xc 1) (at' x 0, at' x 1)
        .ok (inTriangle z, [z.1, z.2.1, z.2.2, at' zeta 3])
    else if cell.kind = .tet4 then do
      let xa ← corner 0
      let xb ← corner 1
      let xc ← corner 2
      let xd ← corner 3
      if xa.length < 3 ∨ xb.length < 3 ∨ xc.length < 3 ∨ xd.length < 3 ∨ x.length < 3 then .panic
      else
        let z := tetrahedronCoords (at' xa 0, at' xa 1, at' xa 2) (at' xb 0, at' xb 1, at' xb 2) (at' xc 0, at' xc 1, at' xc 2)
          (at' xd 0, at' xd 1, at' xd 2) (at' x 0, at' x 1, at' x 2)
        .ok (inTetrahedron z, [z.1, z.2.1, z.2.2.1, z.2.2.2])
    else .panic

/-- A loop of `search` over a set of cells — grid_cells.rs:321-325, 335-339. -/
def searchIn (g : GridCells) (x : List ℝ) : List Nat → List ℝ → Res (Option Nat × List ℝ)
  | [], zeta => .ok (none, zeta)
  | id :: ids, zeta => do
    let r ← inCell g zeta x id
    if r.1 then .ok (some id, r.2) else searchIn g x ids r.2

/-- `GridCells::search` — grid_cells.rs:303-343: the cell and the content of `ksi_or_zeta` (not modified if there is an error). `iter` is
the iteration order of hash sets. -/
def search (iter : List Nat → List Nat) (g : GridCells) (zeta x : List ℝ) : Res (Option Nat × List ℝ) :=
  if zeta.length ≠ 4 then .err "length of ksi_or_zeta must be equal to 4"
  else if x.length ≠ g.mesh.ndim then .err "length of x must be equal to ndim"
  else if ∃ i < g.mesh.ndim, at' x i < at' g.xmin i ∨ at' x i > at' g.xmax i then .err "given point coordinates are outside the grid"
  else do
    let r ← searchIn g x (iter g.largeCells) zeta
    match r.1 with
    | some id => .ok (some id, r.2)
    | none =>
      match g.containers.get (utilContainerKey g.mesh.ndim g.sideLength g.ndiv g.xmin x) with
      | none => .ok (none, r.2)
      | some c => searchIn g x (iter c) r.2

end GridCells
end
end Gemlab
