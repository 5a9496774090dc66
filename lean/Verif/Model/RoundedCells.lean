import Verif.Model.GridCells
import Verif.Model.RoundedTriangle
import Verif.Model.RoundedTetrahedron

/-!
# `GridCells` with rounding (`/repo/src/mesh/grid_cells.rs`, `/repo/src/util/calc_container_key.rs`)

The same functions as in `Model/GridCells`, but each arithmetic operation is followed by the rounding `fl`, as on a computer; constants and integers
converted to floats are rounded, too. Not modelled: overflow, underflow, infinities and NaN (the values of `fl` are real numbers). The other simplifications are
those of `Model/GridCells`. `C95_exact` shows that the functions are those of `Model/GridCells` if `fl` does nothing.
-/
namespace Gemlab.Rounded.Cells
noncomputable section
open Classical
open Gemlab.Mesh
open Gemlab.GridCells (Scan scanPoint largestOf addTo corners)

variable (fl : ℝ → ℝ)

/-- `calc_container_key` — `/repo/src/util/calc_container_key.rs:9-26`. -/
def containerKey (ndim : Nat) (sideLength : ℝ) (ndiv : List Nat) (xmin x : List ℝ) : Nat :=
  let ix := fun (i : Nat) =>
    let k := ⌊fl (fl (at' x i - at' xmin i) / sideLength)⌋₊
    if k = ndiv.getD i 0 then k - 1 else k
  if ndim = 2 then ix 0 + ix 1 * ndiv.getD 0 0
  else ix 0 + ix 1 * ndiv.getD 0 0 + ix 2 * ndiv.getD 0 0 * ndiv.getD 1 0

/-- One cell — /repo/src/mesh/grid_cells.rs:144-169. -/
def scanCell (m : Mesh ℝ) (s : Scan) (cell : Cell) : Res Scan := do
  let s ← cell.points.zipIdx.foldlM (fun (s : Scan) (pk : Nat × Nat) => scanPoint m (pk.2 == 0) pk.1 s) s
  .ok { s with
    largest := (List.range m.ndim).map fun i => max (at' s.largest i) (fl (at' s.box.2 i - at' s.box.1 i))
    boxes := s.boxes ++ [s.box] }

/-- The first loop — /repo/src/mesh/grid_cells.rs:138-169. -/
def scan (m : Mesh ℝ) : Res Scan :=
  m.cells.foldlM (scanCell fl m)
    { xmin := List.replicate m.ndim f64Max, xmax := List.replicate m.ndim (-f64Max),
      box := (List.replicate m.ndim 0, List.replicate m.ndim 0), largest := List.replicate m.ndim (-f64Max), boxes := [] }

/-- Extent of a bounding box — /repo/src/mesh/grid_cells.rs:181-184. -/
def extent (b : List ℝ × List ℝ) (i : Nat) : ℝ := fl (at' b.2 i - at' b.1 i)

/-- The large cells and the largest length among the others — /repo/src/mesh/grid_cells.rs:178-193. -/
def splitLarge (ndim : Nat) (boxes : List (List ℝ × List ℝ)) (threshold : ℝ) : List Nat × ℝ :=
  boxes.zipIdx.foldl (fun (acc : List Nat × ℝ) bk =>
    if largestOf ndim (extent fl bk.1) ≥ threshold then (acc.1 ++ [bk.2], acc.2)
    else (acc.1, (List.range ndim).foldl (fun s i => max s (extent fl bk.1 i)) acc.2)) ([], -f64Max)

/-- The loop that fills the containers — /repo/src/mesh/grid_cells.rs:228-248. -/
def fill (ndim : Nat) (side : ℝ) (ndiv : List Nat) (xmin : List ℝ) (boxes : List (List ℝ × List ℝ)) (large : List Nat) :
    HMap Nat (List Nat) :=
  boxes.zipIdx.foldl (fun (c : HMap Nat (List Nat)) bk =>
    if bk.2 ∈ large then c
    else (corners ndim bk.1).foldl (fun c x => addTo c (containerKey fl ndim side ndiv xmin x) bk.2) c) []

/-- `GridCells::new` — /repo/src/mesh/grid_cells.rs:90-261. -/
def new (m : Mesh ℝ) (tolerance borderTol largeCutoff largePct : Option ℝ) : Res GridCells :=
  let ndim := m.ndim
  let tolerance := tolerance.getD (fl (1 / 10000))
  if tolerance ≤ 0 then .err "tolerance must be > 0.0"
  else
    let borderTol := borderTol.getD (fl (1 / 100))
    if borderTol < 0 then .err "border_tol must be ≥ 0.0"
    else
      let cutoff := largeCutoff.getD (fl (3 / 4))
      if cutoff < 0 ∨ cutoff > 1 then .err "large_cutoff must be in [0.0, 1.0]"
      else
        let largePct := largePct.getD (fl (1 / 5))
        if largePct < 0 ∨ largePct > 1 then .err "large_pct must be in [0.0, 1.0]"
        else do
          let s ← scan fl m
          let largestLength := largestOf ndim (at' s.largest)
          let sl := splitLarge fl ndim s.boxes (fl (cutoff * largestLength))
          let pct : ℝ := fl (fl (sl.1.length : ℝ) / fl (m.cells.length : ℝ))
          let large := if pct ≤ largePct then sl.1 else []
          let side := fl ((if pct ≤ largePct then sl.2 else largestLength) + fl (2 * tolerance))
          let xmin := if borderTol > 0 then s.xmin.map (fun v => fl (v - borderTol)) else s.xmin
          let xmax := if borderTol > 0 then s.xmax.map (fun v => fl (v + borderTol)) else s.xmax
          if ∃ i < ndim, ¬ at' xmax i > at' xmin i then .panic
          else
            let ndiv := (List.range ndim).map fun i => ⌈fl (fl (at' xmax i - at' xmin i) / side)⌉₊
            let xmax := (List.range ndim).map fun i => fl (at' xmin i + fl (side * fl ((ndiv.getD i 0 : Nat) : ℝ)))
            .ok { mesh := m, ndiv := ndiv, xmin := xmin, xmax := xmax, sideLength := side, boxes := s.boxes,
                  containers := fill fl ndim side ndiv xmin s.boxes large, largeCells := large }

/-- `GridCells::in_cell` — /repo/src/mesh/grid_cells.rs:264-290: the answer and the new content of `ksi_or_zeta`. -/
def inCell (g : GridCells) (zeta x : List ℝ) (cellId : Nat) : Res (Bool × List ℝ) := do
  let b ← Res.idx g.boxes cellId
  if ∃ i < g.mesh.ndim, at' x i < at' b.1 i ∨ at' x i > at' b.2 i then .ok (false, zeta)
  else do
    let cell ← Res.idx g.mesh.cells cellId
    let corner := fun (k : Nat) => (do
      let pid ← Res.idx cell.points k
      let p ← Res.idx g.mesh.points pid
      .ok p.coords : Res (List ℝ))
    if cell.kind = .tri3 then do
      let xa ← corner 0
      let xb ← corner 1
      let xc ← corner 2
      if xa.length < 2 ∨ xb.length < 2 ∨ xc.length < 2 ∨ x.length < 2 then .panic
      else
        let z := Rounded.triangleCoords fl (at' xa 0, at' xa 1) (at' xb 0, at' xb 1) (at' xc 0, at' xc 1) (at' x 0, at' x 1)
        .ok (inTriangle z, [z.1, z.2.1, z.2.2, at' zeta 3])
    else if cell.kind = .tet4 then do
      let xa ← corner 0
      let xb ← corner 1
      let xc ← corner 2
      let xd ← corner 3
      if xa.length < 3 ∨ xb.length < 3 ∨ xc.length < 3 ∨ xd.length < 3 ∨ x.length < 3 then .panic
      else
        let z := Rounded.tetrahedronCoords fl (at' xa 0, at' xa 1, at' xa 2) (at' xb 0, at' xb 1, at' xb 2) (at' xc 0, at' xc 1, at' xc 2)
          (at' xd 0, at' xd 1, at' xd 2) (at' x 0, at' x 1, at' x 2)
        .ok (inTetrahedron z, [z.1, z.2.1, z.2.2.1, z.2.2.2])
    else .panic

/-- A loop of `search` over a set of cells — /repo/src/mesh/grid_cells.rs:321-325, 335-339. -/
def searchIn (g : GridCells) (x : List ℝ) : List Nat → List ℝ → Res (Option Nat × List ℝ)
  | [], zeta => .ok (none, zeta)
  | id :: ids, zeta => do
    let r ← inCell fl g zeta x id
    if r.1 then .ok (some id, r.2) else searchIn g x ids r.2

/-- `GridCells::search` — /repo/src/mesh/grid_cells.rs:303-343: the cell and the content of `ksi_or_zeta` (not modified if there is an error). `iter` is
the iteration order of hash sets. -/
def search (iter : List Nat → List Nat) (g : GridCells) (zeta x : List ℝ) : Res (Option Nat × List ℝ) :=
  if zeta.length ≠ 4 then .err "length of ksi_or_zeta must be equal to 4"
  else if x.length ≠ g.mesh.ndim then .err "length of x must be equal to ndim"
  else if ∃ i < g.mesh.ndim, at' x i < at' g.xmin i ∨ at' x i > at' g.xmax i then .err "given point coordinates are outside the grid"
  else do
    let r ← searchIn fl g x (iter g.largeCells) zeta
    match r.1 with
    | some id => .ok (some id, r.2)
    | none =>
      match g.containers.get (containerKey fl g.mesh.ndim g.sideLength g.ndiv g.xmin x) with
      | none => .ok (none, r.2)
      | some c => searchIn fl g x (iter c) r.2

end
end Gemlab.Rounded.Cells
