import Verif.Model.Draw
import Verif.Model.DrawMarks

/-!
# Model of `Scratchpad::draw_shape` (`/repo/src/shapes/scratchpad_draw_shape.rs`)

The canvas is the list of the calls it receives (`Draw.Cmd`), the labels are lists of texts (`Draw.Mark`). Colors, line widths, fonts and
the file of `draw_shape_simple` are not modelled. Exact real arithmetic.
-/
namespace Gemlab.DrawShape
open Gemlab Gemlab.Shapes Gemlab.Draw Gemlab.Scratchpad
noncomputable section

/-- `ksi_min + ksi_del * (i as f64) / ((N - 1) as f64)`, with `N = 11` — scratchpad_draw_shape.rs:156-157, 167, 177. -/
def kval (i : Nat) : ℝ := -1 + 2 * (i : ℝ) / ((11 - 1 : Nat) : ℝ)

/-- The loop of `draw_edge`: the coordinates calculated for each index — scratchpad_draw_shape.rs:166-169, 176-178. -/
def sample : List Nat → Scratchpad → Res (List (Nat × (Nat → ℝ)) × Scratchpad)
  | [], pad => .ok ([], pad)
  | i :: is, pad => do
    let x ← pad.calcCoords pad.spaceNdim (fun k => if k = 0 then kval i else 0)
    let r ← sample is x.2
    pure ((i, x.1) :: r.1, r.2)

/-- `draw_edge` — scratchpad_draw_shape.rs:155-183. -/
def drawEdge (pad : Scratchpad) : Res (List Cmd × Scratchpad) := do
  let r ← sample (List.range 11) pad
  if pad.spaceNdim = 2 then
    pure ([.curveBegin] ++ r.1.map (fun p => .curveAdd (p.2 0) (p.2 1) (if p.1 = 0 then .moveTo else .lineTo)) ++ [.curveEnd false], r.2)
  else
    pure ([.lineBegin] ++ r.1.map (fun p => .lineAdd (p.2 0) (p.2 1) (p.2 2)) ++ [.lineEnd], r.2)

/-- The loops setting the coordinates of the edge — scratchpad_draw_shape.rs:34-39. -/
def setEdge (pad : Scratchpad) (e : Nat) (edgePad : Scratchpad) : Res Scratchpad :=
  (List.range pad.kind.edgeNnode).foldlM (fun ep i =>
    (List.range pad.spaceNdim).foldlM (fun ep j => ep.setXx i j (pad.xxt j (edgeNode pad.kind e i))) ep) edgePad

/-- The loop over the edges; the scratchpad of the edges is used again for each of them — scratchpad_draw_shape.rs:33-41. -/
def edges (pad : Scratchpad) : List Nat → Scratchpad → Res (List Cmd)
  | [], _ => .ok []
  | e :: es, ep => do
    let ep ← setEdge pad e ep
    let d ← drawEdge ep
    let r ← edges pad es d.2
    pure (d.1 ++ r)

/-- The canvas — scratchpad_draw_shape.rs:27-42. -/
def outline (pad : Scratchpad) : Res (List Cmd) :=
  if pad.kind.ndim = 1 then do
    let d ← drawEdge pad
    pure d.1
  else do
    let ek ← Mesh.unwrap pad.kind.edgeKind
    let ep ← Scratchpad.new pad.spaceNdim ek
    edges pad (List.range pad.kind.nedge) ep

/-- `m_corner_max` — scratchpad_draw_shape.rs:63-69, 78-82. -/
def cornerMax (pad : Scratchpad) : Nat :=
  if pad.spaceNdim = 2 then
    match pad.kind.classOf with
    | .lin => 2
    | .tri => 3
    | .qua => 4
    | .tet => 4
    | .hex => 8
  else
    let n := if pad.kind.isTriOrTet then 4 else 8
    if pad.kind.ndim = 2 then 0 else n

/-- The label of a node — scratchpad_draw_shape.rs:72-74, 85-97. -/
def label (pad : Scratchpad) (m : Nat) : Mark :=
  if pad.spaceNdim = 2 then .text [pad.xxt 0 m, pad.xxt 1 m] none s!"{m}"
  else .text [pad.xxt 0 m, pad.xxt 1 m, pad.xxt 2 m] none s!"{m}"

/-- `labels_corner` and `labels_middle` — scratchpad_draw_shape.rs:45-46, 70-76, 83-99. -/
def labels (pad : Scratchpad) : List Mark × List Mark :=
  (List.range pad.kind.nnode).foldl (fun s m =>
    if m < cornerMax pad then (s.1 ++ [label pad m], s.2) else (s.1, s.2 ++ [label pad m])) ([], [])

/-- The arguments of `set_range` (two intervals) or `set_range_3d` (three) — scratchpad_draw_shape.rs:104-138; `big` and `low` are `f64::MAX`
and `f64::MIN`. -/
def range (big low : ℝ) (pad : Scratchpad) : List (ℝ × ℝ) :=
  let xmin := nodeMin big pad
  let xmax := nodeMax low pad
  let dx := if xmax 0 - xmin 0 ≤ 0 then 1 else xmax 0 - xmin 0
  let dy := if xmax 1 - xmin 1 ≤ 0 then 1 else xmax 1 - xmin 1
  let pct : ℝ := 2 / 100
  if pad.spaceNdim = 2 then
    [(xmin 0 - dx * pct, xmax 0 + dx * pct), (xmin 1 - dy * pct, xmax 1 + dy * pct)]
  else
    let dz := xmax 2 - xmin 2
    [(xmin 0 - dx * pct, xmax 0 + dx * pct), (xmin 1 - dy * pct, xmax 1 + dy * pct), (xmin 2 - dz * pct, xmax 2 + dz * pct)]

/-- What is added to the plot: the canvas, the labels (corners, others) and the range. -/
structure Picture where
  canvas : List Cmd
  labels : Option (List Mark × List Mark)
  range : Option (List (ℝ × ℝ))

/-- `Scratchpad::draw_shape` — scratchpad_draw_shape.rs:16-141. -/
def drawShape (big low : ℝ) (pad : Scratchpad) (withIds setRange : Bool) : Res Picture :=
  if !pad.okXxt then .err "all components of the coordinates matrix must be set first"
  else do
    let c ← outline pad
    pure ⟨c, if withIds then some (labels pad) else none, if setRange then some (range big low pad) else none⟩

end
end Gemlab.DrawShape
