import Verif.Model.DrawShape
import Verif.Model.GridCells
import Verif.Model.GridSearch
import Verif.Model.Block

/-!
# Model of the drawings of grids and blocks

`GridSearch::draw` (util/grid_search.rs:609-652), `GridCells::draw` (mesh/grid_cells.rs:351-468) and `Block::draw` (mesh/block.rs:358-375).

What the objects of `plotpy` receive is listed; `Canvas::draw_grid` (of `plotpy`) is recorded with its arguments, and is assumed to accept them
(as it does in two and three dimensions). Colors, line widths and fonts are not modelled. The hash maps and sets are iterated in any order.
-/
namespace Gemlab.DrawGrids
open Gemlab Gemlab.Mesh Gemlab.Draw Gemlab.DrawShape
noncomputable section

/-- The arguments of `draw_grid`: copies of the limits and numbers of divisions — grid_search.rs:611-622, grid_cells.rs:405-418. -/
def gridArgs (ndim : Nat) (xmin xmax : List ℝ) (ndiv : List Nat) : Res (List ℝ × List ℝ × List Nat) := do
  let a ← (List.range ndim).mapM fun i => Res.idx xmin i
  let b ← (List.range ndim).mapM fun i => Res.idx xmax i
  let n ← (List.range ndim).mapM fun i => Res.idx ndiv i
  pure (a, b, n)

/-- `x[0], x[1]` (and `x[2]` if the dimension is not two) — grid_search.rs:637-647. -/
def components (ndim : Nat) (x : List ℝ) : Res (List ℝ) := do
  let a ← Res.idx x 0
  let b ← Res.idx x 1
  if ndim = 2 then pure [a, b]
  else do
    let c ← Res.idx x 2
    pure [a, b, c]

/-- A drawing of the items of a grid. -/
structure Items where
  grid : List ℝ × List ℝ × List Nat
  curve : List Mark
  text : List Mark

/-- `GridSearch::draw` — grid_search.rs:609-652. -/
def drawSearch (iter : List (Nat × HMap Nat (List ℝ)) → List (Nat × HMap Nat (List ℝ)))
    (iterC : List (Nat × List ℝ) → List (Nat × List ℝ)) (g : GridSearch) (withIds : Bool) : Res Items := do
  let grid ← gridArgs g.ndim g.xmin g.xmax g.ndiv
  let items ← (iter g.containers).mapM fun container => (iterC container.2).mapM fun e => do
    let x ← components g.ndim e.2
    pure (e.1, x)
  let items := items.flatten
  pure ⟨grid, items.map fun e => .dot e.2, if withIds then items.map fun e => .text e.2 none s!"{e.1}" else []⟩

/-- The component `i` of the center of the label of a cell: the sum over the nodes — grid_cells.rs:359-371. -/
def center (m : Mesh ℝ) (cell : Cell) (i : Nat) : Res ℝ := do
  let s ← cell.points.zipIdx.foldlM (fun (acc : ℝ) (p : Nat × Nat) => do
    let q ← Res.idx m.points p.1
    let x ← Res.idx q.coords i
    pure (if p.2 = 0 then x else acc + x)) 0
  pure (s / (cell.points.length : ℝ))

/-- `draw_ids` — grid_cells.rs:357-377. -/
def idText (m : Mesh ℝ) (cell : Cell) : Res Mark := do
  let c ← (List.range m.ndim).mapM fun i => center m cell i
  let x ← components m.ndim c
  pure (.text x none s!"{cell.id}")

/-- The loop over a container or over the large cells — grid_cells.rs:383-389, 392-398. -/
def drawCells (m : Mesh ℝ) (withIds : Bool) (ids : List Nat) : Res (List (List Cmd × List Mark)) :=
  ids.mapM fun id => do
    let cell ← Res.idx m.cells id
    let c ← drawCell m id
    if withIds then do
      let t ← idText m cell
      pure (c, [t])
    else pure (c, [])

/-- One bounding box (smallest and largest coordinates) — grid_cells.rs:426-463. -/
def drawBox (ndim : Nat) (b : List ℝ × List ℝ) : Res (List Cmd) := do
  let x0 ← Res.idx b.1 0
  let x1 ← Res.idx b.2 0
  let y0 ← Res.idx b.1 1
  let y1 ← Res.idx b.2 1
  if ndim = 2 then
    pure [.curveBegin, .curveAdd x0 y0 .moveTo, .curveAdd x1 y0 .lineTo, .curveAdd x1 y1 .lineTo, .curveAdd x0 y1 .lineTo, .curveEnd true]
  else do
    let z0 ← Res.idx b.1 2
    let z1 ← Res.idx b.2 2
    pure [.lineBegin, .lineAdd x0 y0 z0, .lineAdd x1 y0 z0, .lineAdd x1 y1 z0, .lineAdd x0 y1 z0, .lineAdd x0 y0 z0, .lineEnd,
      .lineBegin, .lineAdd x0 y0 z1, .lineAdd x1 y0 z1, .lineAdd x1 y1 z1, .lineAdd x0 y1 z1, .lineAdd x0 y0 z1, .lineEnd,
      .lineBegin, .lineAdd x0 y0 z0, .lineAdd x0 y0 z1, .lineEnd,
      .lineBegin, .lineAdd x1 y0 z0, .lineAdd x1 y0 z1, .lineEnd,
      .lineBegin, .lineAdd x1 y1 z0, .lineAdd x1 y1 z1, .lineEnd,
      .lineBegin, .lineAdd x0 y1 z0, .lineAdd x0 y1 z1, .lineEnd]

/-- A drawing of a grid of cells. -/
structure CellsPicture where
  cells : List Cmd
  ids : Option (List Mark)
  grid : List ℝ × List ℝ × List Nat
  boxes : List (List Cmd)

/-- `GridCells::draw` — grid_cells.rs:351-468. -/
def drawGridCells (iter : List (Nat × List Nat) → List (Nat × List Nat)) (iterS : List Nat → List Nat) (g : GridCells) (withIds : Bool) :
    Res CellsPicture := do
  let a ← (iter g.containers).mapM fun container => drawCells g.mesh withIds (iterS container.2)
  let b ← drawCells g.mesh withIds (iterS g.largeCells)
  let parts := a.flatten ++ b
  let grid ← gridArgs g.mesh.ndim g.xmin g.xmax g.ndiv
  let boxes ← g.boxes.mapM (drawBox g.mesh.ndim)
  pure ⟨parts.flatMap (·.1), if withIds then some (parts.flatMap (·.2)) else none, grid, boxes⟩

/-- `Block::draw` — block.rs:358-375: the circles (center and radius) and the shape. -/
def drawBlock (big low : ℝ) (iter : List (Nat × Constraint2d) → List (Nat × Constraint2d)) (b : Block) (withIds setRange : Bool) :
    Res (List (ℝ × ℝ × ℝ) × Picture) := do
  let circles := if b.ndim = 2 ∧ b.edgeConstraints.length > 0 then
      (iter b.edgeConstraints).map fun e => match e.2 with | .circle xc yc r => (xc, yc, r)
    else []
  let p ← drawShape big low b.pad withIds setRange
  pure (circles, p)

end
end Gemlab.DrawGrids
