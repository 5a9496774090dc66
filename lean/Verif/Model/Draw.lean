import Verif.Model.Scratchpad
import Verif.Model.Features

/-!
# Model of `mesh/draw_cell.rs`: the curves drawn for a cell

`plotpy::Canvas` is another package. A canvas is modelled by the list of the commands it receives; what the commands mean is part of the
specification (`Spec/Draw`). Numbers are exact reals.
-/
namespace Gemlab.Draw
open Gemlab.Mesh Gemlab.Shapes

/-- The codes used, of `plotpy::PolyCode`. -/
inductive PolyCode | moveTo | lineTo | curve3 | curve4
  deriving DecidableEq

/-- The calls received by the canvas: `polycurve_begin`, `polycurve_add`, `polycurve_end`, `polyline_3d_begin`, `polyline_3d_add`,
`polyline_3d_end`. -/
inductive Cmd
  | curveBegin
  | curveAdd (x y : ℝ) (code : PolyCode)
  | curveEnd (closed : Bool)
  | lineBegin
  | lineAdd (x y z : ℝ)
  | lineEnd

/-- `(pp[i].coords[0], pp[i].coords[1])`, e.g. draw_cell.rs:188. -/
def xy (m : Mesh ℝ) (i : Nat) : Res (ℝ × ℝ) := do
  let p ← Res.idx m.points i
  let x ← Res.idx p.coords 0
  let y ← Res.idx p.coords 1
  pure (x, y)

/-- `(pp[i].coords[0], pp[i].coords[1], pp[i].coords[2])`, e.g. draw_cell.rs:178. -/
def xyz (m : Mesh ℝ) (i : Nat) : Res (ℝ × ℝ × ℝ) := do
  let p ← Res.idx m.points i
  let x ← Res.idx p.coords 0
  let y ← Res.idx p.coords 1
  let z ← Res.idx p.coords 2
  pure (x, y, z)

/-- The first commands of a curve, if `begin` — draw_cell.rs:165-168, 193-196, 228-231, 274-277. -/
def curveStart (start : Bool) (a : ℝ × ℝ) : List Cmd := if start then [.curveBegin, .curveAdd a.1 a.2 .moveTo] else []

/-- The last command of a curve, if `end` — draw_cell.rs:170-172, 200-202, 236-238, 282-284. -/
def curveStop (stop : Bool) : List Cmd := if stop then [.curveEnd false] else []

/-- The first commands of a polyline, if `begin` — draw_cell.rs:174-177, 204-207, 240-243, 286-289. -/
def lineStart (start : Bool) (a : ℝ × ℝ × ℝ) : List Cmd := if start then [.lineBegin, .lineAdd a.1 a.2.1 a.2.2] else []

/-- The last command of a polyline, if `end` — draw_cell.rs:179-181, 211-213, 248-250, 295-297. -/
def lineStop (stop : Bool) : List Cmd := if stop then [.lineEnd] else []

/-- `polyline_3d_add` of a point. -/
def lineTo3 (a : ℝ × ℝ × ℝ) : Cmd := .lineAdd a.1 a.2.1 a.2.2

/-- Control points of the cubic curve — draw_cell.rs:224-227 (and 270-273), one component. -/
noncomputable def controlC (a b c d : ℝ) : ℝ := (-5 * a + 2 * b + 18 * c - 9 * d) / 6
noncomputable def controlD (a b c d : ℝ) : ℝ := (2 * a - 5 * b - 9 * c + 18 * d) / 6

/-- The commands of the cubic curve — draw_cell.rs:224-238 and 270-284. -/
noncomputable def cubicCmds (a b c d : ℝ × ℝ) (start stop : Bool) : List Cmd :=
  curveStart start a ++
    [.curveAdd (controlC a.1 b.1 c.1 d.1) (controlC a.2 b.2 c.2 d.2) .curve4,
     .curveAdd (controlD a.1 b.1 c.1 d.1) (controlD a.2 b.2 c.2 d.2) .curve4,
     .curveAdd b.1 b.2 .curve4] ++ curveStop stop

/-- `Lin2` — draw_cell.rs:163-183. -/
def addLin2 (m : Mesh ℝ) (ii : List Nat) (start stop : Bool) : Res (List Cmd) := do
  let i0 ← Res.idx ii 0
  let i1 ← Res.idx ii 1
  if m.ndim = 2 then do
    let a ← xy m i0
    let b ← xy m i1
    pure (curveStart start a ++ [.curveAdd b.1 b.2 .lineTo] ++ curveStop stop)
  else do
    let a ← xyz m i0
    let b ← xyz m i1
    pure (lineStart start a ++ [lineTo3 b] ++ lineStop stop)

/-- `Lin3` — draw_cell.rs:184-215. -/
noncomputable def addLin3 (m : Mesh ℝ) (ii : List Nat) (start stop : Bool) : Res (List Cmd) := do
  let i0 ← Res.idx ii 0
  let i1 ← Res.idx ii 1
  let i2 ← Res.idx ii 2
  if m.ndim = 2 then do
    let a ← xy m i0
    let b ← xy m i1
    let c ← xy m i2
    let qx := (-a.1 - b.1 + 4 * c.1) / 2
    let qy := (-a.2 - b.2 + 4 * c.2) / 2
    pure (curveStart start a ++ [.curveAdd qx qy .curve3, .curveAdd b.1 b.2 .curve3] ++ curveStop stop)
  else do
    let a ← xyz m i0
    let b ← xyz m i1
    let c ← xyz m i2
    pure (lineStart start a ++ [lineTo3 c, lineTo3 b] ++ lineStop stop)

/-- `Lin4` — draw_cell.rs:216-252. -/
noncomputable def addLin4 (m : Mesh ℝ) (ii : List Nat) (start stop : Bool) : Res (List Cmd) := do
  let i0 ← Res.idx ii 0
  let i1 ← Res.idx ii 1
  let i2 ← Res.idx ii 2
  let i3 ← Res.idx ii 3
  if m.ndim = 2 then do
    let a ← xy m i0
    let b ← xy m i1
    let c ← xy m i2
    let d ← xy m i3
    pure (cubicCmds a b c d start stop)
  else do
    let a ← xyz m i0
    let b ← xyz m i1
    let c ← xyz m i2
    let d ← xyz m i3
    pure (lineStart start a ++ [lineTo3 c, lineTo3 d, lineTo3 b] ++ lineStop stop)

/-- The pad of a curve with five nodes: `Scratchpad::new(...).unwrap()` and the loop over the points, which is the one of `set_pad` —
draw_cell.rs:258-263. -/
noncomputable def lin5Pad (m : Mesh ℝ) (ii : List Nat) : Res Scratchpad := do
  let pad ← unwrapRes (Scratchpad.new m.ndim .lin5)
  setPad m pad ii

/-- `pad.calc_coords(&mut x, &[r, 0.0]).unwrap()` — draw_cell.rs:266-269. -/
noncomputable def lin5At (m : Mesh ℝ) (pad : Scratchpad) (r : ℝ) : Res ((ℝ × ℝ) × Scratchpad) := do
  let x ← unwrapRes (pad.calcCoords m.ndim fun i => if i = 0 then r else 0)
  pure ((x.1 0, x.1 1), x.2)

/-- `Lin5` — draw_cell.rs:253-299. -/
noncomputable def addLin5 (m : Mesh ℝ) (ii : List Nat) (start stop : Bool) : Res (List Cmd) := do
  let i0 ← Res.idx ii 0
  let i1 ← Res.idx ii 1
  let i2 ← Res.idx ii 2
  let i3 ← Res.idx ii 3
  let i4 ← Res.idx ii 4
  if m.ndim = 2 then do
    let pad ← lin5Pad m ii
    let a ← xy m i0
    let b ← xy m i1
    let c ← lin5At m pad (-(1 / 3))
    let d ← lin5At m c.2 (1 / 3)
    pure (cubicCmds a b c.1 d.1 start stop)
  else do
    let a ← xyz m i0
    let b ← xyz m i1
    let c ← xyz m i2
    let d ← xyz m i3
    let e ← xyz m i4
    pure (lineStart start a ++ [lineTo3 d, lineTo3 c, lineTo3 e, lineTo3 b] ++ lineStop stop)

/-- `Mesh::add_curve` — draw_cell.rs:158-302. -/
noncomputable def addCurve (m : Mesh ℝ) (kind : GeoKind) (ii : List Nat) (start stop : Bool) : Res (List Cmd) :=
  match kind with
  | .lin2 => addLin2 m ii start stop
  | .lin3 => addLin3 m ii start stop
  | .lin4 => addLin4 m ii start stop
  | .lin5 => addLin5 m ii start stop
  | _ => .panic

/-- One call of `add_curve` with the nodes `ns` of the cell. -/
noncomputable def addNodes (m : Mesh ℝ) (cell : Cell) (kind : GeoKind) (ns : List Nat) (start stop : Bool) : Res (List Cmd) := do
  let ii ← ns.mapM fun n => Res.idx cell.points n
  addCurve m kind ii start stop

/-- The outline of a cell in one curve: the first call begins, the last one ends. -/
noncomputable def outline (m : Mesh ℝ) (cell : Cell) (kind : GeoKind) (first : List Nat) (mid : List (List Nat)) (last : List Nat) : Res (List Cmd) := do
  let a ← addNodes m cell kind first true false
  let b ← mid.mapM fun ns => addNodes m cell kind ns false false
  let c ← addNodes m cell kind last false true
  pure (a ++ b.flatten ++ c)

/-- The edges of a solid cell, one curve each; `edge_node_id(e, j)` for the first `n` nodes — draw_cell.rs:96-144. -/
noncomputable def wireframe (m : Mesh ℝ) (cell : Cell) (kind : GeoKind) (n : Nat) : Res (List Cmd) := do
  let a ← (List.range cell.kind.nedge).mapM fun e => addNodes m cell kind ((List.range n).map (edgeNode cell.kind e)) true true
  pure a.flatten

/-- `Mesh::draw_cell` — draw_cell.rs:17-147. -/
noncomputable def drawCell (m : Mesh ℝ) (cellId : Nat) : Res (List Cmd) :=
  if cellId ≥ m.cells.length then .err "cell_id is out-of-range" else do
    let cell ← Res.idx m.cells cellId
    match cell.kind with
    | .lin2 => addCurve m .lin2 cell.points true true
    | .lin3 => addCurve m .lin3 cell.points true true
    | .lin4 => addCurve m .lin4 cell.points true true
    | .lin5 => addCurve m .lin5 cell.points true true
    | .tri3 => outline m cell .lin2 [0, 1] [[1, 2]] [2, 0]
    | .tri6 => outline m cell .lin3 [0, 1, 3] [[1, 2, 4]] [2, 0, 5]
    | .tri10 => outline m cell .lin4 [0, 1, 3, 6] [[1, 2, 4, 7]] [2, 0, 5, 8]
    | .tri15 => outline m cell .lin5 [0, 1, 3, 6, 7] [[1, 2, 4, 8, 9]] [2, 0, 5, 10, 11]
    | .qua4 => outline m cell .lin2 [0, 1] [[1, 2], [2, 3]] [3, 0]
    | .qua8 => outline m cell .lin3 [0, 1, 4] [[1, 2, 5], [2, 3, 6]] [3, 0, 7]
    | .qua9 => outline m cell .lin3 [0, 1, 4] [[1, 2, 5], [2, 3, 6]] [3, 0, 7]
    | .qua12 => outline m cell .lin4 [0, 1, 4, 8] [[1, 2, 5, 9], [2, 3, 6, 10]] [3, 0, 7, 11]
    | .qua16 => outline m cell .lin4 [0, 1, 4, 8] [[1, 2, 5, 9], [2, 3, 6, 10]] [3, 0, 7, 11]
    | .qua17 => outline m cell .lin5 [0, 1, 4, 9, 10] [[1, 2, 5, 11, 12], [2, 3, 6, 13, 14]] [3, 0, 7, 15, 16]
    | .tet4 => wireframe m cell .lin2 2
    | .tet10 => wireframe m cell .lin3 3
    | .tet20 => wireframe m cell .lin4 4
    | .hex8 => wireframe m cell .lin2 2
    | .hex20 => wireframe m cell .lin3 3
    | .hex32 => wireframe m cell .lin4 4

end Gemlab.Draw
