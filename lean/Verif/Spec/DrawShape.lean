import Verif.Model.DrawShape
import Verif.Spec.RefShapes

/-! # What a drawing of a shape consists of (C84) -/
namespace Gemlab.DrawShape
open Gemlab Gemlab.Shapes Gemlab.Draw Gemlab.Spec
noncomputable section

/-- The calls that draw the open broken line through the points given (plane: path codes; space: polyline). -/
def brokenLine (d : Nat) (pts : List (Nat → ℝ)) : List Cmd :=
  if d = 2 then
    [.curveBegin] ++ ((pts.take 1).map fun x => .curveAdd (x 0) (x 1) .moveTo) ++ ((pts.drop 1).map fun x => .curveAdd (x 0) (x 1) .lineTo) ++
      [.curveEnd false]
  else [.lineBegin] ++ (pts.map fun x => .lineAdd (x 0) (x 1) (x 2)) ++ [.lineEnd]

/-- The point of space (coordinate `j`) which the shape gives to the point `ξ` of the reference shape. -/
def place (pad : Scratchpad) (ξ : Nat → ℝ) (j : Nat) : ℝ := interpolate pad.kind (fun m => pad.xxt j m) ξ

/-- The eleven evenly spaced values from `-1` to `1`. -/
def stations : List ℝ := (List.range 11).map fun i => -1 + (i : ℝ) / 5

/-- A scratchpad made by `Scratchpad::new` whose coordinates have been set. -/
structure Ready (pad : Scratchpad) : Prop where
  space : pad.spaceNdim = 2 ∨ pad.spaceNdim = 3
  fits : pad.kind.ndim ≤ pad.spaceNdim
  set : pad.okXxt = true

/-- The number of corners of a shape. -/
def corners (k : GeoKind) : Nat :=
  match k.classOf with
  | .lin => 2 | .tri => 3 | .qua => 4 | .tet => 4 | .hex => 8

/-- The text with the number of a node, written at the node. -/
def nodeLabel (pad : Scratchpad) (m : Nat) : Mark := .text ((List.range pad.spaceNdim).map fun j => pad.xxt j m) none (toString m)

end
end Gemlab.DrawShape
