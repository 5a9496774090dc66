import Verif.Model.Draw
import Verif.Spec.Features
import Verif.Spec.RefShapes
import Mathlib.Data.Nat.Choose.Sum

/-!
# What is drawn

The meaning of the commands of the canvas (those of a path of matplotlib): `MoveTo` sets the pen, `LineTo` draws a straight line, two `Curve3`
are a quadratic and three `Curve4` a cubic Bézier curve (control points, then the end point).
-/
namespace Gemlab.Draw
open Gemlab.Mesh Gemlab.Shapes Gemlab.Spec

/-- The Bézier curve with the given control values (one component) at the parameter `t`: the Bernstein polynomials. -/
noncomputable def bezier (l : List ℝ) (t : ℝ) : ℝ :=
  ∑ i ∈ Finset.range l.length, ((l.length - 1).choose i : ℝ) * t ^ i * (1 - t) ^ (l.length - 1 - i) * l.getD i 0

/-- With the pen at `a`, the commands draw the pieces (each one is the list of its control points, from its first to its last point). -/
inductive IsPath : ℝ × ℝ → List Cmd → List (List (ℝ × ℝ)) → Prop
  | stop (a) : IsPath a [] []
  | line (a b cmds pieces) : IsPath b cmds pieces → IsPath a (.curveAdd b.1 b.2 .lineTo :: cmds) ([a, b] :: pieces)
  | quadratic (a q b cmds pieces) : IsPath b cmds pieces →
      IsPath a (.curveAdd q.1 q.2 .curve3 :: .curveAdd b.1 b.2 .curve3 :: cmds) ([a, q, b] :: pieces)
  | cubic (a q r b cmds pieces) : IsPath b cmds pieces →
      IsPath a (.curveAdd q.1 q.2 .curve4 :: .curveAdd r.1 r.2 .curve4 :: .curveAdd b.1 b.2 .curve4 :: cmds) ([a, q, r, b] :: pieces)

/-- The commands draw one curve, consisting of these pieces. -/
def IsCurve (cmds : List Cmd) (pieces : List (List (ℝ × ℝ))) : Prop :=
  ∃ a body, cmds = .curveBegin :: .curveAdd a.1 a.2 .moveTo :: (body ++ [.curveEnd false]) ∧ IsPath a body pieces

/-- The commands draw one polyline in space through these points. -/
def IsPolyline (cmds : List Cmd) (pts : List (ℝ × ℝ × ℝ)) : Prop :=
  cmds = .lineBegin :: ((pts.map fun p => .lineAdd p.1 p.2.1 p.2.2) ++ [.lineEnd])

/-- Component `d` of the image of the reference coordinates `ξ` by the isoparametric map of the cell. -/
noncomputable def cellMap (m : Mesh ℝ) (cell : Cell) (ξ : Nat → ℝ) (d : Nat) : ℝ :=
  interpolate cell.kind (fun n => (coordsOf m (cell.points.getD n 0)).getD d 0) ξ

/-- The piece is at the place `f` for the parameter `t`. -/
def At (piece : List (ℝ × ℝ)) (t : ℝ) (f : Nat → ℝ) : Prop :=
  bezier (piece.map (·.1)) t = f 0 ∧ bezier (piece.map (·.2)) t = f 1

/-- The nodes of a curve in the order of their positions. -/
def curveOrder : GeoKind → List Nat
  | .lin2 => [0, 1]
  | .lin3 => [0, 2, 1]
  | .lin4 => [0, 2, 3, 1]
  | .lin5 => [0, 3, 2, 4, 1]
  | _ => []

/-- The coordinates of a point. -/
def position (m : Mesh ℝ) (p : Nat) : ℝ × ℝ × ℝ := ((coordsOf m p).getD 0 0, (coordsOf m p).getD 1 0, (coordsOf m p).getD 2 0)

/-- The points of the local edge `e` in the order of their positions. -/
def edgeLine (m : Mesh ℝ) (cell : Cell) (ek : GeoKind) (e : Nat) : List (ℝ × ℝ × ℝ) :=
  (curveOrder ek).map fun j => position m (cell.points.getD (edgeNode cell.kind e j) 0)

/-- A field with the values `u` at the five nodes of a curve is a cubic polynomial: the fourth difference vanishes. -/
def IsCubic (u : Nat → ℝ) : Prop := u 0 - 4 * u 3 + 6 * u 2 - 4 * u 4 + u 1 = 0

end Gemlab.Draw
