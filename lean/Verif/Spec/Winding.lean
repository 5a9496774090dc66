import Verif.Spec.Features
import Mathlib.Analysis.Convex.Segment

/-!
# Winding numbers

The number of times that directed sides run around a point of the plane, counted by the sides that meet the ray from the point to the right: upwards
counts one, downwards minus one.
-/
namespace Gemlab.Mesh
open Gemlab.Shapes
noncomputable section

/-- Twice the signed area of the triangle `a`, `b`, `p`: positive if `p` is on the left of the line from `a` to `b`. -/
def sideOf (a b p : ℝ × ℝ) : ℝ := (b.1 - a.1) * (p.2 - a.2) - (p.1 - a.1) * (b.2 - a.2)

/-- How the side from `a` to `b` meets the ray from `p` to the right: `1` (upwards), `-1` (downwards) or `0` (not at all). -/
def crossing (p a b : ℝ × ℝ) : ℤ :=
  if a.2 ≤ p.2 ∧ p.2 < b.2 ∧ 0 < sideOf a b p then 1 else if b.2 ≤ p.2 ∧ p.2 < a.2 ∧ sideOf a b p < 0 then -1 else 0

/-- The winding number around `p` of the directed sides in the list. -/
def windingNumber (p : ℝ × ℝ) (l : List ((ℝ × ℝ) × (ℝ × ℝ))) : ℤ := (l.map fun s => crossing p s.1 s.2).sum

/-- The sides of the polygon with these corners. -/
def sidesOf {α : Type} : List α → List (α × α)
  | [] => []
  | a :: l => (a :: l).zip (l ++ [a])

/-- The polygon is convex, and its (distinct) corners are listed counterclockwise: all other corners are on the left of every side. -/
def ConvexCcw (l : List (ℝ × ℝ)) : Prop := 3 ≤ l.length ∧ l.Nodup ∧ ∀ s ∈ sidesOf l, ∀ q ∈ l, q = s.1 ∨ q = s.2 ∨ 0 < sideOf s.1 s.2 q

/-- `p` is in the interior of the convex polygon. -/
def InPolygon (l : List (ℝ × ℝ)) (p : ℝ × ℝ) : Prop := ∀ s ∈ sidesOf l, 0 < sideOf s.1 s.2 p

/-- `p` is in the convex polygon or on its boundary. -/
def InClosedPolygon (l : List (ℝ × ℝ)) (p : ℝ × ℝ) : Prop := ∀ s ∈ sidesOf l, 0 ≤ sideOf s.1 s.2 p

/-- `p` is on a side of the polygon. -/
def OnSide (l : List (ℝ × ℝ)) (p : ℝ × ℝ) : Prop := ∃ s ∈ sidesOf l, p ∈ segment ℝ s.1 s.2

/-- Position of a point of a mesh in the plane. -/
def planePoint (m : Mesh ℝ) (p : Nat) : ℝ × ℝ := ((coordsOf m p).getD 0 0, (coordsOf m p).getD 1 0)

/-- The corners of a triangle or quadrilateral (its first three or four nodes). -/
def cornersOf (m : Mesh ℝ) (cell : Cell) : List (ℝ × ℝ) := (List.range (if cell.kind.classOf = .tri then 3 else 4)).map fun i => planePoint m (cell.points.getD i 0)

end
end Gemlab.Mesh
