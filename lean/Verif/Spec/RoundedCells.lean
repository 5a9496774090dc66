import Verif.Spec.GridCells
import Verif.Spec.Rounding
import Verif.Props.RoundedTriangle
import Verif.Props.RoundedTetrahedron

/-!
# Meshes of triangles and tetrahedra in floating-point arithmetic

`u` is the relative error of one operation and `M` is a bound of the coordinates. `depth` and `depth4` (defined with C91 and C92) are the exact distances from the
sides of a triangle or tetrahedron, times the length of the edge or twice the area of the face, and positive inside.
-/
namespace Gemlab.Rounded.Cells
noncomputable section
open Gemlab.Mesh
open Gemlab.GridCells (coord)

/-- The corners of a triangle of the mesh. -/
def triOf (m : Mesh ℝ) (p q r : Nat) : Corners := ![(coord m p 0, coord m p 1), (coord m q 0, coord m q 1), (coord m r 0, coord m r 1)]

/-- The corners of a tetrahedron of the mesh. -/
def tetOf (m : Mesh ℝ) (p q r s : Nat) : Corners4 :=
  ![(coord m p 0, coord m p 1, coord m p 2), (coord m q 0, coord m q 1, coord m q 2), (coord m r 0, coord m r 1, coord m r 2),
    (coord m s 0, coord m s 1, coord m s 2)]

/-- The point is in the cell and not nearer to its sides than the rounding error. -/
def Deep (u M : ℝ) (m : Mesh ℝ) (c : Cell) (x : List ℝ) : Prop :=
  match m.ndim, c.points with
  | 2, [p, q, r] => ∀ i, 23 * (u * M ^ 2) ≤ depth (triOf m p q r) i (at' x 0, at' x 1)
  | 3, [p, q, r, s] => ∀ i, 225 * (u * M ^ 3) ≤ depth4 (tetOf m p q r s) i (at' x 0, at' x 1, at' x 2)
  | _, _ => False

/-- The point is in the cell, or outside it but not farther from the cell's sides than the rounding error. -/
def Near (u M : ℝ) (m : Mesh ℝ) (c : Cell) (x : List ℝ) : Prop :=
  match m.ndim, c.points with
  | 2, [p, q, r] => ∀ i, -(23 * (u * M ^ 2)) ≤ depth (triOf m p q r) i (at' x 0, at' x 1)
  | 3, [p, q, r, s] => ∀ i, -(225 * (u * M ^ 3)) ≤ depth4 (tetOf m p q r s) i (at' x 0, at' x 1, at' x 2)
  | _, _ => False

/-- The cell is not flatter than the rounding error. -/
def Thick (u M : ℝ) (m : Mesh ℝ) (c : Cell) : Prop :=
  match m.ndim, c.points with
  | 2, [p, q, r] => 23 * (u * M ^ 2) < |area2 (triOf m p q r)|
  | 3, [p, q, r, s] => 400 * (u * M ^ 3) < |vol6 (tetOf m p q r s)|
  | _, _ => False

/-- The coordinates of the points of the mesh are floating-point numbers not larger than `M`. -/
def Floats (fl : ℝ → ℝ) (M : ℝ) (m : Mesh ℝ) : Prop := ∀ p ∈ m.points, ∀ v ∈ p.coords, IsFloat fl v ∧ |v| ≤ M

end
end Gemlab.Rounded.Cells
