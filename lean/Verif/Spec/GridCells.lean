import Verif.Model.GridCells
import Verif.Spec.Features

/-!
# What it means that a point is in a cell

Independent of the grid: the point is a convex combination of the points of the cell.
-/
namespace Gemlab.GridCells
open Gemlab.Mesh
noncomputable section

/-- Component `i` of the coordinates of point `p` of the mesh. -/
def coord (m : Mesh ℝ) (p i : Nat) : ℝ := at' (coordsOf m p) i

/-- `w` are the barycentric coordinates of `x` with respect to the points of the cell: the weights sum to one and reproduce `x`. -/
def Barycentric (m : Mesh ℝ) (c : Cell) (w x : List ℝ) : Prop :=
  w.length = c.points.length ∧ w.sum = 1 ∧
  ∀ i < m.ndim, at' x i = (List.zipWith (fun v p => v * coord m p i) w c.points).sum

/-- The point is in the convex hull of the points of the cell. -/
def InHull (m : Mesh ℝ) (c : Cell) (x : List ℝ) : Prop := ∃ w, Barycentric m c w x ∧ ∀ v ∈ w, 0 ≤ v

/-- `b` is the bounding box (min, max) of the points of the cell: every point is in it, and it is tight. -/
structure IsBox (m : Mesh ℝ) (pts : List Nat) (b : List ℝ × List ℝ) : Prop where
  len1 : b.1.length = m.ndim
  len2 : b.2.length = m.ndim
  mem : ∀ i < m.ndim, ∀ p ∈ pts, at' b.1 i ≤ coord m p i ∧ coord m p i ≤ at' b.2 i
  tight1 : ∀ i < m.ndim, ∃ p ∈ pts, coord m p i = at' b.1 i
  tight2 : ∀ i < m.ndim, ∃ p ∈ pts, coord m p i = at' b.2 i

/-- The edge vectors of the simplex (from its first point) are linearly independent: the determinant is not zero. -/
def NonDegenerate (m : Mesh ℝ) (c : Cell) : Prop :=
  match m.ndim, c.points with
  | 2, [p, q, r] => (coord m q 0 - coord m p 0) * (coord m r 1 - coord m p 1) - (coord m r 0 - coord m p 0) * (coord m q 1 - coord m p 1) ≠ 0
  | 3, [p, q, r, s] =>
    let u := fun i => coord m q i - coord m p i
    let v := fun i => coord m r i - coord m p i
    let w := fun i => coord m s i - coord m p i
    u 0 * (v 1 * w 2 - v 2 * w 1) - u 1 * (v 0 * w 2 - v 2 * w 0) + u 2 * (v 0 * w 1 - v 1 * w 0) ≠ 0
  | _, _ => False

/-- A mesh of triangles with three nodes (2D) or of tetrahedra with four nodes (3D). -/
def Simplicial (m : Mesh ℝ) : Prop := (m.ndim = 2 ∧ ∀ c ∈ m.cells, c.kind = .tri3) ∨ (m.ndim = 3 ∧ ∀ c ∈ m.cells, c.kind = .tet4)

/-- All coordinates are finite floats. -/
def Finite (m : Mesh ℝ) : Prop := ∀ p ∈ m.points, ∀ x ∈ p.coords, -f64Max ≤ x ∧ x ≤ f64Max

/-- Some cell is not large: in every direction, it is smaller than the cutoff fraction of the largest cell extent. -/
def SomeSmall (m : Mesh ℝ) (cutoff : ℝ) : Prop :=
  ∃ c ∈ m.cells, ∃ c' ∈ m.cells, ∃ j < m.ndim, ∃ p ∈ c'.points, ∃ q ∈ c'.points,
    ∀ i < m.ndim, ∀ r ∈ c.points, ∀ s ∈ c.points, coord m r i - coord m s i < cutoff * (coord m p j - coord m q j)

/-- The mesh is not flat: in every direction, two points (of cells) have different coordinates. -/
def NotFlat (m : Mesh ℝ) : Prop :=
  ∀ i < m.ndim, ∃ c ∈ m.cells, ∃ p ∈ c.points, ∃ c' ∈ m.cells, ∃ q ∈ c'.points, coord m p i < coord m q i

end
end Gemlab.GridCells
