import Verif.Spec.Check
import Verif.Spec.Normals
import Verif.Model.DrawMarks

/-! # What the marks drawn on top of a mesh are -/
namespace Gemlab.Draw
open Gemlab.Mesh Gemlab.Shapes
noncomputable section

/-- The point at `ksi` of an edge, face or shell of a mesh. -/
def featurePointAt (m : Mesh ℝ) (f : Feature) (ksi : Nat → ℝ) (i : Nat) : ℝ :=
  ∑ n ∈ Finset.range f.kind.nnode, (coordsOf m (f.points.getD n 0)).getD i 0 * calcInterp f.kind ksi n

/-- The point `x` (a list with as many components as the space has dimensions) is a weighted mean of the nodes of the cell, with weights that are not negative. -/
def IsMeanOfNodes (m : Mesh ℝ) (cell : Cell) (x : List ℝ) : Prop :=
  x.length = m.ndim ∧ ∃ w : Nat → ℝ, (∀ n, 0 ≤ w n) ∧ ∑ n ∈ Finset.range cell.kind.nnode, w n = 1 ∧
    ∀ i < m.ndim, x.getD i 0 = ∑ n ∈ Finset.range cell.kind.nnode, w n * (coordsOf m (cell.points.getD n 0)).getD i 0

/-- `b` is the point at the distance `s` from `a` in the direction of the vector `v` (`a`, if `v` is zero); `a` is the point `x`. -/
structure IsAlong (d : Nat) (x v : Nat → ℝ) (s : ℝ) (a b : List ℝ) : Prop where
  lenA : a.length = d
  lenB : b.length = d
  start : ∀ i < d, a.getD i 0 = x i
  stop : ∀ i < d, b.getD i 0 = x i + s * (v i / normOf d v)

/-- The length of the diagonal of the box with corners `lo`, `hi`. -/
def boxDiagonal (d : Nat) (lo hi : List ℝ) : ℝ := Real.sqrt (∑ i ∈ Finset.range d, (hi.getD i 0 - lo.getD i 0) ^ 2)

/-- The reference point in the middle of an edge (0), a quadrilateral (0, 0) or a triangle (1/3, 1/3). -/
def middleOf (k : GeoKind) (_ : Nat) : ℝ := if k.classOf = .tri then 1 / 3 else 0

/-- The normal of an edge (in the plane) or face (in space). -/
def featureNormalAt (m : Mesh ℝ) (f : Feature) : Nat → ℝ := if m.ndim = 2 then edgeNormal m f (middleOf f.kind) else faceNormal m f (middleOf f.kind)

/-- The line from the middle of `f` along its normal. -/
def IsNormalLine (m : Mesh ℝ) (f : Feature) (s : ℝ) (a b : List ℝ) : Prop := IsAlong m.ndim (featurePointAt m f (middleOf f.kind)) (featureNormalAt m f) s a b

/-- The marks for a marked edge or face: the number of the marker half way on the line along the normal, and this line. -/
def IsMarkerMarks (m : Mesh ℝ) (f : Feature) (s : ℝ) (marker : Int) (marks : List Mark) : Prop :=
  ∃ a b c angle, marks = [.text c angle s!"{marker}", .segment a b] ∧ IsNormalLine m f s a b ∧ IsNormalLine m f (1 / 2 * s) a c ∧
    ∀ α, angle = some α → -90 < α ∧ α ≤ 90

end
end Gemlab.Draw
