import Verif.Spec.Features
import Verif.Model.Scratchpad

/-! # The normal of an edge or face of a mesh, from the coordinates of its points -/
namespace Gemlab.Mesh
open Gemlab.Shapes
noncomputable section

/-- Derivative of the coordinate `i` along the reference direction `a` of the edge or face `f`, at the reference point `ksi`. -/
def featureTangent (m : Mesh ℝ) (f : Feature) (ksi : Nat → ℝ) (a i : Nat) : ℝ :=
  ∑ n ∈ Finset.range f.kind.nnode, (coordsOf m (f.points.getD n 0)).getD i 0 * calcDeriv f.kind ksi n a

/-- The tangent of an edge in the plane, turned by 90 degrees (counterclockwise). -/
def edgeNormal (m : Mesh ℝ) (f : Feature) (ksi : Nat → ℝ) (i : Nat) : ℝ :=
  if i = 0 then - featureTangent m f ksi 0 1 else featureTangent m f ksi 0 0

/-- The cross product of the tangents of a face in space. -/
def faceNormal (m : Mesh ℝ) (f : Feature) (ksi : Nat → ℝ) (i : Nat) : ℝ :=
  if i = 0 then featureTangent m f ksi 0 1 * featureTangent m f ksi 1 2 - featureTangent m f ksi 0 2 * featureTangent m f ksi 1 1
  else if i = 1 then featureTangent m f ksi 0 2 * featureTangent m f ksi 1 0 - featureTangent m f ksi 0 0 * featureTangent m f ksi 1 2
  else featureTangent m f ksi 0 0 * featureTangent m f ksi 1 1 - featureTangent m f ksi 0 1 * featureTangent m f ksi 1 0

/-- Euclidean norm of the first `d` components. -/
def normOf (d : Nat) (v : Nat → ℝ) : ℝ := Real.sqrt (∑ i ∈ Finset.range d, v i * v i)

/-- The magnitude of `v` is `mag`, within `tol`. -/
def MagnitudeIs (d : Nat) (v : Nat → ℝ) (mag tol : ℝ) : Prop := |normOf d v - mag| ≤ tol

/-- The direction of `v` (the zero vector, if `v` is zero) is `u`, within `tol` for each component. -/
def DirectionIs (d : Nat) (v u : Nat → ℝ) (tol : ℝ) : Prop := ∀ i < d, |v i / normOf d v - u i| ≤ tol

end
end Gemlab.Mesh
