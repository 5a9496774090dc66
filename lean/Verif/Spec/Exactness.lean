import Verif.Spec.Analytical
import Verif.Model.Gauss

/-!
# Specification: which tables of integration points are good enough for which elements
-/
namespace Gemlab.Spec.Exactness
open Gemlab Gemlab.Shapes Gemlab.GaussSpec Gemlab.Spec.Integ Gemlab.Spec.Analytical
noncomputable section

/-- The degree of the shape functions: total degree for lines, triangles and tetrahedra; degree in each variable for quadrilaterals and hexahedra. -/
def degree : GeoKind → Nat
  | .lin2 | .tri3 | .qua4 | .tet4 | .hex8 => 1
  | .lin3 | .tri6 | .qua8 | .qua9 | .tet10 | .hex20 => 2
  | .lin4 | .tri10 | .qua12 | .qua16 | .tet20 | .hex32 => 3
  | .lin5 | .tri15 | .qua17 => 4

/-- The rule integrates the products of two shape functions of the element exactly. -/
def Enough (k : GeoKind) : Exactness → Prop
  | .total d => (k.classOf = .lin ∨ k.classOf = .tri ∨ k.classOf = .tet) ∧ 2 * degree k ≤ d
  | .perVariable d => 2 * degree k ≤ d

/-- The element is the image of the reference element under the affine map `x = b + A ξ`, and row `a` of `M` is the gradient of the reference coordinate `ξ_a`
(`M` is the inverse of `A`). Every triangle or tetrahedron with straight sides is such an image, and so are parallelograms and parallelepipeds. -/
structure AffineImage (pad : Scratchpad) (b : Nat → ℝ) (A M : Nat → Nat → ℝ) : Prop where
  fills : pad.kind.ndim = pad.spaceNdim
  coords : ∀ m < pad.kind.nnode, ∀ i < pad.spaceNdim, pad.X m i = b i + ∑ j ∈ Finset.range pad.spaceNdim, A i j * refCoord pad.kind m j
  inverse : ∀ i < pad.spaceNdim, ∀ j < pad.spaceNdim, ∑ l ∈ Finset.range pad.spaceNdim, A i l * M l j = if i = j then 1 else 0

/-- Arguments of an integration routine: the table has the given number of points, the rule is good enough for the element, and the analysis is not axisymmetric. -/
structure GoodRule (args : CommonArgs) : Prop where
  plane : args.axisymmetric = false
  table : ∃ n e t, (n, e) ∈ rules args.pad.kind.classOf ∧ GaussTable.newSized args.pad.kind.classOf n = .ok t ∧ args.gauss = t.toGauss ∧ Enough args.pad.kind e

/-- The second element of the coupling routines: the same cell with shape functions of the same or a lower degree (e.g. Qua4 in Qua8). -/
structure Coupled (args : CommonArgs) (padB : Scratchpad) : Prop where
  cell : padB.kind.classOf = args.pad.kind.classOf
  lower : degree padB.kind ≤ degree args.pad.kind
  space : padB.spaceNdim = args.pad.spaceNdim

/-- A straight edge of a plane region or a flat face of a body: the image of the reference element under the affine map `x = b + A ξ`. -/
structure AffineFacet (pad : Scratchpad) (b : Nat → ℝ) (A : Nat → Nat → ℝ) : Prop where
  facet : pad.kind.ndim + 1 = pad.spaceNdim
  coords : ∀ m < pad.kind.nnode, ∀ i < pad.spaceNdim, pad.X m i = b i + ∑ j ∈ Finset.range pad.kind.ndim, A i j * refCoord pad.kind m j

/-- The length of the first column (2D), the area of the parallelogram of the first two columns (3D, length of the vector product). -/
def sizeOfMap (d : Nat) (J : Nat → Nat → ℝ) : ℝ :=
  if d = 2 then Real.sqrt (J 0 0 ^ 2 + J 1 0 ^ 2)
  else Real.sqrt ((J 1 0 * J 2 1 - J 2 0 * J 1 1) ^ 2 + (J 2 0 * J 0 1 - J 0 0 * J 2 1) ^ 2 + (J 0 0 * J 1 1 - J 1 0 * J 0 1) ^ 2)

/-- `∫ f dΓ` over an edge (2D) or a face (3D), `f` being a function of the reference coordinates. -/
def boundaryIntegral (pad : Scratchpad) (f : (Nat → ℝ) → ℝ) : ℝ :=
  refIntegral pad.kind.classOf fun r s t => f (point r s t) * sizeOfMap pad.spaceNdim (jac pad (point r s t))

/-- Allowed error of the integral over the reference element of a product of two functions, each a shape function or one of its derivatives: the decimals of the tables. -/
def tol : ℝ := 1 / 10 ^ 9

end
end Gemlab.Spec.Exactness
