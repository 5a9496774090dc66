import Verif.Model.Analytical
import Verif.Spec.Integ
import Verif.Spec.Gauss
import Mathlib.Analysis.Convex.Hull

/-!
# Specification of the analytical integrals

The integral over an element is the integral over the reference element of the integrand times the determinant of the Jacobian
(`refIntegral` is an iterated integral of Mathlib). `C69_triangle_integral` and `C69_tetrahedron_integral` show that this is the Lebesgue integral over
the triangle and the tetrahedron themselves.
-/
namespace Gemlab.Spec.Analytical
open Gemlab Gemlab.Shapes Gemlab.GaussSpec Gemlab.Spec.Integ
noncomputable section

/-- The point `(r, s, t)` as a coordinate function. -/
def point (r s t : ℝ) : Nat → ℝ := fun i => if i = 0 then r else if i = 1 then s else if i = 2 then t else 0

/-- `∫ f dΩ` over the element with the nodes of the pad, `f` being a function of the reference coordinates. -/
def elementIntegral (pad : Scratchpad) (f : (Nat → ℝ) → ℝ) : ℝ :=
  refIntegral pad.kind.classOf fun r s t => f (point r s t) * detJ pad (point r s t)

/-- `∫ f dℓ` over a line element in 2D. -/
def lineIntegral (pad : Scratchpad) (f : (Nat → ℝ) → ℝ) : ℝ :=
  refIntegral .lin fun r s t => f (point r s t) * Real.sqrt (jac pad (point r s t) 0 0 ^ 2 + jac pad (point r s t) 1 0 ^ 2)

/-- The triangle and the tetrahedron: all convex combinations of the nodes. -/
def triangle (pad : Scratchpad) : Set (ℝ × ℝ) :=
  convexHull ℝ {(pad.X 0 0, pad.X 0 1), (pad.X 1 0, pad.X 1 1), (pad.X 2 0, pad.X 2 1)}
def tetrahedron (pad : Scratchpad) : Set (ℝ × ℝ × ℝ) :=
  convexHull ℝ {(pad.X 0 0, pad.X 0 1, pad.X 0 2), (pad.X 1 0, pad.X 1 1, pad.X 1 2), (pad.X 2 0, pad.X 2 1, pad.X 2 2), (pad.X 3 0, pad.X 3 1, pad.X 3 2)}

/-- Shape function of node `m`, and coordinate `i` of the point with reference coordinates `ξ`. -/
def N (pad : Scratchpad) (m : Nat) (ξ : Nat → ℝ) : ℝ := Shapes.calcInterp pad.kind ξ m
def coord (pad : Scratchpad) (i : Nat) (ξ : Nat → ℝ) : ℝ := Shapes.calcCoords pad.kind pad.X ξ i

/-- `B ξ m i` is the derivative of shape function `m` with respect to the real coordinate `x_i`, everywhere. -/
def IsGradientField (pad : Scratchpad) (B : (Nat → ℝ) → Nat → Nat → ℝ) : Prop := ∀ ξ, IsGradient pad ξ (B ξ)

/-- The factor of axisymmetric integrals: the radius, i.e. the first coordinate. -/
def radial (pad : Scratchpad) (axisymmetric : Bool) (ξ : Nat → ℝ) : ℝ := if axisymmetric then coord pad 0 ξ else 1

/-- The list has `n` entries, given by `f`. -/
def IsVector (v : List ℝ) (n : Nat) (f : Nat → ℝ) : Prop := v.length = n ∧ ∀ i < n, v.getD i 0 = f i

/-- The table has `nr` rows and `nc` columns and its entries are given by `f`. -/
def IsMatrix (t : List (List ℝ)) (nr nc : Nat) (f : Nat → Nat → ℝ) : Prop :=
  t.length = nr ∧ ∀ i < nr, (t.getD i []).length = nc ∧ ∀ j < nc, (t.getD i []).getD j 0 = f i j

/-- The side of a triangle with three nodes as a line element. -/
def IsSide (pad edge : Scratchpad) (side : Nat) : Prop :=
  edge.kind = .lin2 ∧ edge.spaceNdim = 2 ∧ ∀ j < 2, ∀ i < 2, edge.xxt i j = pad.xxt i (edgeNode pad.kind side j)

/-- Component `ε_kl` of the (unsymmetrised) gradient of the displacement that is shape function `m` in direction `i`. -/
def gradOp (d : Nat) (B : Nat → Nat → ℝ) (m i k l : Nat) : ℝ := if k = i ∧ l < d then B m l else 0

/-- `ε^{(m,i)} : D : ε^{(n,j)}`, the modulus being given by its Mandel matrix. -/
def energy (d : Nat) (B D : Nat → Nat → ℝ) (m i n j : Nat) : ℝ :=
  ∑ k ∈ Finset.range 3, ∑ l ∈ Finset.range 3, gradOp d B m i k l *
    ∑ k' ∈ Finset.range 3, ∑ l' ∈ Finset.range 3, tensor4 D k l k' l' * gradOp d B n j k' l'

/-- The rectangle with half side lengths `a` and `b` and sides parallel to the axes, anywhere: every node is at the corresponding place. -/
def IsRectangle (pad : Scratchpad) (a b : ℝ) : Prop :=
  pad.spaceNdim = 2 ∧ ∃ xc yc : ℝ, ∀ m < pad.kind.nnode,
    pad.X m 0 = xc + a * refCoord pad.kind m 0 ∧ pad.X m 1 = yc + b * refCoord pad.kind m 1

end
end Gemlab.Spec.Analytical
