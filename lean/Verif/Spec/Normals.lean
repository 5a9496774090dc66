import Verif.Spec.RefShapes
import Mathlib.Data.Real.Basic

/-! # What an outward normal is -/
namespace Gemlab.Spec
open Gemlab.Shapes

/-- Strictly inside the reference line, triangle, square, tetrahedron, cube. -/
def StrictlyInside : GeoClass → (Nat → ℝ) → Prop
  | .lin, ξ => -1 < ξ 0 ∧ ξ 0 < 1
  | .tri, ξ => 0 < ξ 0 ∧ 0 < ξ 1 ∧ ξ 0 + ξ 1 < 1
  | .qua, ξ => (-1 < ξ 0 ∧ ξ 0 < 1) ∧ (-1 < ξ 1 ∧ ξ 1 < 1)
  | .tet, ξ => 0 < ξ 0 ∧ 0 < ξ 1 ∧ 0 < ξ 2 ∧ ξ 0 + ξ 1 + ξ 2 < 1
  | .hex, ξ => (-1 < ξ 0 ∧ ξ 0 < 1) ∧ (-1 < ξ 1 ∧ ξ 1 < 1) ∧ (-1 < ξ 2 ∧ ξ 2 < 1)

/-- The point at `t` on the way from `a` (`t = 0`) to `b` (`t = 1`). -/
def towards (a b : Nat → ℝ) (t : ℝ) (i : Nat) : ℝ := a i + t * (b i - a i)

/-- Jacobian matrix of the isoparametric map: `∂x_i/∂ξ_j`. -/
noncomputable def jac (k : GeoKind) (X : Nat → Nat → ℝ) (ξ : Nat → ℝ) (i j : Nat) : ℝ := ∑ m ∈ Finset.range k.nnode, X m i * calcDeriv k ξ m j

/-- `n` points out of the element with nodal coordinates `X` at the (boundary) point with reference coordinates `a`: leaving this point
towards any point strictly inside the reference cell, one is, at least for a while, strictly on the negative side of the plane (line)
through this point with normal `n`. -/
def PointsOutward (dim : Nat) (k : GeoKind) (X : Nat → Nat → ℝ) (a n : Nat → ℝ) : Prop :=
  ∀ b, StrictlyInside k.classOf b → ∃ ε > 0, ∀ t, 0 < t → t < ε →
    ∑ i ∈ Finset.range dim, n i * (calcCoords k X (towards a b t) i - calcCoords k X a i) < 0

end Gemlab.Spec
