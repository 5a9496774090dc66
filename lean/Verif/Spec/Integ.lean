import Verif.Model.Integ
import Verif.Props.Scratchpad

/-!
# Specification of the integration routines

`ξ` is a point of the reference element; the coordinates of the nodes are those stored in the pad (`pad.X m i`).
-/
namespace Gemlab.Spec.Integ
open Gemlab Gemlab.Shapes
noncomputable section

/-- `∂x_i/∂ξ_j` at `ξ` (see `C31_jacobian`). -/
def jac (pad : Scratchpad) (ξ : Nat → ℝ) (i j : Nat) : ℝ := ∑ m ∈ Finset.range pad.kind.nnode, pad.X m i * Shapes.calcDeriv pad.kind ξ m j

/-- Determinant of the Jacobian (when the element fills the space). -/
def detJ (pad : Scratchpad) (ξ : Nat → ℝ) : ℝ := detN pad.spaceNdim (jac pad ξ)

/-- `B m i` is the derivative of the shape function `m` with respect to the real coordinate `x_i`, for all nodes: it satisfies the chain
rule `∂N_m/∂ξ_j = Σ_i ∂N_m/∂x_i ∂x_i/∂ξ_j`. -/
def IsGradient (pad : Scratchpad) (ξ : Nat → ℝ) (B : Nat → Nat → ℝ) : Prop :=
  ∀ m < pad.kind.nnode, ∀ j < pad.spaceNdim, ∑ i ∈ Finset.range pad.spaceNdim, B m i * jac pad ξ i j = Shapes.calcDeriv pad.kind ξ m j

/-- The "determinant" returned by `calc_jacobian`: of the Jacobian matrix if the element fills the space, the length of the tangent
vector of a line in a larger space, and the constant −1 for a surface in 3D. -/
def jacMeasure (pad : Scratchpad) (ξ : Nat → ℝ) : ℝ :=
  if pad.kind.ndim = pad.spaceNdim then detJ pad ξ
  else if pad.kind.ndim = 1 then Real.sqrt (∑ i ∈ Finset.range pad.spaceNdim, jac pad ξ i 0 ^ 2)
  else -1

/-- The `i`-th component of the tensor with Mandel vector `t`: `t = (σ₀₀, σ₁₁, σ₂₂, √2 σ₀₁, √2 σ₁₂, √2 σ₀₂)`. -/
def tensor2 (t : Nat → ℝ) (i j : Nat) : ℝ :=
  if i = j then t i
  else if i + j = 1 then t 3 / Real.sqrt 2
  else if i + j = 3 then t 4 / Real.sqrt 2
  else t 5 / Real.sqrt 2

/-- Position in the Mandel vector of the component `(i, j)`, and its scaling factor. -/
def mandelIdx (i j : Nat) : Nat := if i = j then i else if i + j = 1 then 3 else if i + j = 3 then 4 else 5
def mandelFac (i j : Nat) : ℝ := if i = j then 1 else 1 / Real.sqrt 2

/-- The component `D_ijkl` of the minor-symmetric fourth-order tensor with Mandel matrix `D`. -/
def tensor4 (D : Nat → Nat → ℝ) (i j k l : Nat) : ℝ := mandelFac i j * mandelFac k l * D (mandelIdx i j) (mandelIdx k l)

/-- The vector `a'` is `a` (or zero if `clear`) plus `S` in the block of `n` entries that starts at `ii0`. -/
def IsBlockSum1 (a a' : Vec) (clear : Bool) (ii0 n : Nat) (S : Nat → ℝ) : Prop :=
  a'.dim = a.dim ∧ ∀ i, a'.val i = (if clear then 0 else a.val i) + if ii0 ≤ i ∧ i < ii0 + n then S (i - ii0) else 0

/-- The matrix `k'` is `k` (or zero if `clear`) plus `S` in the block of `nr` rows and `nc` columns that starts at `(ii0, jj0)`. -/
def IsBlockSum2 (k k' : Mat) (clear : Bool) (ii0 jj0 nr nc : Nat) (S : Nat → Nat → ℝ) : Prop :=
  k'.nrow = k.nrow ∧ k'.ncol = k.ncol ∧
  ∀ i j, k'.val (i, j) = (if clear then 0 else k.val (i, j)) +
    if (ii0 ≤ i ∧ i < ii0 + nr) ∧ (jj0 ≤ j ∧ j < jj0 + nc) then S (i - ii0) (j - jj0) else 0

/-- Shape function `m` at the integration point `p`. -/
def shapeN (args : CommonArgs) (p m : Nat) : ℝ := Shapes.calcInterp args.pad.kind (args.gauss.coords p) m

/-- The first coordinate (radius) of the integration point `p`. -/
def radiusAt (args : CommonArgs) (p : Nat) : ℝ := ∑ m ∈ Finset.range args.pad.kind.nnode, shapeN args p m * args.pad.X m 0

/-- The factor of the quadrature at point `p`: thickness `α`, weight, measure `μ` and, in axisymmetric analyses, the radius. -/
def factor (args : CommonArgs) (μ : (Nat → ℝ) → ℝ) (p : Nat) : ℝ :=
  args.alpha * args.gauss.weight p * μ (args.gauss.coords p) * if args.axisymmetric then radiusAt args p else 1

/-- The quadrature of the values `f p` at the integration points. -/
def quadrature (args : CommonArgs) (μ : (Nat → ℝ) → ℝ) (f : Nat → ℝ) : ℝ := ∑ p ∈ Finset.range args.gauss.npoint, factor args μ p * f p

/-- The strain operator: component `(k, l)` of the (unsymmetrised) gradient of the displacement field that is the shape function `m` in
direction `i` and zero in the others, at point `p`; in axisymmetric analyses the hoop component `(2, 2)` is `u_r / r`. -/
def strainOp (args : CommonArgs) (B : Nat → Nat → ℝ) (p m i k l : Nat) : ℝ :=
  if k = i ∧ l < args.pad.spaceNdim then B m l
  else if args.axisymmetric ∧ i = 0 ∧ k = 2 ∧ l = 2 then shapeN args p m / radiusAt args p
  else 0

/-- All integration points can be used: the Jacobian can be computed. -/
def JacRegular (inv : MatInverse) (pad : Scratchpad) (g : Gauss) : Prop := ∀ p < g.npoint, ∃ r, pad.calcJacobian inv (g.coords p) = .ok r

/-- All integration points can be used: the gradient can be computed, and `B p` is the gradient at point `p`. -/
def GradRegular (inv : MatInverse) (pad : Scratchpad) (g : Gauss) (B : Nat → Nat → Nat → ℝ) : Prop :=
  ∀ p < g.npoint, (∃ r, pad.calcGradient inv (g.coords p) = .ok r) ∧ IsGradient pad (g.coords p) (B p)

/-- The array `bb` given to a callback holds the gradient `B`. -/
def Holds (pad : Scratchpad) (B bb : Nat → Nat → ℝ) : Prop := ∀ m < pad.kind.nnode, ∀ j < pad.spaceNdim, bb m j = B m j

/-- Space dimensions accepted by `Scratchpad::new`. -/
def SpaceOk (pad : Scratchpad) : Prop := pad.spaceNdim = 2 ∨ pad.spaceNdim = 3

end
end Gemlab.Spec.Integ
