import Verif.Spec.Integ
import Verif.Model.Gauss

/-!
# Energies and rigid motions (specification for C96)
-/
namespace Gemlab.Spec.Definite
noncomputable section
open Gemlab.Spec.Integ Gemlab.Shapes

/-- The quadratic form `vᵀ K v` of a matrix with `n` rows and columns. -/
def form (n : Nat) (K : Nat → Nat → ℝ) (v : Nat → ℝ) : ℝ := ∑ a ∈ Finset.range n, ∑ b ∈ Finset.range n, v a * K a b * v b

/-- The quadratic form `vᵀ K v` of a matrix with `d` rows and columns for each of `n` nodes; `u m i` is the component of `v` for direction `i` of node `m`. -/
def form2 (n d : Nat) (K : Nat → Nat → ℝ) (u : Nat → Nat → ℝ) : ℝ :=
  ∑ m ∈ Finset.range n, ∑ i ∈ Finset.range d, ∑ m' ∈ Finset.range n, ∑ j ∈ Finset.range d, u m i * K (i + m * d) (j + m' * d) * u m' j

/-- The quadratic form `gᵀ T g`. -/
def form3 (d : Nat) (T : Nat → Nat → ℝ) (g : Nat → ℝ) : ℝ := ∑ i ∈ Finset.range d, ∑ j ∈ Finset.range d, g i * T i j * g j

/-- Value at integration point `p` of the field with the nodal values `v`. -/
def fieldAt (args : CommonArgs) (v : Nat → ℝ) (p : Nat) : ℝ := ∑ m ∈ Finset.range args.pad.kind.nnode, v m * shapeN args p m

/-- Gradient of the field with the nodal values `v`, if `B` is the gradient of the shape functions. -/
def gradAt (pad : Scratchpad) (B : Nat → Nat → ℝ) (v : Nat → ℝ) (i : Nat) : ℝ := ∑ m ∈ Finset.range pad.kind.nnode, v m * B m i

/-- Gradient `∂u_k/∂x_l` of the displacements `u m i` (node, direction) at integration point `p`; in axisymmetric analyses the component (2, 2) is `u_r / r`. -/
def dispGrad (args : CommonArgs) (B : Nat → Nat → ℝ) (u : Nat → Nat → ℝ) (p k l : Nat) : ℝ :=
  if k < args.pad.spaceNdim ∧ l < args.pad.spaceNdim then ∑ m ∈ Finset.range args.pad.kind.nnode, u m k * B m l
  else if args.axisymmetric ∧ k = 2 ∧ l = 2 then (∑ m ∈ Finset.range args.pad.kind.nnode, u m 0 * shapeN args p m) / radiusAt args p
  else 0

/-- The strain: the symmetric part of the gradient. -/
def strainAt (args : CommonArgs) (B : Nat → Nat → ℝ) (u : Nat → Nat → ℝ) (p k l : Nat) : ℝ := (dispGrad args B u p k l + dispGrad args B u p l k) / 2

/-- `E : D : E`. -/
def strainEnergy (D : Nat → Nat → ℝ) (E : Nat → Nat → ℝ) : ℝ :=
  ∑ k ∈ Finset.range 3, ∑ l ∈ Finset.range 3, ∑ k' ∈ Finset.range 3, ∑ l' ∈ Finset.range 3, E k l * tensor4 D k l k' l' * E k' l'

/-- Possible strains: symmetric, with components in the space of the analysis and (if axisymmetric) the hoop strain. -/
def IsStrain (args : CommonArgs) (E : Nat → Nat → ℝ) : Prop :=
  (∀ k l, E k l = E l k) ∧ ∀ k l, E k l ≠ 0 → (k < args.pad.spaceNdim ∧ l < args.pad.spaceNdim) ∨ (args.axisymmetric = true ∧ k = 2 ∧ l = 2)

/-- Usual arguments: the default integration rule, positive thickness and Jacobian determinants, and (if axisymmetric) positive radii. -/
structure Usual (args : CommonArgs) : Prop where
  rule : args.gauss = (GaussTable.new args.pad.kind).toGauss
  thickness : 0 < args.alpha
  jacobian : ∀ p < args.gauss.npoint, 0 < detJ args.pad (args.gauss.coords p)
  radius : args.axisymmetric = true → ∀ p < args.gauss.npoint, 0 < radiusAt args p

/-- The element is an affine image of the reference element (every `tri3` and `tet4`, parallelograms, parallelepipeds, ...). -/
def Affine (pad : Scratchpad) : Prop :=
  ∃ (b : Nat → ℝ) (A : Nat → Nat → ℝ), ∀ m < pad.kind.nnode, ∀ i < pad.spaceNdim, pad.X m i = b i + ∑ j ∈ Finset.range pad.spaceNdim, A i j * refCoord pad.kind m j

/-- The displacements are those of a rigid body (a translation and an infinitesimal rotation). -/
def IsRigid (pad : Scratchpad) (u : Nat → Nat → ℝ) : Prop :=
  ∃ (v : Nat → ℝ) (W : Nat → Nat → ℝ), (∀ i j, W i j = -W j i) ∧
    ∀ m < pad.kind.nnode, ∀ i < pad.spaceNdim, u m i = v i + ∑ j ∈ Finset.range pad.spaceNdim, W i j * pad.X m j

end
end Gemlab.Spec.Definite
