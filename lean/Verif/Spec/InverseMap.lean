import Verif.Spec.Integ

/-!
# Inverse of the isoparametric map (specification for C97)
-/
namespace Gemlab.Spec.InverseMap
noncomputable section
open Gemlab.Spec.Integ Gemlab.Shapes

/-- The element maps the local coordinates `ξ` to the point `x`. -/
def MapsTo (pad : Scratchpad) (ξ x : Nat → ℝ) : Prop := ∀ i < pad.spaceNdim, ∑ m ∈ Finset.range pad.kind.nnode, pad.X m i * calcInterp pad.kind ξ m = x i

/-- Newton's step for the equation `x(ξ) = x` leads from `ξ` to `η`: the linearized map at `ξ` takes `η` to `x`. -/
def NewtonStep (pad : Scratchpad) (x ξ η : Nat → ℝ) : Prop :=
  ∀ i < pad.spaceNdim, ∑ m ∈ Finset.range pad.kind.nnode, pad.X m i * calcInterp pad.kind ξ m + ∑ j ∈ Finset.range pad.spaceNdim, jac pad ξ i j * (η j - ξ j) = x i

/-- Limits of the local coordinates. -/
def ksiMin (k : GeoKind) : ℝ := if k.isTriOrTet then 0 else -1
def ksiMax : ℝ := 1

/-- The point `x` is in the bounding box of the nodes. -/
def InNodeBox (pad : Scratchpad) (x : Nat → ℝ) : Prop :=
  ∀ j < pad.spaceNdim, (∃ m < pad.kind.nnode, pad.X m j ≤ x j) ∧ ∃ m < pad.kind.nnode, x j ≤ pad.X m j

/-- The linear guess: `η` divides the interval of local coordinates as `x` divides the interval of the coordinates of the nodes, in each direction. -/
def IsGuess (pad : Scratchpad) (x η : Nat → ℝ) : Prop :=
  ∀ j < pad.spaceNdim, ∃ m < pad.kind.nnode, ∃ n < pad.kind.nnode, (∀ l < pad.kind.nnode, pad.X m j ≤ pad.X l j ∧ pad.X l j ≤ pad.X n j) ∧ pad.X m j < pad.X n j ∧
    (η j - ksiMin pad.kind) * (pad.X n j - pad.X m j) = (ksiMax - ksiMin pad.kind) * (x j - pad.X m j)

/-- Relative to the matrix with the inverse `C`, the Jacobian matrix varies by at most `ε` (norm of the largest row sum) where the local coordinates are at
a distance of at most `R` from `ξ`, in each direction. -/
def NearAffine (pad : Scratchpad) (C : Nat → Nat → ℝ) (ξ : Nat → ℝ) (R ε : ℝ) : Prop :=
  ∀ η : Nat → ℝ, (∀ j < pad.spaceNdim, |η j - ξ j| ≤ R) → ∀ i < pad.spaceNdim,
    ∑ j ∈ Finset.range pad.spaceNdim, |∑ k ∈ Finset.range pad.spaceNdim, C i k * jac pad η k j - if i = j then 1 else 0| ≤ ε

/-- The Euclidean norm. -/
def norm2 (d : Nat) (v : Nat → ℝ) : ℝ := Real.sqrt (∑ i ∈ Finset.range d, v i ^ 2)

end
end Gemlab.Spec.InverseMap
