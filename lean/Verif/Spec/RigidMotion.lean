import Verif.Spec.Integ

/-!
# Specification of rigid motions of an element

`x ↦ Q x + c`, with the rotation `Q` of the `d`-dimensional space.
-/
namespace Gemlab.Spec.Integ
open Gemlab
noncomputable section

/-- `Q` is a rotation: `Qᵀ Q = 1` and `det Q = 1`. -/
structure IsRotation (d : Nat) (Q : Nat → Nat → ℝ) : Prop where
  orth : ∀ i < d, ∀ j < d, ∑ k ∈ Finset.range d, Q k i * Q k j = if i = j then 1 else 0
  det : detN d Q = 1

/-- The rotated vector `Q v`. -/
def rotV (d : Nat) (Q : Nat → Nat → ℝ) (v : Nat → ℝ) (i : Nat) : ℝ := ∑ j ∈ Finset.range d, Q i j * v j

/-- The rotated second-order tensor `Q T Qᵀ`. -/
def rotT (d : Nat) (Q : Nat → Nat → ℝ) (T : Nat → Nat → ℝ) (i j : Nat) : ℝ := ∑ k ∈ Finset.range d, ∑ l ∈ Finset.range d, Q i k * Q j l * T k l

/-- The rotated fourth-order tensor. -/
def rotD (d : Nat) (Q : Nat → Nat → ℝ) (D : Nat → Nat → Nat → Nat → ℝ) (i j k l : Nat) : ℝ :=
  ∑ a ∈ Finset.range d, ∑ b ∈ Finset.range d, ∑ e ∈ Finset.range d, ∑ f ∈ Finset.range d, Q i a * Q j b * Q k e * Q l f * D a b e f

/-- The element of `pad'` is the element of `pad` after the motion `x ↦ Q x + c`. -/
structure Moved (Q : Nat → Nat → ℝ) (c : Nat → ℝ) (pad pad' : Scratchpad) : Prop where
  kind : pad'.kind = pad.kind
  ndim : pad'.spaceNdim = pad.spaceNdim
  fits : pad.kind.ndim ≤ pad.spaceNdim
  rot : IsRotation pad.spaceNdim Q
  coords : ∀ m < pad.kind.nnode, ∀ i < pad.spaceNdim, pad'.X m i = rotV pad.spaceNdim Q (pad.X m) i + c i

end
end Gemlab.Spec.Integ
