import Verif.Spec.RigidMotion

/-!
# Specification of a change of the unit of length

All coordinates are multiplied by the same positive number.
-/
namespace Gemlab.Spec.Integ
open Gemlab
noncomputable section

/-- The element of `pad'` is the element of `pad` in another unit of length: `x' = c x`. -/
structure Scaled (c : ℝ) (pad pad' : Scratchpad) : Prop where
  kind : pad'.kind = pad.kind
  ndim : pad'.spaceNdim = pad.spaceNdim
  fits : pad.kind.ndim ≤ pad.spaceNdim
  pos : 0 < c
  coords : ∀ m < pad.kind.nnode, ∀ i < pad.spaceNdim, pad'.X m i = c * pad.X m i

/-- The dimension of the region of integration: 1 for lengths, 2 for areas, 3 for volumes; the axisymmetric option adds the radius to the integrand. -/
def order (args : CommonArgs) : Nat := args.pad.kind.ndim + if args.axisymmetric then 1 else 0

end
end Gemlab.Spec.Integ
