import Verif.Props.Shapes
import Verif.Spec.Integ
import Verif.Spec.Gauss
import Mathlib.Tactic.IntervalCases

/-!
# Quadratic maps: differences are given by the derivatives halfway
-/
namespace Gemlab.Scratchpad
open Gemlab.Shapes
noncomputable section

/-- The kinds of cells whose interpolation functions are polynomials of degree two at most. -/
def Quadratic (k : GeoKind) : Prop := k = .lin2 ∨ k = .lin3 ∨ k = .tri3 ∨ k = .tri6 ∨ k = .qua4 ∨ k = .tet4 ∨ k = .tet10

instance (k : GeoKind) : Decidable (Quadratic k) := by unfold Quadratic; infer_instance

/-- Halfway between two places. -/
def halfway (a b : Nat → ℝ) : Nat → ℝ := fun i => (a i + b i) / 2

theorem eval_lit (ξ : Nat → ℝ) : PE.eval ξ 2 = 2 ∧ PE.eval ξ 3 = 3 ∧ PE.eval ξ 4 = 4 ∧ PE.eval ξ 8 = 8 :=
  ⟨PE.eval_ofNat ξ 2, PE.eval_ofNat ξ 3, PE.eval_ofNat ξ 4, PE.eval_ofNat ξ 8⟩

theorem interp_difference {k : GeoKind} (hk : Quadratic k) (a b : Nat → ℝ) {m : Nat} (hm : m < k.nnode) :
    Shapes.calcInterp k a m - Shapes.calcInterp k b m = ∑ j ∈ Finset.range k.ndim, Shapes.calcDeriv k (halfway a b) m j * (a j - b j) := by
  rcases hk with rfl | rfl | rfl | rfl | rfl | rfl | rfl <;>
    (simp only [GeoKind.nnode] at hm
     interval_cases m <;>
     simp [Shapes.calcInterp, Shapes.calcDeriv, Shapes.interp, Shapes.deriv, lin2Interp, lin2Deriv, lin3Interp, lin3Deriv, tri3Interp, tri3Deriv, tri6Interp, tri6Deriv,
        qua4Interp, qua4Deriv, tet4Interp, tet4Deriv, tet10Interp, tet10Deriv, GeoKind.ndim, Finset.sum_range_succ, eval_lit a, eval_lit b, eval_lit (halfway a b)] <;> (try simp only [halfway]) <;> (try ring))

end
end Gemlab.Scratchpad
