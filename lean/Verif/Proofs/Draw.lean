import Verif.Spec.Draw
import Verif.Props.Shapes
import Verif.Props.MeshPad

/-! # Lemmas about drawing -/
namespace Gemlab.Draw
open Gemlab.Mesh Gemlab.Shapes Gemlab.Spec

theorem interp_lin2 (u : Nat → ℝ) (η : ℝ) : interpolate .lin2 u (vec1 η) = (1 - η) / 2 * u 0 + (1 + η) / 2 * u 1 := by
  simp only [interpolate, GeoKind.nnode, Finset.sum_range_succ, Finset.sum_range_zero, calcInterp, interp, lin2Interp, List.getD_cons_zero, List.getD_cons_succ]
  simp [PE.eval, vec1]
  ring

theorem interp_lin3 (u : Nat → ℝ) (η : ℝ) : interpolate .lin3 u (vec1 η) = (η ^ 2 - η) / 2 * u 0 + (η ^ 2 + η) / 2 * u 1 + (1 - η ^ 2) * u 2 := by
  simp only [interpolate, GeoKind.nnode, Finset.sum_range_succ, Finset.sum_range_zero, calcInterp, interp, lin3Interp, List.getD_cons_zero, List.getD_cons_succ]
  simp [PE.eval, vec1]
  ring

theorem interp_lin4 (u : Nat → ℝ) (η : ℝ) : interpolate .lin4 u (vec1 η) =
    ((-9 * η ^ 3 + 9 * η ^ 2 + η - 1) * u 0 + (9 * η ^ 3 + 9 * η ^ 2 - η - 1) * u 1 + (27 * η ^ 3 - 9 * η ^ 2 - 27 * η + 9) * u 2 +
      (-27 * η ^ 3 - 9 * η ^ 2 + 27 * η + 9) * u 3) / 16 := by
  simp only [interpolate, GeoKind.nnode, Finset.sum_range_succ, Finset.sum_range_zero, calcInterp, interp, lin4Interp, List.getD_cons_zero, List.getD_cons_succ]
  simp [PE.eval, vec1]
  ring

theorem interp_lin5 (u : Nat → ℝ) (η : ℝ) : interpolate .lin5 u (vec1 η) =
    (4 * η ^ 4 - 4 * η ^ 3 - η ^ 2 + η) / 6 * u 0 + (4 * η ^ 4 + 4 * η ^ 3 - η ^ 2 - η) / 6 * u 1 + (4 * η ^ 4 - 5 * η ^ 2 + 1) * u 2 +
      (-8 * η ^ 4 + 4 * η ^ 3 + 8 * η ^ 2 - 4 * η) / 3 * u 3 + (-8 * η ^ 4 - 4 * η ^ 3 + 8 * η ^ 2 + 4 * η) / 3 * u 4 := by
  simp only [interpolate, GeoKind.nnode, Finset.sum_range_succ, Finset.sum_range_zero, calcInterp, interp, lin5Interp, List.getD_cons_zero, List.getD_cons_succ]
  simp [PE.eval, vec1]
  ring

/-! ## Bézier curves and interpolation -/

theorem bezier2 (a b t : ℝ) : bezier [a, b] t = (1 - t) * a + t * b := by
  simp [bezier, Finset.sum_range_succ]

theorem bezier3 (a q b t : ℝ) : bezier [a, q, b] t = (1 - t) ^ 2 * a + 2 * t * (1 - t) * q + t ^ 2 * b := by
  simp [bezier, Finset.sum_range_succ]

theorem bezier4 (a q r b t : ℝ) : bezier [a, q, r, b] t = (1 - t) ^ 3 * a + 3 * t * (1 - t) ^ 2 * q + 3 * t ^ 2 * (1 - t) * r + t ^ 3 * b := by
  simp [bezier, Finset.sum_range_succ, show Nat.choose 3 2 = 3 from rfl]

theorem draw_lin2 (u : Nat → ℝ) (t : ℝ) : bezier [u 0, u 1] t = interpolate .lin2 u (vec1 (2 * t - 1)) := by
  rw [bezier2, interp_lin2]; ring

theorem draw_lin3 (u : Nat → ℝ) (t : ℝ) : bezier [u 0, (-u 0 - u 1 + 4 * u 2) / 2, u 1] t = interpolate .lin3 u (vec1 (2 * t - 1)) := by
  rw [bezier3, interp_lin3]; ring

theorem draw_cubic (a b c d t : ℝ) : bezier [a, controlC a b c d, controlD a b c d, b] t =
    ((-9 * (2 * t - 1) ^ 3 + 9 * (2 * t - 1) ^ 2 + (2 * t - 1) - 1) * a + (9 * (2 * t - 1) ^ 3 + 9 * (2 * t - 1) ^ 2 - (2 * t - 1) - 1) * b +
      (27 * (2 * t - 1) ^ 3 - 9 * (2 * t - 1) ^ 2 - 27 * (2 * t - 1) + 9) * c + (-27 * (2 * t - 1) ^ 3 - 9 * (2 * t - 1) ^ 2 + 27 * (2 * t - 1) + 9) * d) / 16 := by
  rw [bezier4]; unfold controlC controlD; ring

theorem draw_lin4 (u : Nat → ℝ) (t : ℝ) : bezier [u 0, controlC (u 0) (u 1) (u 2) (u 3), controlD (u 0) (u 1) (u 2) (u 3), u 1] t =
    interpolate .lin4 u (vec1 (2 * t - 1)) := by
  rw [draw_cubic, interp_lin4]

theorem draw_lin5 (u : Nat → ℝ) (t : ℝ) (h : t = 0 ∨ t = 1 / 3 ∨ t = 2 / 3 ∨ t = 1 ∨ IsCubic u) :
    bezier [u 0, controlC (u 0) (u 1) (interpolate .lin5 u (vec1 (-(1 / 3)))) (interpolate .lin5 u (vec1 (1 / 3))),
      controlD (u 0) (u 1) (interpolate .lin5 u (vec1 (-(1 / 3)))) (interpolate .lin5 u (vec1 (1 / 3))), u 1] t =
    interpolate .lin5 u (vec1 (2 * t - 1)) := by
  rw [draw_cubic, interp_lin5, interp_lin5, interp_lin5]
  rcases h with rfl | rfl | rfl | rfl | h
  · ring
  · ring
  · ring
  · ring
  · unfold IsCubic at h
    have : u 0 = 4 * u 3 - 6 * u 2 + 4 * u 4 - u 1 := by linarith
    rw [this]; ring

end Gemlab.Draw
