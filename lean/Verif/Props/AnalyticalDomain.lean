import Verif.Props.AnalyticalTri3
import Verif.Props.AnalyticalTet4
import Verif.Proofs.SimplexIntegral

/-!
# C69: integrals over the elements are the Lebesgue integrals over the triangle and the tetrahedron

If the nodes are numbered counter-clockwise (positive area, volume); otherwise the integrals of the library have the opposite sign.
-/

namespace Gemlab.Analytical
open Gemlab Gemlab.Shapes Gemlab.GaussSpec Gemlab.Spec.Integ Gemlab.Spec.Analytical MeasureTheory

theorem tri_coords {pad : Scratchpad} (hk : pad.kind = .tri3) (i : Nat) (r s t : ℝ) :
    coord pad i (point r s t) = pad.xxt i 0 + ((pad.xxt i 1 - pad.xxt i 0) * r + (pad.xxt i 2 - pad.xxt i 0) * s) := by
  unfold coord Shapes.calcCoords; rw [hk]
  simp [show GeoKind.nnode .tri3 = 3 from rfl, Finset.sum_range_succ, Shapes.calcInterp, Shapes.interp, tri3Interp, Scratchpad.X, point]
  ring

theorem tet_coords {pad : Scratchpad} (hk : pad.kind = .tet4) (i : Nat) (r s t : ℝ) :
    coord pad i (point r s t) = pad.xxt i 0 + ((pad.xxt i 1 - pad.xxt i 0) * r + (pad.xxt i 2 - pad.xxt i 0) * s + (pad.xxt i 3 - pad.xxt i 0) * t) := by
  unfold coord Shapes.calcCoords; rw [hk]
  simp [show GeoKind.nnode .tet4 = 4 from rfl, Finset.sum_range_succ, Shapes.calcInterp, Shapes.interp, tet4Interp, Scratchpad.X, point]
  ring

theorem tri_lebesgue {pad : Scratchpad} {ana : AnalyticalTri3} (h : IsTri3 pad ana) {g : ℝ × ℝ → ℝ} (hg : Continuous g) :
    2 * ana.area * ∫ p in triangle pad, g p = |2 * ana.area| * elementIntegral pad fun ξ => g (coord pad 0 ξ, coord pad 1 ξ) := by
  have hne := h.ne; rw [← h.eq] at hne
  have hdet : (pad.xxt 0 1 - pad.xxt 0 0) * (pad.xxt 1 2 - pad.xxt 1 0) - (pad.xxt 0 2 - pad.xxt 0 0) * (pad.xxt 1 1 - pad.xxt 1 0) = 2 * ana.area := by
    have := tri3_det h.kind h.plane (fun _ => 0)
    rw [← h.eq] at this
    rw [← this, detJ, h.plane, detN, Matrix.det_fin_two]
    simp only [Matrix.of_apply, Fin.val_zero, Fin.val_one, (tri3_jac h.kind _ _).1, (tri3_jac h.kind _ _).2]
  have e : triangle pad = (fun q : ℝ × ℝ => ((pad.xxt 0 0, pad.xxt 1 0) : ℝ × ℝ) + lin2 (pad.xxt 0 1 - pad.xxt 0 0) (pad.xxt 0 2 - pad.xxt 0 0)
      (pad.xxt 1 1 - pad.xxt 1 0) (pad.xxt 1 2 - pad.xxt 1 0) q) '' refTri := by
    rw [tri_hull]; unfold triangle Scratchpad.X; simp
  rw [e, affine_integral _ _ _ _ _ _ (by rw [hdet]; positivity) hg, hdet]
  unfold elementIntegral
  rw [h.kind]
  show _ = |2 * ana.area| * ∫ r in (0 : ℝ)..1, ∫ s in (0 : ℝ)..(1 - r), g (coord pad 0 (point r s 0), coord pad 1 (point r s 0)) * detJ pad (point r s 0)
  simp only [tri3_det h.kind h.plane, ← h.eq, intervalIntegral.integral_mul_const, tri_coords h.kind]
  ring

/-- **C69.** The integral over a triangle with positive area is the Lebesgue integral over the convex hull of its nodes (of any continuous
function of the position); with a negative area the sign changes. -/
theorem C69_triangle_integral {pad : Scratchpad} {ana : AnalyticalTri3} (h : IsTri3 pad ana) {g : ℝ × ℝ → ℝ} (hg : Continuous g) :
    (0 < ana.area → elementIntegral pad (fun ξ => g (coord pad 0 ξ, coord pad 1 ξ)) = ∫ p in triangle pad, g p) ∧
    (ana.area < 0 → elementIntegral pad (fun ξ => g (coord pad 0 ξ, coord pad 1 ξ)) = - ∫ p in triangle pad, g p) := by
  have := tri_lebesgue h hg
  refine ⟨fun hp => ?_, fun hp => ?_⟩
  · rw [abs_of_pos (by linarith)] at this
    exact (mul_left_cancel₀ (show 2 * ana.area ≠ 0 by linarith) this).symm
  · rw [abs_of_neg (by linarith)] at this
    have h2 : 2 * ana.area ≠ 0 := by linarith
    apply mul_left_cancel₀ h2; linear_combination this

/-- **C69.** `area` is the area of the triangle, up to the sign. -/
theorem C69_triangle_area {pad : Scratchpad} {ana : AnalyticalTri3} (h : IsTri3 pad ana) : |ana.area| = (volume (triangle pad)).toReal := by
  have := C69_triangle_integral h (g := fun _ => 1) continuous_const
  rw [← C69_tri3_area h, setIntegral_const, smul_eq_mul, mul_one] at this
  have hne := h.ne; rw [← h.eq] at hne
  rcases lt_or_gt_of_ne hne with hp | hp
  · rw [abs_of_neg hp, this.2 hp, neg_neg]; rfl
  · rw [abs_of_pos hp]; exact this.1 hp

theorem tet_lebesgue {pad : Scratchpad} {ana : AnalyticalTet4} (h : IsTet4 pad ana) {g : ℝ × ℝ × ℝ → ℝ} (hg : Continuous g) :
    6 * ana.volume * ∫ p in tetrahedron pad, g p = |6 * ana.volume| * elementIntegral pad fun ξ => g (coord pad 0 ξ, coord pad 1 ξ, coord pad 2 ξ) := by
  have hne := h.ne; rw [← h.eq] at hne
  let A : Matrix (Fin 3) (Fin 3) ℝ := Matrix.of fun i j => pad.xxt i (j + 1) - pad.xxt i 0
  have hdet : A.det = 6 * ana.volume := by
    have := tet4_det h.kind h.space (fun _ => 0)
    rw [← h.eq] at this
    rw [← this, detJ, h.space, detN, Matrix.det_fin_three, Matrix.det_fin_three]
    simp only [A, Matrix.of_apply, Fin.val_zero, Fin.val_one, Fin.val_two, (tet4_jac h.kind _ _).1, (tet4_jac h.kind _ _).2.1, (tet4_jac h.kind _ _).2.2]
  have e : tetrahedron pad = (fun q : ℝ × ℝ × ℝ => ((pad.xxt 0 0, pad.xxt 1 0, pad.xxt 2 0) : ℝ × ℝ × ℝ) + lin3 A q) '' refTet := by
    rw [tet_hull]; unfold tetrahedron Scratchpad.X; simp [A]
  rw [e, affine_integral3 A _ (by rw [hdet]; positivity) hg, hdet]
  unfold elementIntegral
  rw [h.kind]
  show _ = |6 * ana.volume| * ∫ r in (0 : ℝ)..1, ∫ s in (0 : ℝ)..(1 - r), ∫ t in (0 : ℝ)..(1 - r - s),
    g (coord pad 0 (point r s t), coord pad 1 (point r s t), coord pad 2 (point r s t)) * detJ pad (point r s t)
  simp only [tet4_det h.kind h.space, ← h.eq, intervalIntegral.integral_mul_const, tet_coords h.kind]
  have e2 : ∀ r s t, ((pad.xxt 0 0, pad.xxt 1 0, pad.xxt 2 0) : ℝ × ℝ × ℝ) + lin3 A (r, s, t) =
      (pad.xxt 0 0 + ((pad.xxt 0 1 - pad.xxt 0 0) * r + (pad.xxt 0 2 - pad.xxt 0 0) * s + (pad.xxt 0 3 - pad.xxt 0 0) * t),
       pad.xxt 1 0 + ((pad.xxt 1 1 - pad.xxt 1 0) * r + (pad.xxt 1 2 - pad.xxt 1 0) * s + (pad.xxt 1 3 - pad.xxt 1 0) * t),
       pad.xxt 2 0 + ((pad.xxt 2 1 - pad.xxt 2 0) * r + (pad.xxt 2 2 - pad.xxt 2 0) * s + (pad.xxt 2 3 - pad.xxt 2 0) * t)) := by
    intro r s t; rw [lin3_apply]; rfl
  simp only [e2]
  ring

/-- **C69.** The same for tetrahedra. -/
theorem C69_tetrahedron_integral {pad : Scratchpad} {ana : AnalyticalTet4} (h : IsTet4 pad ana) {g : ℝ × ℝ × ℝ → ℝ} (hg : Continuous g) :
    (0 < ana.volume → elementIntegral pad (fun ξ => g (coord pad 0 ξ, coord pad 1 ξ, coord pad 2 ξ)) = ∫ p in tetrahedron pad, g p) ∧
    (ana.volume < 0 → elementIntegral pad (fun ξ => g (coord pad 0 ξ, coord pad 1 ξ, coord pad 2 ξ)) = - ∫ p in tetrahedron pad, g p) := by
  have := tet_lebesgue h hg
  refine ⟨fun hp => ?_, fun hp => ?_⟩
  · rw [abs_of_pos (by linarith)] at this
    exact (mul_left_cancel₀ (show 6 * ana.volume ≠ 0 by linarith) this).symm
  · rw [abs_of_neg (by linarith)] at this
    have h2 : 6 * ana.volume ≠ 0 := by linarith
    apply mul_left_cancel₀ h2; linear_combination this

/-- **C69.** `volume` is the volume of the tetrahedron, up to the sign. -/
theorem C69_tetrahedron_volume {pad : Scratchpad} {ana : AnalyticalTet4} (h : IsTet4 pad ana) : |ana.volume| = (volume (tetrahedron pad)).toReal := by
  have := C69_tetrahedron_integral h (g := fun _ => 1) continuous_const
  rw [← C69_tet4_volume h, setIntegral_const, smul_eq_mul, mul_one] at this
  have hne := h.ne; rw [← h.eq] at hne
  rcases lt_or_gt_of_ne hne with hp | hp
  · rw [abs_of_neg hp, this.2 hp, neg_neg]; rfl
  · rw [abs_of_pos hp]; exact this.1 hp

end Gemlab.Analytical
