import Verif.Proofs.AnalyticalQua

/-!
# C69: the analytical integrals over rectangles with four or eight nodes are the integrals

For every rectangle with sides parallel to the axes whose half side lengths `a` and `b` are those given to `AnalyticalQua4::new` and
`AnalyticalQua8::new`. The coupled integrals 04 to 07 have a second, lower-order pad on the rectangle with the same half side lengths.
-/

namespace Gemlab.Analytical
open Gemlab Gemlab.Shapes Gemlab.GaussSpec Gemlab.Spec.Integ Gemlab.Spec.Analytical

section
variable {pad : Scratchpad} (hk : pad.kind = .qua4) {a b : ℝ} (hr : IsRectangle pad a b)
include hk hr

/-- C69, `mat_01_nsn` of Qua4: `∫ Nᵐ s Nⁿ th dΩ`. -/
theorem C69_qua4_mat_01_nsn (s th : ℝ) :
    IsMatrix ((AnalyticalQua4.mk a b).mat01Nsn s th) 4 4 (fun m n => elementIntegral pad fun ξ => N pad m ξ * s * N pad n ξ * th) := by
  refine ⟨rfl, fun m hm => ⟨by interval_cases m <;> rfl, fun n hn => ?_⟩⟩
  refine Eq.trans ?_ (rect_one (.inl hk) hr (s * th) (tNN4_eq m hm n hn) (fun ξ => by
    rw [N_eq, N_eq, hk, PE.eval_mul]; ring)).symm
  interval_cases m <;> interval_cases n <;> simp [AnalyticalQua4.mat01Nsn, tNN4] <;> ring

variable (ha : a ≠ 0) (hb : b ≠ 0) {B : (Nat → ℝ) → Nat → Nat → ℝ} (hB : IsGradientField pad B)
include ha hb hB

/-- C69, `mat_03_btb` of Qua4: `∫ Bᵐ · k · Bⁿ dΩ` with `k = diag(kx, ky)`. -/
theorem C69_qua4_mat_03_btb (k : Nat → ℝ) :
    IsMatrix ((AnalyticalQua4.mk a b).mat03Btb (k 0) (k 1)) 4 4 (fun m n => elementIntegral pad fun ξ => ∑ i ∈ Finset.range 2, B ξ m i * k i * B ξ n i) := by
  refine ⟨rfl, fun m hm => ⟨by interval_cases m <;> rfl, fun n hn => ?_⟩⟩
  have gm := rect_grad (.inl hk) hr hB ha hb (show m < pad.kind.nnode by rw [hk]; exact hm)
  have gn := rect_grad (.inl hk) hr hB ha hb (show n < pad.kind.nnode by rw [hk]; exact hn)
  refine Eq.trans ?_ (rect_two (.inl hk) hr (k 0 / (a * a)) (k 1 / (b * b)) (tXX4_eq m hm n hn) (tYY4_eq m hm n hn) (fun ξ => by
    simp only [Finset.sum_range_succ, Finset.sum_range_zero, (gm ξ).1, (gm ξ).2, (gn ξ).1, (gn ξ).2]
    rw [hk, PE.eval_mul, PE.eval_mul]; field_simp; ring)).symm
  clear gm gn
  interval_cases m <;> interval_cases n <;> simp [AnalyticalQua4.mat03Btb, tXX4, tYY4] <;> field_simp <;> ring
end

section
variable {pad : Scratchpad} (hk : pad.kind = .qua8) {a b : ℝ} (hr : IsRectangle pad a b)
include hk hr

/-- C69, `mat_01_nsn` of Qua8: `∫ Nᵐ s Nⁿ th dΩ`. -/
theorem C69_qua8_mat_01_nsn (s th : ℝ) :
    IsMatrix ((AnalyticalQua8.mk a b).mat01Nsn s th) 8 8 (fun m n => elementIntegral pad fun ξ => N pad m ξ * s * N pad n ξ * th) := by
  refine ⟨rfl, fun m hm => ⟨by interval_cases m <;> rfl, fun n hn => ?_⟩⟩
  refine Eq.trans ?_ (rect_one (.inr hk) hr (s * th) (tNN8_eq m hm n hn) (fun ξ => by
    rw [N_eq, N_eq, hk, PE.eval_mul]; ring)).symm
  interval_cases m <;> interval_cases n <;> simp [-mul_eq_mul_left_iff, -mul_eq_mul_right_iff, AnalyticalQua8.mat01Nsn, tNN8] <;> ring

/-- C69, `mat_06_nvn` of Qua8: `∫ Nᵐ v_i Nbⁿ dΩ` at entry `(i + 2 m, n)`. -/
theorem C69_qua8_mat_06_nvn {padb : Scratchpad} (hkb : padb.kind = .qua4) (v : Nat → ℝ) :
    IsMatrix ((AnalyticalQua8.mk a b).mat06Nvn (v 0) (v 1)) 16 4 (fun r n => elementIntegral pad fun ξ => N pad (r / 2) ξ * v (r % 2) * N padb n ξ) := by
  refine ⟨rfl, fun r hr' => ⟨by interval_cases r <;> rfl, fun n hn => ?_⟩⟩
  refine Eq.trans ?_ (rect_one (.inr hk) hr (v (r % 2)) (tN4N8_eq n hn (r / 2) (by omega)) (fun ξ => by
    rw [N_eq, N_eq, hk, hkb, PE.eval_mul]; ring)).symm
  interval_cases r <;> interval_cases n <;> simp [-mul_eq_mul_left_iff, -mul_eq_mul_right_iff, AnalyticalQua8.mat06Nvn, tN4N8] <;> ring

variable (ha : a ≠ 0) (hb : b ≠ 0)
include ha hb

section
variable {B : (Nat → ℝ) → Nat → Nat → ℝ} (hB : IsGradientField pad B)
include hB

set_option maxHeartbeats 1600000 in
/-- C69, `mat_03_btb` of Qua8: `∫ Bᵐ · k · Bⁿ dΩ` with `k = diag(kx, ky)`. -/
theorem C69_qua8_mat_03_btb (k : Nat → ℝ) :
    IsMatrix ((AnalyticalQua8.mk a b).mat03Btb (k 0) (k 1)) 8 8 (fun m n => elementIntegral pad fun ξ => ∑ i ∈ Finset.range 2, B ξ m i * k i * B ξ n i) := by
  refine ⟨rfl, fun m hm => ⟨by interval_cases m <;> rfl, fun n hn => ?_⟩⟩
  have gm := rect_grad (.inr hk) hr hB ha hb (show m < pad.kind.nnode by rw [hk]; exact hm)
  have gn := rect_grad (.inr hk) hr hB ha hb (show n < pad.kind.nnode by rw [hk]; exact hn)
  refine Eq.trans ?_ (rect_two (.inr hk) hr (k 0 / (a * a)) (k 1 / (b * b)) (tXX8_eq m hm n hn) (tYY8_eq m hm n hn) (fun ξ => by
    simp only [Finset.sum_range_succ, Finset.sum_range_zero, (gm ξ).1, (gm ξ).2, (gn ξ).1, (gn ξ).2]
    rw [hk, PE.eval_mul, PE.eval_mul]; field_simp; ring)).symm
  clear gm gn
  interval_cases m <;> interval_cases n <;> simp [-mul_eq_mul_left_iff, -mul_eq_mul_right_iff, AnalyticalQua8.mat03Btb, tXX8, tYY8] <;> field_simp <;> ring

/-- C69, `mat_04_nsb` of Qua8: `∫ Nbᵐ s Bⁿ_j dΩ` at entry `(m, j + 2 n)`. -/
theorem C69_qua8_mat_04_nsb {padb : Scratchpad} (hkb : padb.kind = .qua4) (s : ℝ) :
    IsMatrix ((AnalyticalQua8.mk a b).mat04Nsb s) 4 16 (fun m c => elementIntegral pad fun ξ => N padb m ξ * s * B ξ (c / 2) (c % 2)) := by
  refine ⟨rfl, fun m hm => ⟨by interval_cases m <;> rfl, fun c hc => ?_⟩⟩
  have gn := rect_grad (.inr hk) hr hB ha hb (show c / 2 < pad.kind.nnode by rw [hk]; show c / 2 < 8; omega)
  rcases (show c % 2 = 0 ∨ c % 2 = 1 by omega) with e | e
  · refine Eq.trans ?_ (rect_one (.inr hk) hr (s / a) (tN4X8_eq m hm (c / 2) (by omega)) (fun ξ => by
      rw [e, N_eq, (gn ξ).1, hk, hkb, PE.eval_mul]; ring)).symm
    clear gn
    interval_cases m <;> interval_cases c <;> first | (exfalso; revert e; decide) | (clear e; simp [-mul_eq_mul_left_iff, -mul_eq_mul_right_iff, AnalyticalQua8.mat04Nsb, tN4X8] <;> field_simp <;> ring)
  · refine Eq.trans ?_ (rect_one (.inr hk) hr (s / b) (tN4Y8_eq m hm (c / 2) (by omega)) (fun ξ => by
      rw [e, N_eq, (gn ξ).2, hk, hkb, PE.eval_mul]; ring)).symm
    clear gn
    interval_cases m <;> interval_cases c <;> first | (exfalso; revert e; decide) | (clear e; simp [-mul_eq_mul_left_iff, -mul_eq_mul_right_iff, AnalyticalQua8.mat04Nsb, tN4Y8] <;> field_simp <;> ring)

/-- C69, `mat_07_bsn` of Qua8: `∫ Bᵐ_i s Nbⁿ dΩ` at entry `(i + 2 m, n)`. -/
theorem C69_qua8_mat_07_bsn {padb : Scratchpad} (hkb : padb.kind = .qua4) (s : ℝ) :
    IsMatrix ((AnalyticalQua8.mk a b).mat07Bsn s) 16 4 (fun c n => elementIntegral pad fun ξ => B ξ (c / 2) (c % 2) * s * N padb n ξ) := by
  refine ⟨rfl, fun c hc => ⟨by interval_cases c <;> rfl, fun m hm => ?_⟩⟩
  have gn := rect_grad (.inr hk) hr hB ha hb (show c / 2 < pad.kind.nnode by rw [hk]; show c / 2 < 8; omega)
  rcases (show c % 2 = 0 ∨ c % 2 = 1 by omega) with e | e
  · refine Eq.trans ?_ (rect_one (.inr hk) hr (s / a) (tN4X8_eq m hm (c / 2) (by omega)) (fun ξ => by
      rw [e, N_eq, (gn ξ).1, hk, hkb, PE.eval_mul]; ring)).symm
    clear gn
    interval_cases m <;> interval_cases c <;> first | (exfalso; revert e; decide) | (clear e; simp [-mul_eq_mul_left_iff, -mul_eq_mul_right_iff, AnalyticalQua8.mat07Bsn, tN4X8] <;> field_simp <;> ring)
  · refine Eq.trans ?_ (rect_one (.inr hk) hr (s / b) (tN4Y8_eq m hm (c / 2) (by omega)) (fun ξ => by
      rw [e, N_eq, (gn ξ).2, hk, hkb, PE.eval_mul]; ring)).symm
    clear gn
    interval_cases m <;> interval_cases c <;> first | (exfalso; revert e; decide) | (clear e; simp [-mul_eq_mul_left_iff, -mul_eq_mul_right_iff, AnalyticalQua8.mat07Bsn, tN4Y8] <;> field_simp <;> ring)
end

set_option maxHeartbeats 1600000 in
/-- C69, `mat_05_btn` of Qua8: `∫ Bbᵐ_i T_ij Nⁿ dΩ` at entry `(m, j + 2 n)`, the gradients being those of the lower-order pad. -/
theorem C69_qua8_mat_05_btn {padb : Scratchpad} (hkb : padb.kind = .qua4) (hrb : IsRectangle padb a b) {Bb : (Nat → ℝ) → Nat → Nat → ℝ}
    (hB : IsGradientField padb Bb) (t : Nat → ℝ) :
    IsMatrix ((AnalyticalQua8.mk a b).mat05Btn t) 4 16 (fun m c => elementIntegral pad fun ξ =>
      (∑ i ∈ Finset.range 2, Bb ξ m i * tensor2 t i (c % 2)) * N pad (c / 2) ξ) := by
  refine ⟨rfl, fun m hm => ⟨by interval_cases m <;> rfl, fun c hc => ?_⟩⟩
  have gn := rect_grad (.inl hkb) hrb hB ha hb (show m < padb.kind.nnode by rw [hkb]; exact hm)
  refine Eq.trans ?_ (rect_two (.inr hk) hr (tensor2 t 0 (c % 2) / a) (tensor2 t 1 (c % 2) / b) (tX4N8_eq m hm (c / 2) (by omega)) (tY4N8_eq m hm (c / 2) (by omega)) (fun ξ => by
    simp only [Finset.sum_range_succ, Finset.sum_range_zero, (gn ξ).1, (gn ξ).2]
    rw [N_eq, hk, hkb, PE.eval_mul, PE.eval_mul]; ring)).symm
  clear gn
  interval_cases m <;> interval_cases c <;> simp [-mul_eq_mul_left_iff, -mul_eq_mul_right_iff, AnalyticalQua8.mat05Btn, tX4N8, tY4N8, tensor2, asMatrix, Integ.sqrt2] <;> field_simp <;> ring
end

/-! ## A concrete case -/

/-- The rectangle [0, 4] × [1, 7]. -/
noncomputable def exampleRect (k : GeoKind) : Scratchpad :=
  ⟨k, 2, fun _ => 0, fun _ _ => 0, fun _ _ => 0, fun _ _ => 0, fun _ _ => 0, fun i m => if i = 0 then 2 + 2 * refCoord k m 0 else 4 + 3 * refCoord k m 1, true⟩

example : IsRectangle (exampleRect .qua8) 2 3 ∧ IsRectangle (exampleRect .qua4) 2 3 ∧
    (∃ B, IsGradientField (exampleRect .qua8) B) ∧ ∃ B, IsGradientField (exampleRect .qua4) B := by
  have h8 : IsRectangle (exampleRect .qua8) 2 3 := ⟨rfl, 2, 4, fun m _ => ⟨rfl, rfl⟩⟩
  have h4 : IsRectangle (exampleRect .qua4) 2 3 := ⟨rfl, 2, 4, fun m _ => ⟨rfl, rfl⟩⟩
  exact ⟨h8, h4, ⟨_, rect_grad_exists (.inr rfl) h8 (by norm_num) (by norm_num)⟩, ⟨_, rect_grad_exists (.inl rfl) h4 (by norm_num) (by norm_num)⟩⟩

end Gemlab.Analytical
