import Verif.Proofs.Analytical

/-!
# C69: the analytical integrals over a tetrahedron with four nodes are the integrals

For every tetrahedron with four nodes in space whose signed volume is not zero.
-/

namespace Gemlab.Analytical
open Gemlab Gemlab.Shapes Gemlab.GaussSpec Gemlab.Spec.Integ Gemlab.Spec.Analytical

theorem tet4_deriv (ξ : Nat → ℝ) : ∀ m i, Shapes.calcDeriv .tet4 ξ m i =
    (([[-1, -1, -1], [1, 0, 0], [0, 1, 0], [0, 0, 1]] : List (List ℝ)).getD m []).getD i 0 := by
  intro m i
  unfold Shapes.calcDeriv
  rcases m with _ | _ | _ | _ | m <;> rcases i with _ | _ | _ | i <;> simp [Shapes.deriv, tet4Deriv]

theorem tet4_jac {pad : Scratchpad} (hk : pad.kind = .tet4) (ξ : Nat → ℝ) (i : Nat) :
    jac pad ξ i 0 = pad.xxt i 1 - pad.xxt i 0 ∧ jac pad ξ i 1 = pad.xxt i 2 - pad.xxt i 0 ∧ jac pad ξ i 2 = pad.xxt i 3 - pad.xxt i 0 := by
  unfold jac
  rw [hk]
  simp only [show GeoKind.nnode .tet4 = 4 from rfl, Finset.sum_range_succ, Finset.sum_range_zero, tet4_deriv, Scratchpad.X]
  refine ⟨?_, ?_, ?_⟩ <;> simp <;> ring

theorem tet4_det {pad : Scratchpad} (hk : pad.kind = .tet4) (hs : pad.spaceNdim = 3) (ξ : Nat → ℝ) :
    detJ pad ξ = 6 * (AnalyticalTet4.compute pad).volume := by
  have J := fun i => tet4_jac hk ξ i
  rw [detJ, hs, detN, Matrix.det_fin_three]
  simp only [Matrix.of_apply, Fin.val_zero, Fin.val_one, Fin.val_two, (J _).1, (J _).2.1, (J _).2.2, AnalyticalTet4.compute]
  ring

theorem tet4_grad {pad : Scratchpad} (hk : pad.kind = .tet4) (hs : pad.spaceNdim = 3) (ha : (AnalyticalTet4.compute pad).volume ≠ 0) (ξ : Nat → ℝ) :
    IsGradient pad ξ (AnalyticalTet4.compute pad).bb.at := by
  intro m hm j hj
  rw [hk] at hm; rw [hs] at hj; rw [hs, hk]
  rw [tet4_deriv]
  simp only [Finset.sum_range_succ, Finset.sum_range_zero, zero_add]
  have J := fun i => tet4_jac hk ξ i
  have h2 : 6 * (AnalyticalTet4.compute pad).volume ≠ 0 := by positivity
  obtain ⟨d, h3⟩ : ∃ d, d = 6 * (AnalyticalTet4.compute pad).volume := ⟨_, rfl⟩
  rw [← h3] at h2
  simp only [AnalyticalTet4.compute, mul_div_cancel₀ _ (show (6:ℝ) ≠ 0 by norm_num)] at h3
  simp only [AnalyticalTet4.compute, ← h3]
  have hm' : m = 0 ∨ m = 1 ∨ m = 2 ∨ m = 3 := by have : m < 4 := hm; omega
  have hj' : j = 0 ∨ j = 1 ∨ j = 2 := by omega
  rcases hm' with rfl | rfl | rfl | rfl <;> rcases hj' with rfl | rfl | rfl <;>
    simp only [List.at, List.getD_cons_zero, List.getD_cons_succ, List.getD_nil, (J _).1, (J _).2.1, (J _).2.2] <;> field_simp <;> rw [h3] <;> ring

section
variable {pad : Scratchpad} (hk : pad.kind = .tet4) (hs : pad.spaceNdim = 3)
include hk hs

theorem tet_const {c : ℝ} {f : (Nat → ℝ) → ℝ} (hf : ∀ ξ, f ξ = c) : elementIntegral pad f = (AnalyticalTet4.compute pad).volume * c := by
  rw [element_expr (tet4_det hk hs) c 1 (by decide +kernel) (fun ξ => by rw [hf, PE.eval_one, mul_one]), hk,
    show intPE (GeoKind.classOf .tet4) 1 = 1 / 6 by decide +kernel]
  push_cast; ring

theorem tet_one {c : ℝ} {m : Nat} (hm : m < 4) {f : (Nat → ℝ) → ℝ} (hf : ∀ ξ, f ξ = c * N pad m ξ) :
    elementIntegral pad f = (AnalyticalTet4.compute pad).volume * c / 4 := by
  rw [element_expr (tet4_det hk hs) c (Np pad.kind m) (by rw [hk]; clear hf; revert m; decide +kernel) hf, hk,
    show intPE (GeoKind.classOf .tet4) (Np .tet4 m) = 1 / 24 by clear hf; revert m; decide +kernel]
  push_cast; ring

theorem tet_two {c : Nat → ℝ} {m : Nat} (hm : m < 4) {f : (Nat → ℝ) → ℝ} (hf : ∀ ξ, f ξ = ∑ k ∈ Finset.range 4, c k * (N pad m ξ * N pad k ξ)) :
    elementIntegral pad f = (AnalyticalTet4.compute pad).volume * (c 0 + c 1 + c 2 + c 3 + c m) / 20 := by
  rw [element_exprs (tet4_det hk hs) (Finset.range 4) c (fun k => Np pad.kind m * Np pad.kind k)
    (by rw [hk]; clear hf; revert m; decide +kernel) hf, hk]
  have h : ∀ k < 4, intPE (GeoKind.classOf .tet4) (Np .tet4 m * Np .tet4 k) = if m = k then 1 / 60 else 1 / 120 := by
    clear hf; revert m; decide +kernel
  simp only [Finset.sum_range_succ, Finset.sum_range_zero, h 0 (by omega), h 1 (by omega), h 2 (by omega), h 3 (by omega)]
  rcases (show m = 0 ∨ m = 1 ∨ m = 2 ∨ m = 3 by omega) with rfl | rfl | rfl | rfl <;> simp <;> ring

theorem tet_nn {c : ℝ} {m n : Nat} (hm : m < 4) (hn : n < 4) {f : (Nat → ℝ) → ℝ} (hf : ∀ ξ, f ξ = c * (N pad m ξ * N pad n ξ)) :
    elementIntegral pad f = (AnalyticalTet4.compute pad).volume * c * (if m = n then 2 else 1) / 20 := by
  rw [tet_two hk hs (c := fun k => if k = n then c else 0) hm (fun ξ => by
    rw [hf]; simp only [ite_mul, zero_mul]; rw [Finset.sum_ite_eq' (Finset.range 4) n, if_pos (Finset.mem_range.2 hn)])]
  rcases (show m = 0 ∨ m = 1 ∨ m = 2 ∨ m = 3 by omega) with rfl | rfl | rfl | rfl <;>
    rcases (show n = 0 ∨ n = 1 ∨ n = 2 ∨ n = 3 by omega) with rfl | rfl | rfl | rfl <;> simp <;> ring

theorem tet_coord (i : Nat) (ξ : Nat → ℝ) : coord pad i ξ = ∑ k ∈ Finset.range 4, pad.xxt i k * N pad k ξ := by
  unfold coord Shapes.calcCoords; rw [hk]; unfold N; rw [hk]; rfl
end

/-- Hypotheses of the theorems below: a tetrahedron with four nodes in space whose signed volume is not zero. -/
structure IsTet4 (pad : Scratchpad) (ana : AnalyticalTet4) : Prop where
  space : pad.spaceNdim = 3
  new : AnalyticalTet4.new pad = .ok ana
  volume : elementIntegral pad (fun _ => 1) ≠ 0

theorem IsTet4.kind {pad : Scratchpad} {ana : AnalyticalTet4} (h : IsTet4 pad ana) : pad.kind = .tet4 := by
  have := h.new; unfold AnalyticalTet4.new at this; split at this
  · assumption
  · cases this
theorem IsTet4.eq {pad : Scratchpad} {ana : AnalyticalTet4} (h : IsTet4 pad ana) : ana = AnalyticalTet4.compute pad := by
  have := h.new; unfold AnalyticalTet4.new at this; rw [if_pos h.kind] at this; exact (Res.ok.inj this).symm
theorem IsTet4.ne {pad : Scratchpad} {ana : AnalyticalTet4} (h : IsTet4 pad ana) : (AnalyticalTet4.compute pad).volume ≠ 0 := by
  have := h.volume; rw [tet_const h.kind h.space (c := 1) fun _ => rfl, mul_one] at this; exact this
theorem IsTet4.bb {pad : Scratchpad} {ana : AnalyticalTet4} (h : IsTet4 pad ana) {B : (Nat → ℝ) → Nat → Nat → ℝ} (hB : IsGradientField pad B)
    {m i : Nat} (hm : m < 4) (hi : i < 3) (ξ : Nat → ℝ) : B ξ m i = ana.bb.at m i := by
  rw [h.eq]
  refine gradient_three h.space ?_ (hB ξ) (tet4_grad h.kind h.space h.ne ξ) (by rw [h.kind]; exact hm) hi
  rw [tet4_det h.kind h.space]; have := h.ne; positivity

/-- `AnalyticalTet4::new` accepts exactly the pads of kind Tet4. -/
theorem C69_tet4_new (pad : Scratchpad) : (pad.kind = .tet4 ∧ ∃ ana, AnalyticalTet4.new pad = .ok ana) ∨ (pad.kind ≠ .tet4 ∧ AnalyticalTet4.new pad = .panic) := by
  unfold AnalyticalTet4.new
  by_cases h : pad.kind = .tet4
  · exact .inl ⟨h, _, if_pos h⟩
  · exact .inr ⟨h, if_neg h⟩

section
variable {pad : Scratchpad} {ana : AnalyticalTet4} (h : IsTet4 pad ana)
include h

/-- The volume is the integral of 1, and the gradients are those of the shape functions. -/
theorem C69_tet4_volume : ana.volume = elementIntegral pad (fun _ => 1) := by
  rw [tet_const h.kind h.space (c := 1) fun _ => rfl, h.eq, mul_one]

theorem C69_tet4_gradient {B : (Nat → ℝ) → Nat → Nat → ℝ} (hB : IsGradientField pad B)
    (ξ : Nat → ℝ) : IsMatrix ana.bb 4 3 (fun m i => B ξ m i) := by
  refine ⟨by rw [h.eq]; rfl, fun m hm => ⟨?_, fun i hi => (h.bb hB hm hi ξ).symm⟩⟩
  rw [h.eq]
  rcases (show m = 0 ∨ m = 1 ∨ m = 2 ∨ m = 3 by omega) with rfl | rfl | rfl | rfl <;> rfl

/-- ... and there is such a gradient field. -/
theorem C69_tet4_gradient_exists : IsGradientField pad (fun _ => ana.bb.at) := by
  rw [h.eq]; exact tet4_grad h.kind h.space h.ne

/-- C69, `vec_01_ns`: `∫ Nᵐ s dΩ`. -/
theorem C69_tet4_vec_01_ns (s : ℝ) : IsVector (ana.vec01Ns s) 4 (fun m => elementIntegral pad fun ξ => N pad m ξ * s) := by
  refine ⟨rfl, fun m hm => ?_⟩
  refine Eq.trans ?_ (tet_one h.kind h.space (m := m) (c := s) hm (fun ξ => by ring)).symm
  rw [← h.eq]
  interval_cases m <;> simp [-mul_eq_mul_left_iff, -mul_eq_mul_right_iff, AnalyticalTet4.vec01Ns] <;> ring

/-- C69, `vec_01_ns_linear_along_z`: `∫ Nᵐ s dΩ` with `s(x) = z`. -/
theorem C69_tet4_vec_01_ns_linear_along_z : IsVector (ana.vec01NsLinearAlongZ pad) 4 (fun m => elementIntegral pad fun ξ => N pad m ξ * coord pad 2 ξ) := by
  refine ⟨rfl, fun m hm => ?_⟩
  refine Eq.trans ?_ (tet_two h.kind h.space (m := m) (c := fun k => pad.xxt 2 k) hm (fun ξ => by
    simp only [tet_coord h.kind h.space, Finset.mul_sum]; exact Finset.sum_congr rfl fun _ _ => by ring)).symm
  rw [← h.eq]
  interval_cases m <;> simp [-mul_eq_mul_left_iff, -mul_eq_mul_right_iff, AnalyticalTet4.vec01NsLinearAlongZ] <;> ring

/-- C69, `vec_02_nv`: `∫ Nᵐ v_i dΩ` at entry `i + 3 m`. -/
theorem C69_tet4_vec_02_nv (v : Nat → ℝ) :
    IsVector (ana.vec02Nv (v 0) (v 1) (v 2)) 12 (fun a => elementIntegral pad fun ξ => N pad (a / 3) ξ * v (a % 3)) := by
  refine ⟨rfl, fun a ha => ?_⟩
  refine Eq.trans ?_ (tet_one h.kind h.space (m := a / 3) (c := v (a % 3)) (by omega) (fun ξ => by ring)).symm
  rw [← h.eq]
  interval_cases a <;> simp [AnalyticalTet4.vec02Nv] <;> ring

/-- C69, `mat_01_nsn`: `∫ Nᵐ s Nⁿ dΩ`. -/
theorem C69_tet4_mat_01_nsn (s : ℝ) :
    IsMatrix (ana.mat01Nsn s) 4 4 (fun m n => elementIntegral pad fun ξ => N pad m ξ * s * N pad n ξ) := by
  refine ⟨rfl, fun m hm => ⟨by interval_cases m <;> rfl, fun n hn => ?_⟩⟩
  refine Eq.trans ?_ (tet_nn h.kind h.space (m := m) (n := n) (c := s) hm hn (fun ξ => by ring)).symm
  rw [← h.eq]
  interval_cases m <;> interval_cases n <;> simp [AnalyticalTet4.mat01Nsn] <;> ring

/-- C69, `mat_06_nvn`: `∫ Nᵐ v_i Nⁿ dΩ` at entry `(i + 3 m, n)`. -/
theorem C69_tet4_mat_06_nvn (v : Nat → ℝ) :
    IsMatrix (ana.mat06Nvn (v 0) (v 1) (v 2)) 12 4 (fun a n => elementIntegral pad fun ξ => N pad (a / 3) ξ * v (a % 3) * N pad n ξ) := by
  refine ⟨rfl, fun a ha => ⟨by interval_cases a <;> rfl, fun n hn => ?_⟩⟩
  refine Eq.trans ?_ (tet_nn h.kind h.space (m := a / 3) (n := n) (c := v (a % 3)) (by omega) hn (fun ξ => by ring)).symm
  rw [← h.eq]
  interval_cases a <;> interval_cases n <;> simp [-mul_eq_mul_left_iff, -mul_eq_mul_right_iff, AnalyticalTet4.mat06Nvn] <;> ring

set_option maxHeartbeats 1600000 in
/-- C69, `mat_08_ntn`: `∫ Nᵐ T_ij Nⁿ dΩ` at entry `(i + 3 m, j + 3 n)`. -/
theorem C69_tet4_mat_08_ntn (t : Nat → ℝ) :
    IsMatrix (ana.mat08Ntn t) 12 12 (fun a b => elementIntegral pad fun ξ => N pad (a / 3) ξ * tensor2 t (a % 3) (b % 3) * N pad (b / 3) ξ) := by
  refine ⟨rfl, fun a ha => ⟨by interval_cases a <;> rfl, fun b hb => ?_⟩⟩
  refine Eq.trans ?_ (tet_nn h.kind h.space (m := a / 3) (n := b / 3) (c := tensor2 t (a % 3) (b % 3)) (by omega) (by omega) (fun ξ => by ring)).symm
  rw [← h.eq]
  interval_cases a <;> interval_cases b <;> simp [-mul_eq_mul_left_iff, -mul_eq_mul_right_iff, AnalyticalTet4.mat08Ntn, tensor2, asMatrix, Integ.sqrt2] <;> ring

variable {B : (Nat → ℝ) → Nat → Nat → ℝ} (hB : IsGradientField pad B)
include hB

/-- C69, `vec_03_bv`: `∫ w · Bᵐ dΩ`. -/
theorem C69_tet4_vec_03_bv (w : Nat → ℝ) :
    IsVector (ana.vec03Bv (w 0) (w 1) (w 2)) 4 (fun m => elementIntegral pad fun ξ => ∑ i ∈ Finset.range 3, w i * B ξ m i) := by
  refine ⟨rfl, fun m hm => ?_⟩
  refine Eq.trans ?_ (tet_const h.kind h.space (c := w 0 * ana.bb.at m 0 + w 1 * ana.bb.at m 1 + w 2 * ana.bb.at m 2) (fun ξ => by
    simp [Finset.sum_range_succ, h.bb hB hm])).symm
  rw [← h.eq]
  interval_cases m <;> simp [AnalyticalTet4.vec03Bv] <;> ring

/-- C69, `vec_04_bt`: `∫ σ_ij Bᵐ_j dΩ` at entry `i + 3 m`. -/
theorem C69_tet4_vec_04_bt (t : Nat → ℝ) :
    IsVector (ana.vec04Bt t) 12 (fun a => elementIntegral pad fun ξ => ∑ j ∈ Finset.range 3, tensor2 t (a % 3) j * B ξ (a / 3) j) := by
  refine ⟨rfl, fun a ha => ?_⟩
  have hm : a / 3 < 4 := by omega
  refine Eq.trans ?_ (tet_const h.kind h.space (c := tensor2 t (a % 3) 0 * ana.bb.at (a / 3) 0 + tensor2 t (a % 3) 1 * ana.bb.at (a / 3) 1 + tensor2 t (a % 3) 2 * ana.bb.at (a / 3) 2) (fun ξ => by
    simp [Finset.sum_range_succ, h.bb hB hm])).symm
  rw [← h.eq]
  interval_cases a <;> simp [-mul_eq_mul_left_iff, -mul_eq_mul_right_iff, AnalyticalTet4.vec04Bt, tensor2, asMatrix, Integ.sqrt2] <;> ring

/-- C69, `mat_02_bvn`: `∫ (Bᵐ · v) Nⁿ dΩ`. -/
theorem C69_tet4_mat_02_bvn (v : Nat → ℝ) :
    IsMatrix (ana.mat02Bvn (v 0) (v 1) (v 2)) 4 4 (fun m n => elementIntegral pad fun ξ => (∑ i ∈ Finset.range 3, B ξ m i * v i) * N pad n ξ) := by
  refine ⟨rfl, fun m hm => ⟨by interval_cases m <;> rfl, fun n hn => ?_⟩⟩
  refine Eq.trans ?_ (tet_one h.kind h.space (m := n) (c := ana.bb.at m 0 * v 0 + ana.bb.at m 1 * v 1 + ana.bb.at m 2 * v 2) hn (fun ξ => by
    simp [Finset.sum_range_succ, h.bb hB hm])).symm
  rw [← h.eq]
  interval_cases m <;> interval_cases n <;> simp [-mul_eq_mul_left_iff, -mul_eq_mul_right_iff, AnalyticalTet4.mat02Bvn] <;> ring

/-- C69, `mat_03_btb`: `∫ Bᵐ · T · Bⁿ dΩ`. -/
theorem C69_tet4_mat_03_btb (t : Nat → ℝ) :
    IsMatrix (ana.mat03Btb t) 4 4 (fun m n => elementIntegral pad fun ξ => ∑ i ∈ Finset.range 3, ∑ j ∈ Finset.range 3, B ξ m i * tensor2 t i j * B ξ n j) := by
  refine ⟨rfl, fun m hm => ⟨by interval_cases m <;> rfl, fun n hn => ?_⟩⟩
  refine Eq.trans ?_ (tet_const h.kind h.space (c := ∑ i ∈ Finset.range 3, ∑ j ∈ Finset.range 3, ana.bb.at m i * tensor2 t i j * ana.bb.at n j) (fun ξ =>
    Finset.sum_congr rfl fun i hi => Finset.sum_congr rfl fun j hj => by rw [h.bb hB hm (Finset.mem_range.1 hi), h.bb hB hn (Finset.mem_range.1 hj)])).symm
  rw [← h.eq]
  simp only [Finset.sum_range_succ, Finset.sum_range_zero]
  interval_cases m <;> interval_cases n <;> simp [-mul_eq_mul_left_iff, -mul_eq_mul_right_iff, AnalyticalTet4.mat03Btb, tensor2, asMatrix, Integ.sqrt2] <;> ring

/-- C69, `mat_04_nsb`: `∫ Nᵐ s Bⁿ_j dΩ` at entry `(m, j + 3 n)`. -/
theorem C69_tet4_mat_04_nsb (s : ℝ) :
    IsMatrix (ana.mat04Nsb s) 4 12 (fun m b => elementIntegral pad fun ξ => N pad m ξ * s * B ξ (b / 3) (b % 3)) := by
  refine ⟨rfl, fun m hm => ⟨by interval_cases m <;> rfl, fun b hb => ?_⟩⟩
  refine Eq.trans ?_ (tet_one h.kind h.space (m := m) (c := s * ana.bb.at (b / 3) (b % 3)) hm (fun ξ => by
    rw [h.bb hB (by omega) (by omega)]; ring)).symm
  rw [← h.eq]
  interval_cases m <;> interval_cases b <;> simp [-mul_eq_mul_left_iff, -mul_eq_mul_right_iff, AnalyticalTet4.mat04Nsb] <;> ring

set_option maxHeartbeats 1600000 in
/-- C69, `mat_05_btn`: `∫ Bᵐ_i T_ij Nⁿ dΩ` at entry `(m, j + 3 n)`. -/
theorem C69_tet4_mat_05_btn (t : Nat → ℝ) :
    IsMatrix (ana.mat05Btn t) 4 12 (fun m b => elementIntegral pad fun ξ => (∑ i ∈ Finset.range 3, B ξ m i * tensor2 t i (b % 3)) * N pad (b / 3) ξ) := by
  refine ⟨rfl, fun m hm => ⟨by interval_cases m <;> rfl, fun b hb => ?_⟩⟩
  refine Eq.trans ?_ (tet_one h.kind h.space (m := b / 3) (c := ana.bb.at m 0 * tensor2 t 0 (b % 3) + ana.bb.at m 1 * tensor2 t 1 (b % 3) + ana.bb.at m 2 * tensor2 t 2 (b % 3)) (by omega) (fun ξ => by
    simp [Finset.sum_range_succ, h.bb hB hm])).symm
  rw [← h.eq]
  interval_cases m <;> interval_cases b <;> simp [-mul_eq_mul_left_iff, -mul_eq_mul_right_iff, AnalyticalTet4.mat05Btn, tensor2, asMatrix, Integ.sqrt2] <;> ring

/-- C69, `mat_07_bsn`: `∫ Bᵐ_i s Nⁿ dΩ` at entry `(i + 3 m, n)`. -/
theorem C69_tet4_mat_07_bsn (s : ℝ) :
    IsMatrix (ana.mat07Bsn s) 12 4 (fun a n => elementIntegral pad fun ξ => B ξ (a / 3) (a % 3) * s * N pad n ξ) := by
  refine ⟨rfl, fun a ha => ⟨by interval_cases a <;> rfl, fun n hn => ?_⟩⟩
  refine Eq.trans ?_ (tet_one h.kind h.space (m := n) (c := s * ana.bb.at (a / 3) (a % 3)) hn (fun ξ => by
    rw [h.bb hB (by omega) (by omega)]; ring)).symm
  rw [← h.eq]
  interval_cases a <;> interval_cases n <;> simp [-mul_eq_mul_left_iff, -mul_eq_mul_right_iff, AnalyticalTet4.mat07Bsn] <;> ring

set_option maxHeartbeats 1600000 in
/-- C69, `mat_09_nvb`: `∫ Nᵐ v_i Bⁿ_j dΩ` at entry `(i + 3 m, j + 3 n)`. -/
theorem C69_tet4_mat_09_nvb (v : Nat → ℝ) :
    IsMatrix (ana.mat09Nvb (v 0) (v 1) (v 2)) 12 12 (fun a b => elementIntegral pad fun ξ => N pad (a / 3) ξ * v (a % 3) * B ξ (b / 3) (b % 3)) := by
  refine ⟨rfl, fun a ha => ⟨by interval_cases a <;> rfl, fun b hb => ?_⟩⟩
  refine Eq.trans ?_ (tet_one h.kind h.space (m := a / 3) (c := v (a % 3) * ana.bb.at (b / 3) (b % 3)) (by omega) (fun ξ => by
    rw [h.bb hB (by omega) (by omega)]; ring)).symm
  rw [← h.eq]
  interval_cases a <;> interval_cases b <;> simp [-mul_eq_mul_left_iff, -mul_eq_mul_right_iff, AnalyticalTet4.mat09Nvb] <;> ring
end

theorem tet_bbe {pad : Scratchpad} {ana : AnalyticalTet4} (h : IsTet4 pad ana) :
    ana.bbe = (
      let b := ana.bb.at
      let q : ℝ := Real.sqrt 2
      [[b 0 0, 0, 0, b 1 0, 0, 0, b 2 0, 0, 0, b 3 0, 0, 0], [0, b 0 1, 0, 0, b 1 1, 0, 0, b 2 1, 0, 0, b 3 1, 0], [0, 0, b 0 2, 0, 0, b 1 2, 0, 0, b 2 2, 0, 0, b 3 2],
       [b 0 1 / q, b 0 0 / q, 0, b 1 1 / q, b 1 0 / q, 0, b 2 1 / q, b 2 0 / q, 0, b 3 1 / q, b 3 0 / q, 0],
       [0, b 0 2 / q, b 0 1 / q, 0, b 1 2 / q, b 1 1 / q, 0, b 2 2 / q, b 2 1 / q, 0, b 3 2 / q, b 3 1 / q],
       [b 0 2 / q, 0, b 0 0 / q, b 1 2 / q, 0, b 1 0 / q, b 2 2 / q, 0, b 2 0 / q, b 3 2 / q, 0, b 3 0 / q]]) := by
  rw [h.eq]
  simp only [AnalyticalTet4.compute, List.at, List.getD_cons_zero, List.getD_cons_succ, Integ.sqrt2, div_div]

/-- C69, the matrix `bbe` gives the Mandel components of the strain: its column `i + 3 m` is that of the displacement `Nᵐ` in direction `i`;
the rows are those of 00, 11, 22, 01, 12 and 02. -/
theorem C69_tet4_bbe {pad : Scratchpad} {ana : AnalyticalTet4} (h : IsTet4 pad ana) {B : (Nat → ℝ) → Nat → Nat → ℝ} (hB : IsGradientField pad B) (ξ : Nat → ℝ) :
    IsMatrix ana.bbe 6 12 (fun r a => if r < 3 then gradOp 3 (B ξ) (a / 3) (a % 3) r r
      else Real.sqrt 2 * ((gradOp 3 (B ξ) (a / 3) (a % 3) ([0, 1, 0].getD (r - 3) 0) ([1, 2, 2].getD (r - 3) 0) +
        gradOp 3 (B ξ) (a / 3) (a % 3) ([1, 2, 2].getD (r - 3) 0) ([0, 1, 0].getD (r - 3) 0)) / 2)) := by
  have h2 : Real.sqrt 2 * Real.sqrt 2 = 2 := Real.mul_self_sqrt (by norm_num)
  have h3 : Real.sqrt 2 ≠ 0 := by positivity
  have e : ∀ x : ℝ, x / Real.sqrt 2 = Real.sqrt 2 * (x / 2) := by
    intro x; rw [div_eq_iff h3]; linear_combination (-(x / 2)) * h2
  rw [tet_bbe h]
  refine ⟨rfl, fun r hr => ⟨by interval_cases r <;> rfl, fun a ha => ?_⟩⟩
  have b : ∀ m < 4, ∀ i < 3, B ξ m i = ana.bb.at m i := fun m hm i hi => h.bb hB hm hi ξ
  interval_cases r <;> interval_cases a <;> simp [gradOp, b, e]

theorem tet_bbe_sum {pad : Scratchpad} {ana : AnalyticalTet4} (h : IsTet4 pad ana) {a : Nat} (ha : a < 12) (F : Nat → ℝ) :
    ∑ r ∈ Finset.range 6, ana.bbe.at r a * F r = ∑ l ∈ Finset.range 3, ana.bb.at (a / 3) l * mandelFac (a % 3) l * F (mandelIdx (a % 3) l) := by
  rw [tet_bbe h]
  interval_cases a <;> simp only [Finset.sum_range_succ, Finset.sum_range_zero, mandelIdx, mandelFac, List.getD_cons_zero, List.getD_cons_succ, List.at] <;> simp [-mul_eq_mul_left_iff, -mul_eq_mul_right_iff] <;> ring

/-- C69, `mat_10_bdb`: `∫ ε^{(m,i)} : D : ε^{(n,j)} dΩ` at entry `(i + 3 m, j + 3 n)`, `D` being the modulus. -/
theorem C69_tet4_mat_10_bdb {pad : Scratchpad} {ana : AnalyticalTet4} (h : IsTet4 pad ana) {B : (Nat → ℝ) → Nat → Nat → ℝ} (hB : IsGradientField pad B)
    (D : Nat → Nat → ℝ) :
    IsMatrix (ana.mat10Bdb D) 12 12 (fun a b => elementIntegral pad fun ξ => energy 3 (B ξ) D (a / 3) (a % 3) (b / 3) (b % 3)) := by
  refine ⟨rfl, fun a ha => ⟨by interval_cases a <;> rfl, fun b hb => ?_⟩⟩
  refine Eq.trans ?_ (tet_const h.kind h.space (c := energy 3 ana.bb.at D (a / 3) (a % 3) (b / 3) (b % 3)) (fun ξ => ?_)).symm
  · rw [← h.eq]
    refine (at_bdb ana.volume ana.bbe D ha hb).trans ?_
    rw [bdb_energy (.inr rfl) ana.bb.at D ana.bbe (by omega) (by omega) (tet_bbe_sum h ha) (tet_bbe_sum h hb)]
  · rw [energy_congr (B' := ana.bb.at) (fun l hl => h.bb hB (by omega) hl ξ) (fun l hl => h.bb hB (by omega) hl ξ)]

/-! ## A concrete case -/

/-- The tetrahedron (0, 0, 0), (2, 0, 0), (1, 3, 0), (1, 1, 4). -/
noncomputable def exampleTet : Scratchpad :=
  ⟨.tet4, 3, fun _ => 0, fun _ _ => 0, fun _ _ => 0, fun _ _ => 0, fun _ _ => 0, fun i m => (([[0, 2, 1, 1], [0, 0, 3, 1], [0, 0, 0, 4]] : List (List ℝ)).getD i []).getD m 0, true⟩

/-- The hypotheses are met, and the volume is 4. -/
example : ∃ ana, IsTet4 exampleTet ana ∧ ana.volume = 4 := by
  have ha : (AnalyticalTet4.compute exampleTet).volume = 4 := by simp [AnalyticalTet4.compute, exampleTet]; norm_num
  refine ⟨AnalyticalTet4.compute exampleTet, ⟨rfl, rfl, ?_⟩, ha⟩
  rw [tet_const rfl rfl (c := 1) fun _ => rfl, ha]; norm_num

end Gemlab.Analytical
