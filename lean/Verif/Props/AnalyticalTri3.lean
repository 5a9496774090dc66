import Verif.Proofs.Analytical

/-!
# C69: the analytical integrals over a triangle with three nodes are the integrals

For every triangle with three nodes in the plane whose signed area is not zero.
-/

namespace Gemlab.Analytical
open Gemlab Gemlab.Shapes Gemlab.GaussSpec Gemlab.Spec.Integ Gemlab.Spec.Analytical

section
variable {pad : Scratchpad} (hk : pad.kind = .tri3) (hs : pad.spaceNdim = 2)
include hk hs

theorem tri_const {c : ℝ} {f : (Nat → ℝ) → ℝ} (hf : ∀ ξ, f ξ = c) : elementIntegral pad f = (AnalyticalTri3.compute pad).area * c := by
  rw [element_expr (tri3_det hk hs) c 1 (by decide +kernel) (fun ξ => by rw [hf, PE.eval_one, mul_one]), hk,
    show intPE (GeoKind.classOf .tri3) 1 = 1 / 2 by decide +kernel]
  push_cast; ring

theorem tri_sum {c : Nat → ℝ} {f : (Nat → ℝ) → ℝ} (hf : ∀ ξ, f ξ = ∑ k ∈ Finset.range 3, c k * N pad k ξ) :
    elementIntegral pad f = (AnalyticalTri3.compute pad).area * (c 0 + c 1 + c 2) / 3 := by
  rw [element_exprs (tri3_det hk hs) (Finset.range 3) c (Np pad.kind) (by rw [hk]; decide +kernel) hf, hk]
  simp only [Finset.sum_range_succ, Finset.sum_range_zero, show intPE (GeoKind.classOf .tri3) (Np .tri3 0) = 1 / 6 by decide +kernel,
    show intPE (GeoKind.classOf .tri3) (Np .tri3 1) = 1 / 6 by decide +kernel, show intPE (GeoKind.classOf .tri3) (Np .tri3 2) = 1 / 6 by decide +kernel]
  push_cast; ring

theorem tri_one {c : ℝ} {m : Nat} (hm : m < 3) {f : (Nat → ℝ) → ℝ} (hf : ∀ ξ, f ξ = c * N pad m ξ) :
    elementIntegral pad f = (AnalyticalTri3.compute pad).area * c / 3 := by
  rw [tri_sum hk hs (c := fun k => if k = m then c else 0) (fun ξ => by
    rw [hf]; simp only [ite_mul, zero_mul]; rw [Finset.sum_ite_eq' (Finset.range 3) m, if_pos (Finset.mem_range.2 hm)])]
  rcases (show m = 0 ∨ m = 1 ∨ m = 2 by omega) with rfl | rfl | rfl <;> simp

theorem tri_two {c : Nat → ℝ} {m : Nat} (hm : m < 3) {f : (Nat → ℝ) → ℝ} (hf : ∀ ξ, f ξ = ∑ k ∈ Finset.range 3, c k * (N pad m ξ * N pad k ξ)) :
    elementIntegral pad f = (AnalyticalTri3.compute pad).area * (c 0 + c 1 + c 2 + c m) / 12 := by
  rw [element_exprs (tri3_det hk hs) (Finset.range 3) c (fun k => Np pad.kind m * Np pad.kind k)
    (by rw [hk]; clear hf; revert m; decide +kernel) hf, hk]
  have h : ∀ k < 3, intPE (GeoKind.classOf .tri3) (Np .tri3 m * Np .tri3 k) = if m = k then 1 / 12 else 1 / 24 := by
    clear hf; revert m; decide +kernel
  simp only [Finset.sum_range_succ, Finset.sum_range_zero, h 0 (by omega), h 1 (by omega), h 2 (by omega)]
  rcases (show m = 0 ∨ m = 1 ∨ m = 2 by omega) with rfl | rfl | rfl <;> simp <;> ring

theorem tri_coord (i : Nat) (ξ : Nat → ℝ) : coord pad i ξ = ∑ k ∈ Finset.range 3, pad.xxt i k * N pad k ξ := by
  unfold coord Shapes.calcCoords; rw [hk]; unfold N; rw [hk]; rfl
end

/-- Hypotheses of the theorems below: a plane triangle with three nodes whose signed area is not zero. -/
structure IsTri3 (pad : Scratchpad) (ana : AnalyticalTri3) : Prop where
  plane : pad.spaceNdim = 2
  new : AnalyticalTri3.new pad = .ok ana
  area : elementIntegral pad (fun _ => 1) ≠ 0

theorem IsTri3.kind {pad : Scratchpad} {ana : AnalyticalTri3} (h : IsTri3 pad ana) : pad.kind = .tri3 := by
  have := h.new; unfold AnalyticalTri3.new at this; split at this
  · assumption
  · cases this
theorem IsTri3.eq {pad : Scratchpad} {ana : AnalyticalTri3} (h : IsTri3 pad ana) : ana = AnalyticalTri3.compute pad := by
  have := h.new; unfold AnalyticalTri3.new at this; rw [if_pos h.kind] at this; exact (Res.ok.inj this).symm
theorem IsTri3.ne {pad : Scratchpad} {ana : AnalyticalTri3} (h : IsTri3 pad ana) : (AnalyticalTri3.compute pad).area ≠ 0 := by
  have := h.area; rw [tri_const h.kind h.plane (c := 1) fun _ => rfl, mul_one] at this; exact this
theorem IsTri3.bb {pad : Scratchpad} {ana : AnalyticalTri3} (h : IsTri3 pad ana) {B : (Nat → ℝ) → Nat → Nat → ℝ} (hB : IsGradientField pad B)
    {m i : Nat} (hm : m < 3) (hi : i < 2) (ξ : Nat → ℝ) : B ξ m i = ana.bb.at m i := by
  rw [h.eq]
  refine gradient_two h.plane ?_ (hB ξ) (tri3_grad h.kind h.plane h.ne ξ) (by rw [h.kind]; exact hm) hi
  rw [tri3_det h.kind h.plane]; have := h.ne; positivity

/-- `AnalyticalTri3::new` accepts exactly the pads of kind Tri3. -/
theorem C69_tri3_new (pad : Scratchpad) : (pad.kind = .tri3 ∧ ∃ ana, AnalyticalTri3.new pad = .ok ana) ∨ (pad.kind ≠ .tri3 ∧ AnalyticalTri3.new pad = .panic) := by
  unfold AnalyticalTri3.new
  by_cases h : pad.kind = .tri3
  · exact .inl ⟨h, _, if_pos h⟩
  · exact .inr ⟨h, if_neg h⟩

/-- The area is the integral of 1, the lengths are those of the sides, and the gradients are those of the shape functions. -/
theorem C69_tri3_area {pad : Scratchpad} {ana : AnalyticalTri3} (h : IsTri3 pad ana) : ana.area = elementIntegral pad (fun _ => 1) := by
  rw [tri_const h.kind h.plane (c := 1) fun _ => rfl, h.eq, mul_one]

theorem C69_tri3_gradient {pad : Scratchpad} {ana : AnalyticalTri3} (h : IsTri3 pad ana) {B : (Nat → ℝ) → Nat → Nat → ℝ} (hB : IsGradientField pad B)
    (ξ : Nat → ℝ) : IsMatrix ana.bb 3 2 (fun m i => B ξ m i) := by
  refine ⟨by rw [h.eq]; rfl, fun m hm => ⟨?_, fun i hi => (h.bb hB hm hi ξ).symm⟩⟩
  rw [h.eq]
  rcases (show m = 0 ∨ m = 1 ∨ m = 2 by omega) with rfl | rfl | rfl <;> rfl

/-- ... and there is such a gradient field. -/
theorem C69_tri3_gradient_exists {pad : Scratchpad} {ana : AnalyticalTri3} (h : IsTri3 pad ana) : IsGradientField pad (fun _ => ana.bb.at) := by
  rw [h.eq]; exact tri3_grad h.kind h.plane h.ne

/-- C69, `vec_01_ns`: `∫ Nᵐ s dΩ`. -/
theorem C69_tri3_vec_01_ns {pad : Scratchpad} {ana : AnalyticalTri3} (h : IsTri3 pad ana) (s : ℝ) (axisymmetric : Bool) :
    IsVector (ana.vec01Ns s axisymmetric) 3 (fun m => elementIntegral pad fun ξ => N pad m ξ * s * radial pad axisymmetric ξ) := by
  have hx := h.eq
  refine ⟨by cases axisymmetric <;> rfl, fun m hm => ?_⟩
  cases axisymmetric
  · refine Eq.trans ?_ (tri_one h.kind h.plane (m := m) (c := s) hm (fun ξ => by simp only [radial, Bool.false_eq_true, if_false]; ring)).symm
    rw [← hx]
    interval_cases m <;> simp [AnalyticalTri3.vec01Ns] <;> ring
  · refine Eq.trans ?_ (tri_two h.kind h.plane (m := m) (c := fun k => s * pad.xxt 0 k) hm (fun ξ => by
      simp only [radial, if_true, tri_coord h.kind h.plane, Finset.mul_sum]; exact Finset.sum_congr rfl fun _ _ => by ring)).symm
    rw [← hx]
    interval_cases m <;> simp [AnalyticalTri3.vec01Ns, show ana.x0 = pad.xxt 0 0 by rw [hx]; rfl,
      show ana.x1 = pad.xxt 0 1 by rw [hx]; rfl, show ana.x2 = pad.xxt 0 2 by rw [hx]; rfl] <;> ring

/-- C69, `vec_02_nv`: `∫ Nᵐ v_i dΩ` at entry `i + 2 m`. -/
theorem C69_tri3_vec_02_nv {pad : Scratchpad} {ana : AnalyticalTri3} (h : IsTri3 pad ana) (v : Nat → ℝ) :
    IsVector (ana.vec02Nv (v 0) (v 1)) 6 (fun a => elementIntegral pad fun ξ => N pad (a / 2) ξ * v (a % 2)) := by
  refine ⟨rfl, fun a ha => ?_⟩
  refine Eq.trans ?_ (tri_one h.kind h.plane (m := a / 2) (c := v (a % 2)) (by omega) (fun ξ => by ring)).symm
  rw [← h.eq]
  interval_cases a <;> simp [AnalyticalTri3.vec02Nv] <;> ring

/-- C69, `vec_03_bv`: `∫ w · Bᵐ dΩ`. -/
theorem C69_tri3_vec_03_bv {pad : Scratchpad} {ana : AnalyticalTri3} (h : IsTri3 pad ana) {B : (Nat → ℝ) → Nat → Nat → ℝ} (hB : IsGradientField pad B) (w : Nat → ℝ) :
    IsVector (ana.vec03Bv (w 0) (w 1)) 3 (fun m => elementIntegral pad fun ξ => ∑ i ∈ Finset.range 2, w i * B ξ m i) := by
  refine ⟨rfl, fun m hm => ?_⟩
  refine Eq.trans ?_ (tri_const h.kind h.plane (c := w 0 * ana.bb.at m 0 + w 1 * ana.bb.at m 1) (fun ξ => by
    simp [Finset.sum_range_succ, h.bb hB hm])).symm
  rw [← h.eq]
  interval_cases m <;> simp [AnalyticalTri3.vec03Bv] <;> ring

/-- C69, `vec_03_bv_bilinear`: `∫ w · Bᵐ dΩ` with `w(x) = (x, y)`. -/
theorem C69_tri3_vec_03_bv_bilinear {pad : Scratchpad} {ana : AnalyticalTri3} (h : IsTri3 pad ana) {B : (Nat → ℝ) → Nat → Nat → ℝ} (hB : IsGradientField pad B) :
    IsVector (ana.vec03BvBilinear pad) 3 (fun m => elementIntegral pad fun ξ => ∑ i ∈ Finset.range 2, coord pad i ξ * B ξ m i) := by
  refine ⟨rfl, fun m hm => ?_⟩
  refine Eq.trans ?_ (tri_sum h.kind h.plane (c := fun k => pad.xxt 0 k * ana.bb.at m 0 + pad.xxt 1 k * ana.bb.at m 1) (fun ξ => by
    simp [Finset.sum_range_succ, h.bb hB hm, tri_coord h.kind h.plane]; ring)).symm
  rw [← h.eq]
  interval_cases m <;> simp [AnalyticalTri3.vec03BvBilinear] <;> ring

/-- C69, `vec_04_bt`: `∫ σ_ij Bᵐ_j dΩ` at entry `i + 2 m`; in axisymmetric analyses the integrand is multiplied by the radius `r` and has the
hoop term `σ_22 Nᵐ / r` for `i = 0`. -/
theorem C69_tri3_vec_04_bt {pad : Scratchpad} {ana : AnalyticalTri3} (h : IsTri3 pad ana) {B : (Nat → ℝ) → Nat → Nat → ℝ} (hB : IsGradientField pad B)
    (t : Nat → ℝ) (axisymmetric : Bool) :
    IsVector (ana.vec04Bt t axisymmetric) 6 (fun a => elementIntegral pad fun ξ =>
      (∑ j ∈ Finset.range 2, tensor2 t (a % 2) j * B ξ (a / 2) j) * radial pad axisymmetric ξ +
        if axisymmetric ∧ a % 2 = 0 then tensor2 t 2 2 * N pad (a / 2) ξ else 0) := by
  have hx := h.eq
  refine ⟨by cases axisymmetric <;> rfl, fun a ha => ?_⟩
  have hm : a / 2 < 3 := by omega
  cases axisymmetric
  · refine Eq.trans ?_ (tri_const h.kind h.plane (c := tensor2 t (a % 2) 0 * ana.bb.at (a / 2) 0 + tensor2 t (a % 2) 1 * ana.bb.at (a / 2) 1) (fun ξ => by
      simp [Finset.sum_range_succ, h.bb hB hm, radial])).symm
    rw [← h.eq]
    interval_cases a <;> simp [-mul_eq_mul_left_iff, -mul_eq_mul_right_iff, AnalyticalTri3.vec04Bt, tensor2, Integ.sqrt2] <;> ring
  · refine Eq.trans ?_ (tri_sum h.kind h.plane (c := fun k => (tensor2 t (a % 2) 0 * ana.bb.at (a / 2) 0 + tensor2 t (a % 2) 1 * ana.bb.at (a / 2) 1) * pad.xxt 0 k +
        if a % 2 = 0 ∧ k = a / 2 then tensor2 t 2 2 else 0) (fun ξ => by
      simp only [h.bb hB hm, radial, tri_coord h.kind h.plane, if_true, Finset.sum_range_succ, Finset.sum_range_zero]
      rcases (show a / 2 = 0 ∨ a / 2 = 1 ∨ a / 2 = 2 by omega) with e | e | e <;> rcases (show a % 2 = 0 ∨ a % 2 = 1 by omega) with e' | e' <;>
        simp [e, e', h.bb hB (show 0 < 3 by norm_num), h.bb hB (show 1 < 3 by norm_num), h.bb hB (show 2 < 3 by norm_num)] <;> ring)).symm
    rw [← h.eq]
    interval_cases a <;> simp [-mul_eq_mul_left_iff, -mul_eq_mul_right_iff, AnalyticalTri3.vec04Bt, tensor2, Integ.sqrt2, show ana.x0 = pad.xxt 0 0 by rw [hx]; rfl,
      show ana.x1 = pad.xxt 0 1 by rw [hx]; rfl, show ana.x2 = pad.xxt 0 2 by rw [hx]; rfl] <;> ring

/-- C69, `mat_01_nsn`: `∫ Nᵐ s Nⁿ th dΩ`. -/
theorem C69_tri3_mat_01_nsn {pad : Scratchpad} {ana : AnalyticalTri3} (h : IsTri3 pad ana) (s th : ℝ) :
    IsMatrix (ana.mat01Nsn s th) 3 3 (fun m n => elementIntegral pad fun ξ => N pad m ξ * s * N pad n ξ * th) := by
  refine ⟨rfl, fun m hm => ⟨by interval_cases m <;> rfl, fun n hn => ?_⟩⟩
  refine Eq.trans ?_ (tri_two h.kind h.plane (m := m) (c := fun k => if k = n then s * th else 0) hm (fun ξ => by
    simp only [ite_mul, zero_mul]; rw [Finset.sum_ite_eq' (Finset.range 3) n, if_pos (Finset.mem_range.2 hn)]; ring)).symm
  rw [← h.eq]
  interval_cases m <;> interval_cases n <;> simp [AnalyticalTri3.mat01Nsn] <;> ring

/-- C69, `mat_02_bvn`: `∫ (Bᵐ · v) Nⁿ dΩ`. -/
theorem C69_tri3_mat_02_bvn {pad : Scratchpad} {ana : AnalyticalTri3} (h : IsTri3 pad ana) {B : (Nat → ℝ) → Nat → Nat → ℝ} (hB : IsGradientField pad B) (v : Nat → ℝ) :
    IsMatrix (ana.mat02Bvn (v 0) (v 1)) 3 3 (fun m n => elementIntegral pad fun ξ => (∑ i ∈ Finset.range 2, B ξ m i * v i) * N pad n ξ) := by
  refine ⟨rfl, fun m hm => ⟨by interval_cases m <;> rfl, fun n hn => ?_⟩⟩
  refine Eq.trans ?_ (tri_one h.kind h.plane (m := n) (c := ana.bb.at m 0 * v 0 + ana.bb.at m 1 * v 1) hn (fun ξ => by
    simp [Finset.sum_range_succ, h.bb hB hm])).symm
  rw [← h.eq]
  interval_cases m <;> interval_cases n <;> simp [AnalyticalTri3.mat02Bvn]

/-- C69, `mat_02_bvn_bilinear`: `∫ (Bᵐ · v) Nⁿ dΩ` with `v(x) = (x, y)`. -/
theorem C69_tri3_mat_02_bvn_bilinear {pad : Scratchpad} {ana : AnalyticalTri3} (h : IsTri3 pad ana) {B : (Nat → ℝ) → Nat → Nat → ℝ} (hB : IsGradientField pad B) :
    IsMatrix (ana.mat02BvnBilinear pad) 3 3 (fun m n => elementIntegral pad fun ξ => (∑ i ∈ Finset.range 2, B ξ m i * coord pad i ξ) * N pad n ξ) := by
  refine ⟨rfl, fun m hm => ⟨by interval_cases m <;> rfl, fun n hn => ?_⟩⟩
  refine Eq.trans ?_ (tri_two h.kind h.plane (m := n) (c := fun k => ana.bb.at m 0 * pad.xxt 0 k + ana.bb.at m 1 * pad.xxt 1 k) hn (fun ξ => by
    simp [Finset.sum_range_succ, h.bb hB hm, tri_coord h.kind h.plane]; ring)).symm
  rw [← h.eq]
  interval_cases m <;> interval_cases n <;> simp [-mul_eq_mul_left_iff, -mul_eq_mul_right_iff, AnalyticalTri3.mat02BvnBilinear] <;> ring

/-- C69, `mat_03_btb`: `∫ Bᵐ · k · Bⁿ dΩ` with `k = diag(kx, ky)`. -/
theorem C69_tri3_mat_03_btb {pad : Scratchpad} {ana : AnalyticalTri3} (h : IsTri3 pad ana) {B : (Nat → ℝ) → Nat → Nat → ℝ} (hB : IsGradientField pad B)
    (k : Nat → ℝ) (axisymmetric : Bool) :
    IsMatrix (ana.mat03Btb (k 0) (k 1) axisymmetric) 3 3 (fun m n => elementIntegral pad fun ξ => (∑ i ∈ Finset.range 2, B ξ m i * k i * B ξ n i) * radial pad axisymmetric ξ) := by
  have hx := h.eq
  refine ⟨rfl, fun m hm => ⟨by interval_cases m <;> rfl, fun n hn => ?_⟩⟩
  cases axisymmetric
  · refine Eq.trans ?_ (tri_const h.kind h.plane (c := ana.bb.at m 0 * k 0 * ana.bb.at n 0 + ana.bb.at m 1 * k 1 * ana.bb.at n 1) (fun ξ => by
      simp [Finset.sum_range_succ, h.bb hB hm, h.bb hB hn, radial])).symm
    rw [← h.eq]
    interval_cases m <;> interval_cases n <;> simp [-mul_eq_mul_left_iff, -mul_eq_mul_right_iff, AnalyticalTri3.mat03Btb] <;> ring
  · refine Eq.trans ?_ (tri_sum h.kind h.plane (c := fun j => (ana.bb.at m 0 * k 0 * ana.bb.at n 0 + ana.bb.at m 1 * k 1 * ana.bb.at n 1) * pad.xxt 0 j) (fun ξ => by
      simp [Finset.sum_range_succ, h.bb hB hm, h.bb hB hn, radial, tri_coord h.kind h.plane]; ring)).symm
    rw [← h.eq]
    interval_cases m <;> interval_cases n <;> simp [-mul_eq_mul_left_iff, -mul_eq_mul_right_iff, AnalyticalTri3.mat03Btb, show ana.x0 = pad.xxt 0 0 by rw [hx]; rfl,
      show ana.x1 = pad.xxt 0 1 by rw [hx]; rfl, show ana.x2 = pad.xxt 0 2 by rw [hx]; rfl] <;> ring

/-- C69, `mat_08_ntn`: `∫ Nᵐ T_ij Nⁿ th dΩ` with `T = ρ I`, at entry `(i + 2 m, j + 2 n)`. -/
theorem C69_tri3_mat_08_ntn {pad : Scratchpad} {ana : AnalyticalTri3} (h : IsTri3 pad ana) (rho th : ℝ) :
    IsMatrix (ana.mat08Ntn rho th) 6 6 (fun a b => elementIntegral pad fun ξ => N pad (a / 2) ξ * (if a % 2 = b % 2 then rho else 0) * N pad (b / 2) ξ * th) := by
  refine ⟨rfl, fun a ha => ⟨by interval_cases a <;> rfl, fun b hb => ?_⟩⟩
  refine Eq.trans ?_ (tri_two h.kind h.plane (m := a / 2) (c := fun k => if k = b / 2 then (if a % 2 = b % 2 then rho else 0) * th else 0) (by omega) (fun ξ => by
    simp only [ite_mul, zero_mul]; rw [Finset.sum_ite_eq' (Finset.range 3) (b / 2), if_pos (Finset.mem_range.2 (by omega))]; split_ifs <;> ring)).symm
  rw [← h.eq]
  interval_cases a <;> interval_cases b <;> simp [AnalyticalTri3.mat08Ntn] <;> ring

/-- C69, `mat_09_nvb`: `∫ Nᵐ v_i Bⁿ_j dΩ` at entry `(i + 2 m, j + 2 n)`. -/
theorem C69_tri3_mat_09_nvb {pad : Scratchpad} {ana : AnalyticalTri3} (h : IsTri3 pad ana) {B : (Nat → ℝ) → Nat → Nat → ℝ} (hB : IsGradientField pad B) (v : Nat → ℝ) :
    IsMatrix (ana.mat09Nvb (v 0) (v 1)) 6 6 (fun a b => elementIntegral pad fun ξ => N pad (a / 2) ξ * v (a % 2) * B ξ (b / 2) (b % 2)) := by
  refine ⟨rfl, fun a ha => ⟨by interval_cases a <;> rfl, fun b hb => ?_⟩⟩
  refine Eq.trans ?_ (tri_one h.kind h.plane (m := a / 2) (c := v (a % 2) * ana.bb.at (b / 2) (b % 2)) (by omega) (fun ξ => by
    rw [h.bb hB (by omega) (by omega)]; ring)).symm
  rw [← h.eq]
  interval_cases a <;> interval_cases b <;> simp [AnalyticalTri3.mat09Nvb] <;> ring

theorem tri_bbe {pad : Scratchpad} {ana : AnalyticalTri3} (h : IsTri3 pad ana) :
    ana.bbe = [[ana.bb.at 0 0, 0, ana.bb.at 1 0, 0, ana.bb.at 2 0, 0], [0, ana.bb.at 0 1, 0, ana.bb.at 1 1, 0, ana.bb.at 2 1], [0, 0, 0, 0, 0, 0],
      [ana.bb.at 0 1 / Real.sqrt 2, ana.bb.at 0 0 / Real.sqrt 2, ana.bb.at 1 1 / Real.sqrt 2, ana.bb.at 1 0 / Real.sqrt 2, ana.bb.at 2 1 / Real.sqrt 2, ana.bb.at 2 0 / Real.sqrt 2]] := by
  rw [h.eq]
  simp only [AnalyticalTri3.compute, List.at, List.getD_cons_zero, List.getD_cons_succ, Integ.sqrt2, div_div]

/-- C69, the matrix `bbe` gives the Mandel components of the strain: its column `i + 2 m` is that of the displacement `Nᵐ` in direction `i`. -/
theorem C69_tri3_bbe {pad : Scratchpad} {ana : AnalyticalTri3} (h : IsTri3 pad ana) {B : (Nat → ℝ) → Nat → Nat → ℝ} (hB : IsGradientField pad B) (ξ : Nat → ℝ) :
    IsMatrix ana.bbe 4 6 (fun r a => if r < 3 then gradOp 2 (B ξ) (a / 2) (a % 2) r r
      else Real.sqrt 2 * ((gradOp 2 (B ξ) (a / 2) (a % 2) 0 1 + gradOp 2 (B ξ) (a / 2) (a % 2) 1 0) / 2)) := by
  have h2 : Real.sqrt 2 * Real.sqrt 2 = 2 := Real.mul_self_sqrt (by norm_num)
  have h3 : Real.sqrt 2 ≠ 0 := by positivity
  have e : ∀ x : ℝ, x / Real.sqrt 2 = Real.sqrt 2 * (x / 2) := by
    intro x; rw [div_eq_iff h3]; linear_combination (-(x / 2)) * h2
  rw [tri_bbe h]
  refine ⟨rfl, fun r hr => ⟨by interval_cases r <;> rfl, fun a ha => ?_⟩⟩
  have b : ∀ m < 3, ∀ i < 2, B ξ m i = ana.bb.at m i := fun m hm i hi => h.bb hB hm hi ξ
  interval_cases r <;> interval_cases a <;> simp [gradOp, b, e]

theorem tri_bbe_sum {pad : Scratchpad} {ana : AnalyticalTri3} (h : IsTri3 pad ana) {a : Nat} (ha : a < 6) (F : Nat → ℝ) :
    ∑ r ∈ Finset.range 4, ana.bbe.at r a * F r = ∑ l ∈ Finset.range 2, ana.bb.at (a / 2) l * mandelFac (a % 2) l * F (mandelIdx (a % 2) l) := by
  rw [tri_bbe h]
  interval_cases a <;> simp only [Finset.sum_range_succ, Finset.sum_range_zero, mandelIdx, mandelFac, List.getD_cons_zero, List.getD_cons_succ, List.at] <;> simp [-mul_eq_mul_left_iff, -mul_eq_mul_right_iff] <;> ring

/-- C69, `mat_10_bdb`: `∫ ε^{(m,i)} : D : ε^{(n,j)} th dΩ` at entry `(i + 2 m, j + 2 n)`, `D` being the modulus. -/
theorem C69_tri3_mat_10_bdb {pad : Scratchpad} {ana : AnalyticalTri3} (h : IsTri3 pad ana) {B : (Nat → ℝ) → Nat → Nat → ℝ} (hB : IsGradientField pad B)
    (D : Nat → Nat → ℝ) (th : ℝ) :
    IsMatrix (ana.mat10Bdb D th) 6 6 (fun a b => elementIntegral pad fun ξ => energy 2 (B ξ) D (a / 2) (a % 2) (b / 2) (b % 2) * th) := by
  refine ⟨rfl, fun a ha => ⟨by interval_cases a <;> rfl, fun b hb => ?_⟩⟩
  refine Eq.trans ?_ (tri_const h.kind h.plane (c := energy 2 ana.bb.at D (a / 2) (a % 2) (b / 2) (b % 2) * th) (fun ξ => ?_)).symm
  · rw [← h.eq]
    refine (at_bdb (th * ana.area) ana.bbe D ha hb).trans ?_
    rw [bdb_energy (.inl rfl) ana.bb.at D ana.bbe (by omega) (by omega) (tri_bbe_sum h ha) (tri_bbe_sum h hb)]; ring
  · rw [energy_congr (B' := ana.bb.at) (fun l hl => h.bb hB (by omega) hl ξ) (fun l hl => h.bb hB (by omega) hl ξ)]

/-! ## Sides -/

theorem lin2_deriv (ξ : Nat → ℝ) : Shapes.calcDeriv .lin2 ξ 0 0 = -(1 / 2) ∧ Shapes.calcDeriv .lin2 ξ 1 0 = 1 / 2 := by
  unfold Shapes.calcDeriv; constructor <;> simp [Shapes.deriv, lin2Deriv]

theorem line_exprs {edge : Scratchpad} {d : ℝ} (hk : edge.kind = .lin2) (hd : ∀ ξ, Real.sqrt (jac edge ξ 0 0 ^ 2 + jac edge ξ 1 0 ^ 2) = d) {ι : Type} (S : Finset ι) (c : ι → ℝ) (e : ι → PE)
    (hn : ∀ i ∈ S, (e i).norm.isSome = true) {f : (Nat → ℝ) → ℝ} (hf : ∀ ξ, f ξ = ∑ i ∈ S, c i * PE.eval ξ (e i)) :
    lineIntegral edge f = d * ∑ i ∈ S, c i * (intPE .lin (e i) : ℝ) := by
  unfold lineIntegral
  simp_rw [hd, hf]
  have := refIntegral_exprs .lin S (fun i => d * c i) e hn
  rw [Finset.mul_sum]
  simp_rw [← mul_assoc]
  rw [← this]
  congr 1; funext r s t
  rw [Finset.sum_mul]
  exact Finset.sum_congr rfl fun i _ => by ring

theorem side_length {pad edge : Scratchpad} {ana : AnalyticalTri3} (h : IsTri3 pad ana) {side : Nat} (hside : side < 3) (he : IsSide pad edge side) (ξ : Nat → ℝ) :
    Real.sqrt (jac edge ξ 0 0 ^ 2 + jac edge ξ 1 0 ^ 2) = ana.ll.getD side 0 / 2 := by
  obtain ⟨e1, e2, e3⟩ := he
  have hj : ∀ i < 2, jac edge ξ i 0 = (edge.xxt i 1 - edge.xxt i 0) / 2 := by
    intro i _
    unfold jac
    rw [e1]
    simp only [show GeoKind.nnode .lin2 = 2 from rfl, Finset.sum_range_succ, Finset.sum_range_zero, (lin2_deriv ξ).1, (lin2_deriv ξ).2, Scratchpad.X]
    ring
  rw [hj 0 (by norm_num), hj 1 (by norm_num), h.eq]
  rw [e3 0 (by norm_num) 0 (by norm_num), e3 0 (by norm_num) 1 (by norm_num), e3 1 (by norm_num) 0 (by norm_num), e3 1 (by norm_num) 1 (by norm_num), h.kind]
  have key : ∀ x y : ℝ, x = y / 4 → Real.sqrt x = Real.sqrt y / 2 := by
    rintro x y rfl
    rw [Real.sqrt_div' _ (by norm_num : (0:ℝ) ≤ 4), show Real.sqrt 4 = 2 by rw [show (4:ℝ) = 2 ^ 2 by norm_num]; exact Real.sqrt_sq (by norm_num)]
  interval_cases side
  · refine key _ _ ?_
    simp only [show edgeNode .tri3 0 0 = 1 by decide +kernel, show edgeNode .tri3 0 1 = 0 by decide +kernel]; ring
  · refine key _ _ ?_
    simp only [show edgeNode .tri3 1 0 = 2 by decide +kernel, show edgeNode .tri3 1 1 = 1 by decide +kernel]; ring
  · refine key _ _ ?_
    simp only [show edgeNode .tri3 2 0 = 0 by decide +kernel, show edgeNode .tri3 2 1 = 2 by decide +kernel]; ring

theorem side_idx {pad : Scratchpad} {ana : AnalyticalTri3} (h : IsTri3 pad ana) (side : Nat) :
    Res.idx ana.ll side = if side < 3 then .ok (ana.ll.getD side 0) else .panic := by
  have hl : ana.ll.length = 3 := by rw [h.eq]; rfl
  split
  · rename_i hs
    rw [Res.idx_of_lt (by rw [hl]; exact hs), List.getD_eq_getElem _ (0:ℝ) (by rw [hl]; exact hs)]
  · rename_i hs
    unfold Res.idx; rw [List.getElem?_eq_none (by omega)]

theorem line_coord {edge : Scratchpad} (hk : edge.kind = .lin2) (i : Nat) (ξ : Nat → ℝ) : coord edge i ξ = ∑ k ∈ Finset.range 2, edge.xxt i k * N edge k ξ := by
  unfold coord Shapes.calcCoords; rw [hk]; unfold N; rw [hk]; rfl

section
variable {pad edge : Scratchpad} {ana : AnalyticalTri3} (h : IsTri3 pad ana) {side : Nat} (hside : side < 3) (he : IsSide pad edge side)
include h hside he

/-- C69: the lengths are those of the sides. -/
theorem C69_tri3_lengths : ana.ll.length = 3 ∧ ana.ll.getD side 0 = lineIntegral edge (fun _ => 1) := by
  refine ⟨by rw [h.eq]; rfl, ?_⟩
  rw [line_exprs he.1 (side_length h hside he) {()} (fun _ => 1) (fun _ => 1) (by decide +kernel) (fun ξ => by simp),
    Finset.sum_singleton, show intPE .lin 1 = 2 by decide +kernel]
  push_cast; ring

theorem line_one {c : Nat → ℝ} {f : (Nat → ℝ) → ℝ} (hf : ∀ ξ, f ξ = ∑ k ∈ Finset.range 2, c k * N edge k ξ) :
    lineIntegral edge f = ana.ll.getD side 0 * (c 0 + c 1) / 2 := by
  rw [line_exprs he.1 (side_length h hside he) (Finset.range 2) c (Np edge.kind) (by rw [he.1]; decide +kernel) hf, he.1]
  simp only [Finset.sum_range_succ, Finset.sum_range_zero, show intPE .lin (Np .lin2 0) = 1 by decide +kernel,
    show intPE .lin (Np .lin2 1) = 1 by decide +kernel]
  push_cast; ring

theorem line_two {c : Nat → ℝ} {m : Nat} (hm : m < 2) {f : (Nat → ℝ) → ℝ} (hf : ∀ ξ, f ξ = ∑ k ∈ Finset.range 2, c k * (N edge m ξ * N edge k ξ)) :
    lineIntegral edge f = ana.ll.getD side 0 * (c 0 + c 1 + c m) / 6 := by
  rw [line_exprs he.1 (side_length h hside he) (Finset.range 2) c (fun k => Np edge.kind m * Np edge.kind k) (by rw [he.1]; clear hf; revert m; decide +kernel) hf, he.1]
  have h : ∀ k < 2, intPE .lin (Np .lin2 m * Np .lin2 k) = if m = k then 2 / 3 else 1 / 3 := by
    clear hf; revert m; decide +kernel
  simp only [Finset.sum_range_succ, Finset.sum_range_zero, h 0 (by omega), h 1 (by omega)]
  rcases (show m = 0 ∨ m = 1 by omega) with rfl | rfl <;> simp <;> ring

theorem line_three {c : Nat → ℝ} {m n : Nat} (hm : m < 2) (hn : n < 2) {f : (Nat → ℝ) → ℝ} (hf : ∀ ξ, f ξ = ∑ k ∈ Finset.range 2, c k * (N edge m ξ * N edge n ξ * N edge k ξ)) :
    lineIntegral edge f = ana.ll.getD side 0 * (if m = n then c 0 + c 1 + 2 * c m else c 0 + c 1) / 12 := by
  rw [line_exprs he.1 (side_length h hside he) (Finset.range 2) c (fun k => Np edge.kind m * Np edge.kind n * Np edge.kind k) (by rw [he.1]; clear hf; rcases (show m = 0 ∨ m = 1 by omega) with rfl | rfl <;> rcases (show n = 0 ∨ n = 1 by omega) with rfl | rfl <;> decide +kernel) hf, he.1]
  have h : ∀ k < 2, intPE .lin (Np .lin2 m * Np .lin2 n * Np .lin2 k) = if m = n ∧ m = k then 1 / 2 else 1 / 6 := by
    clear hf; rcases (show m = 0 ∨ m = 1 by omega) with rfl | rfl <;> rcases (show n = 0 ∨ n = 1 by omega) with rfl | rfl <;> decide +kernel
  simp only [Finset.sum_range_succ, Finset.sum_range_zero, h 0 (by omega), h 1 (by omega)]
  rcases (show m = 0 ∨ m = 1 by omega) with rfl | rfl <;> rcases (show n = 0 ∨ n = 1 by omega) with rfl | rfl <;> simp <;> ring

theorem side_x : ana.vec01NsBrySide side = .ok (edge.xxt 0 0, edge.xxt 0 1) ∧ ana.mat01NsnBrySide side = .ok (edge.xxt 0 0, edge.xxt 0 1) := by
  rw [he.2.2 0 (by norm_num) 0 (by norm_num), he.2.2 1 (by norm_num) 0 (by norm_num), h.kind, h.eq]
  interval_cases side
  · simp only [show edgeNode .tri3 0 0 = 1 by decide +kernel, show edgeNode .tri3 0 1 = 0 by decide +kernel]; exact ⟨rfl, rfl⟩
  · simp only [show edgeNode .tri3 1 0 = 2 by decide +kernel, show edgeNode .tri3 1 1 = 1 by decide +kernel]; exact ⟨rfl, rfl⟩
  · simp only [show edgeNode .tri3 2 0 = 0 by decide +kernel, show edgeNode .tri3 2 1 = 2 by decide +kernel]; exact ⟨rfl, rfl⟩

/-- C69, `vec_01_ns_bry`: `∫ Nᵐ s dℓ` along a side, the nodes being those of the side in their order. -/
theorem C69_tri3_vec_01_ns_bry (s : ℝ) (axisymmetric : Bool) :
    ∃ v, ana.vec01NsBry side s axisymmetric = .ok v ∧
      IsVector v 2 (fun m => lineIntegral edge fun ξ => N edge m ξ * s * radial edge axisymmetric ξ) := by
  cases axisymmetric
  · unfold AnalyticalTri3.vec01NsBry
    rw [if_neg (by simp), side_idx h, if_pos hside]
    refine ⟨_, rfl, rfl, fun m hm => ?_⟩
    refine Eq.trans ?_ (line_one h hside he (c := fun k => if k = m then s else 0) (fun ξ => by
      simp only [radial, ite_mul, zero_mul]; rw [Finset.sum_ite_eq' (Finset.range 2) m, if_pos (Finset.mem_range.2 hm)]; simp; ring)).symm
    interval_cases m <;> simp <;> ring
  · unfold AnalyticalTri3.vec01NsBry
    rw [if_pos rfl, (side_x h hside he).1, Res.bind_ok, side_idx h, if_pos hside]
    refine ⟨_, rfl, rfl, fun m hm => ?_⟩
    refine Eq.trans ?_ (line_two h hside he (m := m) (c := fun k => s * edge.xxt 0 k) hm (fun ξ => by
      simp only [radial, if_true, line_coord he.1, Finset.mul_sum]; exact Finset.sum_congr rfl fun _ _ => by ring)).symm
    interval_cases m <;> simp <;> ring

/-- C69, `mat_01_nsn_bry`: `∫ Nᵐ s Nⁿ dℓ` along a side. -/
theorem C69_tri3_mat_01_nsn_bry (s : ℝ) (axisymmetric : Bool) :
    ∃ t, ana.mat01NsnBry side s axisymmetric = .ok t ∧
      IsMatrix t 2 2 (fun m n => lineIntegral edge fun ξ => N edge m ξ * s * N edge n ξ * radial edge axisymmetric ξ) := by
  cases axisymmetric
  · unfold AnalyticalTri3.mat01NsnBry
    rw [if_neg (by simp), side_idx h, if_pos hside]
    refine ⟨_, rfl, rfl, fun m hm => ⟨by interval_cases m <;> rfl, fun n hn => ?_⟩⟩
    refine Eq.trans ?_ (line_two h hside he (m := m) (c := fun k => if k = n then s else 0) hm (fun ξ => by
      simp only [radial, ite_mul, zero_mul]; rw [Finset.sum_ite_eq' (Finset.range 2) n, if_pos (Finset.mem_range.2 hn)]; simp; ring)).symm
    interval_cases m <;> interval_cases n <;> simp <;> ring
  · unfold AnalyticalTri3.mat01NsnBry
    rw [if_pos rfl, (side_x h hside he).2, Res.bind_ok, side_idx h, if_pos hside]
    refine ⟨_, rfl, rfl, fun m hm => ⟨by interval_cases m <;> rfl, fun n hn => ?_⟩⟩
    refine Eq.trans ?_ (line_three h hside he (m := m) (n := n) (c := fun k => s * edge.xxt 0 k) hm hn (fun ξ => by
      simp only [radial, if_true, line_coord he.1, Finset.mul_sum]; exact Finset.sum_congr rfl fun _ _ => by ring)).symm
    interval_cases m <;> interval_cases n <;> simp <;> ring
end

/-- C69: an invalid side is refused. -/
theorem C69_tri3_invalid_side {pad : Scratchpad} {ana : AnalyticalTri3} (h : IsTri3 pad ana) {side : Nat} (hside : 3 ≤ side) (s : ℝ) (axisymmetric : Bool) :
    ana.vec01NsBry side s axisymmetric = .panic ∧ ana.mat01NsnBry side s axisymmetric = .panic := by
  have hm : ana.vec01NsBrySide side = .panic ∧ ana.mat01NsnBrySide side = .panic := by
    unfold AnalyticalTri3.vec01NsBrySide AnalyticalTri3.mat01NsnBrySide
    constructor <;> split <;> first | omega | rfl
  have hi : Res.idx ana.ll side = .panic := by rw [side_idx h, if_neg (by omega)]
  unfold AnalyticalTri3.vec01NsBry AnalyticalTri3.mat01NsnBry
  cases axisymmetric
  · rw [if_neg (by simp), if_neg (by simp), hi]; exact ⟨rfl, rfl⟩
  · rw [if_pos rfl, if_pos rfl, hm.1, hm.2]; exact ⟨rfl, rfl⟩

/-! ## A concrete case -/

/-- The triangle (0, 0), (2, 0), (1, 3). -/
noncomputable def exampleTri : Scratchpad :=
  ⟨.tri3, 2, fun _ => 0, fun _ _ => 0, fun _ _ => 0, fun _ _ => 0, fun _ _ => 0, fun i m => (([[0, 2, 1], [0, 0, 3]] : List (List ℝ)).getD i []).getD m 0, true⟩

/-- Its side 1, from the third node to the second. -/
noncomputable def exampleSide : Scratchpad :=
  ⟨.lin2, 2, fun _ => 0, fun _ _ => 0, fun _ _ => 0, fun _ _ => 0, fun _ _ => 0, fun i m => (([[1, 2], [3, 0]] : List (List ℝ)).getD i []).getD m 0, true⟩

/-- The hypotheses are met, and the area is 3. -/
example : ∃ ana, IsTri3 exampleTri ana ∧ ana.area = 3 ∧ IsSide exampleTri exampleSide 1 := by
  have ha : (AnalyticalTri3.compute exampleTri).area = 3 := by simp [AnalyticalTri3.compute, exampleTri]
  refine ⟨AnalyticalTri3.compute exampleTri, ⟨rfl, rfl, ?_⟩, ha, rfl, rfl, ?_⟩
  · rw [tri_const rfl rfl (c := 1) fun _ => rfl, ha]; norm_num
  · have e0 : edgeNode .tri3 1 0 = 2 := by decide +kernel
    have e1 : edgeNode .tri3 1 1 = 1 := by decide +kernel
    intro j hj i hi
    show exampleSide.xxt i j = exampleTri.xxt i (edgeNode .tri3 1 j)
    interval_cases j <;> interval_cases i <;> simp [e0, e1, exampleSide, exampleTri]

end Gemlab.Analytical
