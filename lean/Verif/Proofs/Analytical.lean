import Verif.Proofs.ExactIntegral
import Verif.Proofs.Shapes

/-! Lemmas about integrals over elements with a constant Jacobian. -/

namespace Gemlab.Analytical
open Gemlab Gemlab.Shapes Gemlab.GaussSpec Gemlab.Spec.Integ Gemlab.Spec.Analytical

/-- Expressions of the shape functions and of their derivatives. -/
def Np (k : GeoKind) (m : Nat) : PE := (interp k).getD m 0
def Dp (k : GeoKind) (m i : Nat) : PE := ((deriv k).getD m []).getD i 0

theorem element_exprs {pad : Scratchpad} {d : ℝ} (hd : ∀ ξ, detJ pad ξ = d) {ι : Type} (S : Finset ι) (c : ι → ℝ) (e : ι → PE)
    (hn : ∀ i ∈ S, (e i).norm.isSome = true) {f : (Nat → ℝ) → ℝ} (hf : ∀ ξ, f ξ = ∑ i ∈ S, c i * PE.eval ξ (e i)) :
    elementIntegral pad f = d * ∑ i ∈ S, c i * (intPE pad.kind.classOf (e i) : ℝ) := by
  unfold elementIntegral
  simp_rw [hd, hf]
  have := refIntegral_exprs pad.kind.classOf S (fun i => d * c i) e hn
  rw [Finset.mul_sum]
  simp_rw [← mul_assoc]
  rw [← this]
  congr 1; funext r s t
  rw [Finset.sum_mul]
  exact Finset.sum_congr rfl fun i _ => by ring

theorem element_expr {pad : Scratchpad} {d : ℝ} (hd : ∀ ξ, detJ pad ξ = d) (c : ℝ) (e : PE) (hn : e.norm.isSome = true)
    {f : (Nat → ℝ) → ℝ} (hf : ∀ ξ, f ξ = c * PE.eval ξ e) : elementIntegral pad f = d * (c * (intPE pad.kind.classOf e : ℝ)) := by
  have := element_exprs hd {0} (fun _ => c) (fun _ => e) (fun _ _ => hn) (f := f) (fun ξ => by rw [Finset.sum_singleton]; exact hf ξ)
  rw [this, Finset.sum_singleton]

/-- `a b e f` form of the inverse of a 2 × 2 system: the gradient is determined. -/
theorem gradient_two {pad : Scratchpad} (hs : pad.spaceNdim = 2) {ξ : Nat → ℝ} {B B' : Nat → Nat → ℝ} (hd : detJ pad ξ ≠ 0)
    (hB : IsGradient pad ξ B) (hB' : IsGradient pad ξ B') {m i : Nat} (hm : m < pad.kind.nnode) (hi : i < 2) : B m i = B' m i := by
  have e : detJ pad ξ = jac pad ξ 0 0 * jac pad ξ 1 1 - jac pad ξ 0 1 * jac pad ξ 1 0 := by
    rw [detJ, hs, detN, Matrix.det_fin_two]; rfl
  rw [e] at hd
  have a0 := hB m hm 0 (by omega); have a1 := hB m hm 1 (by omega)
  have b0 := hB' m hm 0 (by omega); have b1 := hB' m hm 1 (by omega)
  rw [hs] at a0 a1 b0 b1
  simp only [Finset.sum_range_succ, Finset.sum_range_zero, zero_add] at a0 a1 b0 b1
  rcases (show i = 0 ∨ i = 1 by omega) with rfl | rfl
  · apply mul_left_cancel₀ hd
    linear_combination jac pad ξ 1 1 * (a0 - b0) - jac pad ξ 1 0 * (a1 - b1)
  · apply mul_left_cancel₀ hd
    linear_combination jac pad ξ 0 0 * (a1 - b1) - jac pad ξ 0 1 * (a0 - b0)

theorem gradient_three {pad : Scratchpad} (hs : pad.spaceNdim = 3) {ξ : Nat → ℝ} {B B' : Nat → Nat → ℝ} (hd : detJ pad ξ ≠ 0)
    (hB : IsGradient pad ξ B) (hB' : IsGradient pad ξ B') {m i : Nat} (hm : m < pad.kind.nnode) (hi : i < 3) : B m i = B' m i := by
  have e : detJ pad ξ = jac pad ξ 0 0 * (jac pad ξ 1 1 * jac pad ξ 2 2 - jac pad ξ 1 2 * jac pad ξ 2 1) -
      jac pad ξ 0 1 * (jac pad ξ 1 0 * jac pad ξ 2 2 - jac pad ξ 1 2 * jac pad ξ 2 0) +
      jac pad ξ 0 2 * (jac pad ξ 1 0 * jac pad ξ 2 1 - jac pad ξ 1 1 * jac pad ξ 2 0) := by
    rw [detJ, hs, detN, Matrix.det_fin_three]; simp only [Matrix.of_apply]; ring_nf; rfl
  rw [e] at hd
  have a0 := hB m hm 0 (by omega); have a1 := hB m hm 1 (by omega); have a2 := hB m hm 2 (by omega)
  have b0 := hB' m hm 0 (by omega); have b1 := hB' m hm 1 (by omega); have b2 := hB' m hm 2 (by omega)
  rw [hs] at a0 a1 a2 b0 b1 b2
  simp only [Finset.sum_range_succ, Finset.sum_range_zero, zero_add] at a0 a1 a2 b0 b1 b2
  generalize jac pad ξ 0 0 = j00 at *; generalize jac pad ξ 0 1 = j01 at *; generalize jac pad ξ 0 2 = j02 at *
  generalize jac pad ξ 1 0 = j10 at *; generalize jac pad ξ 1 1 = j11 at *; generalize jac pad ξ 1 2 = j12 at *
  generalize jac pad ξ 2 0 = j20 at *; generalize jac pad ξ 2 1 = j21 at *; generalize jac pad ξ 2 2 = j22 at *
  rcases (show i = 0 ∨ i = 1 ∨ i = 2 by omega) with rfl | rfl | rfl
  · apply mul_left_cancel₀ hd
    linear_combination (j11 * j22 - j12 * j21) * (a0 - b0) - (j10 * j22 - j12 * j20) * (a1 - b1) + (j10 * j21 - j11 * j20) * (a2 - b2)
  · apply mul_left_cancel₀ hd
    linear_combination -(j01 * j22 - j02 * j21) * (a0 - b0) + (j00 * j22 - j02 * j20) * (a1 - b1) - (j00 * j21 - j01 * j20) * (a2 - b2)
  · apply mul_left_cancel₀ hd
    linear_combination (j01 * j12 - j02 * j11) * (a0 - b0) - (j00 * j12 - j02 * j10) * (a1 - b1) + (j00 * j11 - j01 * j10) * (a2 - b2)

theorem N_eq (pad : Scratchpad) (m : Nat) (ξ : Nat → ℝ) : N pad m ξ = PE.eval ξ (Np pad.kind m) := rfl

theorem getD_map_range {α : Type} (f : Nat → α) (d : α) {n i : Nat} (hi : i < n) : ((List.range n).map f).getD i d = f i := by
  rw [List.getD_eq_getElem _ d (by simpa using hi)]; simp

/-- Entries of `αAᵀ·D·A`. -/
theorem at_bdb {n c : Nat} (alpha : ℝ) (a : List (List ℝ)) (D : Nat → Nat → ℝ) {i j : Nat} (hi : i < c) (hj : j < c) :
    ((matMatMul n c c alpha (matTMatMul n c n a D) a).getD i []).getD j 0 =
      alpha * ∑ k ∈ Finset.range n, (∑ l ∈ Finset.range n, a.at l i * D l k) * a.at k j := by
  rw [matMatMul, getD_map_range _ _ hi, getD_map_range _ _ hj]
  congr 1
  refine Finset.sum_congr rfl fun k hk => ?_
  rw [matTMatMul, List.at, getD_map_range _ _ hi, getD_map_range _ _ (Finset.mem_range.1 hk)]

theorem gradOp_congr {d : Nat} {B B' : Nat → Nat → ℝ} {m : Nat} (h : ∀ l < d, B m l = B' m l) (i k l : Nat) : gradOp d B m i k l = gradOp d B' m i k l := by
  unfold gradOp
  split_ifs with hh
  · exact h l hh.2
  · rfl

theorem energy_congr {d : Nat} {B B' : Nat → Nat → ℝ} {D : Nat → Nat → ℝ} {m n : Nat} (h : ∀ l < d, B m l = B' m l) (h' : ∀ l < d, B n l = B' n l) (i j : Nat) :
    energy d B D m i n j = energy d B' D m i n j := by
  unfold energy
  simp only [gradOp_congr h, gradOp_congr h']

theorem gradOp_sum {d : Nat} (hd : d = 2 ∨ d = 3) (B : Nat → Nat → ℝ) (m : Nat) {i : Nat} (hi : i < 3) (f : Nat → Nat → ℝ) :
    ∑ k ∈ Finset.range 3, ∑ l ∈ Finset.range 3, gradOp d B m i k l * f k l = ∑ l ∈ Finset.range d, B m l * f i l := by
  rcases hd with rfl | rfl <;> rcases (show i = 0 ∨ i = 1 ∨ i = 2 by omega) with rfl | rfl | rfl <;> simp [Finset.sum_range_succ, gradOp]

theorem energy_eq {d : Nat} (hd : d = 2 ∨ d = 3) (B D : Nat → Nat → ℝ) (m n : Nat) {i j : Nat} (hi : i < 3) (hj : j < 3) :
    energy d B D m i n j = ∑ l ∈ Finset.range d, B m l * ∑ l' ∈ Finset.range d, B n l' * tensor4 D i l j l' := by
  unfold energy
  rw [gradOp_sum hd B m hi (fun k l => ∑ k' ∈ Finset.range 3, ∑ l' ∈ Finset.range 3, tensor4 D k l k' l' * gradOp d B n j k' l')]
  refine Finset.sum_congr rfl fun l _ => ?_
  congr 1
  rw [← gradOp_sum hd B n hj (fun k' l' => tensor4 D i l k' l')]
  exact Finset.sum_congr rfl fun k' _ => Finset.sum_congr rfl fun l' _ => by ring

/-- `Bᵀ·D·B` with the Mandel components of the strain is the energy. -/
theorem bdb_energy {d n : Nat} (hd : d = 2 ∨ d = 3) (B D : Nat → Nat → ℝ) (bbe : List (List ℝ)) {a b m i m' j : Nat} (hi : i < 3) (hj : j < 3)
    (ha : ∀ F : Nat → ℝ, ∑ r ∈ Finset.range n, bbe.at r a * F r = ∑ l ∈ Finset.range d, B m l * mandelFac i l * F (mandelIdx i l))
    (hb : ∀ F : Nat → ℝ, ∑ r ∈ Finset.range n, bbe.at r b * F r = ∑ l ∈ Finset.range d, B m' l * mandelFac j l * F (mandelIdx j l)) :
    ∑ k ∈ Finset.range n, (∑ l ∈ Finset.range n, bbe.at l a * D l k) * bbe.at k b = energy d B D m i m' j := by
  rw [energy_eq hd B D m m' hi hj]
  simp_rw [ha, mul_comm _ (bbe.at _ b)]
  rw [hb]
  simp_rw [Finset.mul_sum]
  rw [Finset.sum_comm]
  refine Finset.sum_congr rfl fun l _ => Finset.sum_congr rfl fun l' _ => ?_
  unfold tensor4; ring

/-! ## Triangles -/

theorem tri3_deriv (ξ : Nat → ℝ) : ∀ m i, Shapes.calcDeriv .tri3 ξ m i =
    (([[-1, -1], [1, 0], [0, 1]] : List (List ℝ)).getD m []).getD i 0 := by
  intro m i
  unfold Shapes.calcDeriv
  rcases m with _ | _ | _ | m <;> rcases i with _ | _ | i <;> simp [Shapes.deriv, tri3Deriv]

theorem tri3_jac {pad : Scratchpad} (hk : pad.kind = .tri3) (ξ : Nat → ℝ) (i : Nat) :
    jac pad ξ i 0 = pad.xxt i 1 - pad.xxt i 0 ∧ jac pad ξ i 1 = pad.xxt i 2 - pad.xxt i 0 := by
  unfold jac
  rw [hk]
  simp only [show GeoKind.nnode .tri3 = 3 from rfl, Finset.sum_range_succ, Finset.sum_range_zero, tri3_deriv, Scratchpad.X]
  constructor <;> simp <;> ring

theorem tri3_det {pad : Scratchpad} (hk : pad.kind = .tri3) (hs : pad.spaceNdim = 2) (ξ : Nat → ℝ) :
    detJ pad ξ = 2 * (AnalyticalTri3.compute pad).area := by
  have e : detJ pad ξ = jac pad ξ 0 0 * jac pad ξ 1 1 - jac pad ξ 0 1 * jac pad ξ 1 0 := by
    rw [detJ, hs, detN, Matrix.det_fin_two]; rfl
  rw [e, (tri3_jac hk ξ 0).1, (tri3_jac hk ξ 0).2, (tri3_jac hk ξ 1).1, (tri3_jac hk ξ 1).2]
  simp only [AnalyticalTri3.compute]
  ring

theorem tri3_grad {pad : Scratchpad} (hk : pad.kind = .tri3) (hs : pad.spaceNdim = 2) (ha : (AnalyticalTri3.compute pad).area ≠ 0) (ξ : Nat → ℝ) :
    IsGradient pad ξ (AnalyticalTri3.compute pad).bb.at := by
  intro m hm j hj
  rw [hk] at hm; rw [hs] at hj; rw [hs, hk]
  have h2 : 2 * (AnalyticalTri3.compute pad).area ≠ 0 := by positivity
  rw [tri3_deriv]
  simp only [Finset.sum_range_succ, Finset.sum_range_zero, zero_add]
  have hb : ∀ m i, (AnalyticalTri3.compute pad).bb.at m i = ([[(pad.xxt 1 1 - pad.xxt 1 2) / (2 * (AnalyticalTri3.compute pad).area), (pad.xxt 0 2 - pad.xxt 0 1) / (2 * (AnalyticalTri3.compute pad).area)],
      [(pad.xxt 1 2 - pad.xxt 1 0) / (2 * (AnalyticalTri3.compute pad).area), (pad.xxt 0 0 - pad.xxt 0 2) / (2 * (AnalyticalTri3.compute pad).area)],
      [(pad.xxt 1 0 - pad.xxt 1 1) / (2 * (AnalyticalTri3.compute pad).area), (pad.xxt 0 1 - pad.xxt 0 0) / (2 * (AnalyticalTri3.compute pad).area)]] : List (List ℝ)).at m i := fun _ _ => rfl
  rw [hb, hb]
  have h3 : ∃ d, d = 2 * (AnalyticalTri3.compute pad).area := ⟨_, rfl⟩
  obtain ⟨d, h3⟩ := h3
  rw [← h3] at h2 ⊢
  simp only [AnalyticalTri3.compute] at h3
  have hm' : m = 0 ∨ m = 1 ∨ m = 2 := by have : m < 3 := hm; omega
  have hj' : j = 0 ∨ j = 1 := by omega
  have J := fun i => tri3_jac hk ξ i
  rcases hm' with rfl | rfl | rfl <;> rcases hj' with rfl | rfl <;>
    simp only [List.at, List.getD_cons_zero, List.getD_cons_succ, List.getD_nil, (J _).1, (J _).2] <;> field_simp <;> rw [h3] <;> ring

end Gemlab.Analytical
