import Verif.Proofs.Analytical

/-! Integrals of products of the shape functions of Qua4 and Qua8 and of their derivatives over the reference square: the tables are checked by the kernel. -/

namespace Gemlab.Analytical
open Gemlab Gemlab.Shapes Gemlab.GaussSpec Gemlab.Spec.Integ Gemlab.Spec.Analytical

def tNN4 : List (List ℚ) :=
   [[4 / 9, 2 / 9, 1 / 9, 2 / 9],
    [2 / 9, 4 / 9, 2 / 9, 1 / 9],
    [1 / 9, 2 / 9, 4 / 9, 2 / 9],
    [2 / 9, 1 / 9, 2 / 9, 4 / 9]]
theorem tNN4_eq : ∀ m < 4, ∀ n < 4, ((Np .qua4 m) * (Np .qua4 n)).norm.isSome = true ∧ intPE .qua ((Np .qua4 m) * (Np .qua4 n)) = (tNN4.getD m []).getD n 0 := by
  decide +kernel

def tXX4 : List (List ℚ) :=
   [[1 / 3, -1 / 3, -1 / 6, 1 / 6],
    [-1 / 3, 1 / 3, 1 / 6, -1 / 6],
    [-1 / 6, 1 / 6, 1 / 3, -1 / 3],
    [1 / 6, -1 / 6, -1 / 3, 1 / 3]]
theorem tXX4_eq : ∀ m < 4, ∀ n < 4, ((Dp .qua4 m 0) * (Dp .qua4 n 0)).norm.isSome = true ∧ intPE .qua ((Dp .qua4 m 0) * (Dp .qua4 n 0)) = (tXX4.getD m []).getD n 0 := by
  decide +kernel

def tYY4 : List (List ℚ) :=
   [[1 / 3, 1 / 6, -1 / 6, -1 / 3],
    [1 / 6, 1 / 3, -1 / 3, -1 / 6],
    [-1 / 6, -1 / 3, 1 / 3, 1 / 6],
    [-1 / 3, -1 / 6, 1 / 6, 1 / 3]]
theorem tYY4_eq : ∀ m < 4, ∀ n < 4, ((Dp .qua4 m 1) * (Dp .qua4 n 1)).norm.isSome = true ∧ intPE .qua ((Dp .qua4 m 1) * (Dp .qua4 n 1)) = (tYY4.getD m []).getD n 0 := by
  decide +kernel

def tNN8 : List (List ℚ) :=
   [[2 / 15, 2 / 45, 1 / 15, 2 / 45, -2 / 15, -8 / 45, -8 / 45, -2 / 15],
    [2 / 45, 2 / 15, 2 / 45, 1 / 15, -2 / 15, -2 / 15, -8 / 45, -8 / 45],
    [1 / 15, 2 / 45, 2 / 15, 2 / 45, -8 / 45, -2 / 15, -2 / 15, -8 / 45],
    [2 / 45, 1 / 15, 2 / 45, 2 / 15, -8 / 45, -8 / 45, -2 / 15, -2 / 15],
    [-2 / 15, -2 / 15, -8 / 45, -8 / 45, 32 / 45, 4 / 9, 16 / 45, 4 / 9],
    [-8 / 45, -2 / 15, -2 / 15, -8 / 45, 4 / 9, 32 / 45, 4 / 9, 16 / 45],
    [-8 / 45, -8 / 45, -2 / 15, -2 / 15, 16 / 45, 4 / 9, 32 / 45, 4 / 9],
    [-2 / 15, -8 / 45, -8 / 45, -2 / 15, 4 / 9, 16 / 45, 4 / 9, 32 / 45]]
theorem tNN8_eq : ∀ m < 8, ∀ n < 8, ((Np .qua8 m) * (Np .qua8 n)).norm.isSome = true ∧ intPE .qua ((Np .qua8 m) * (Np .qua8 n)) = (tNN8.getD m []).getD n 0 := by
  decide +kernel

def tXX8 : List (List ℚ) :=
   [[26 / 45, 14 / 45, 23 / 90, 17 / 90, -8 / 9, -1 / 15, -4 / 9, 1 / 15],
    [14 / 45, 26 / 45, 17 / 90, 23 / 90, -8 / 9, 1 / 15, -4 / 9, -1 / 15],
    [23 / 90, 17 / 90, 26 / 45, 14 / 45, -4 / 9, 1 / 15, -8 / 9, -1 / 15],
    [17 / 90, 23 / 90, 14 / 45, 26 / 45, -4 / 9, -1 / 15, -8 / 9, 1 / 15],
    [-8 / 9, -8 / 9, -4 / 9, -4 / 9, 16 / 9, 0, 8 / 9, 0],
    [-1 / 15, 1 / 15, 1 / 15, -1 / 15, 0, 8 / 15, 0, -8 / 15],
    [-4 / 9, -4 / 9, -8 / 9, -8 / 9, 8 / 9, 0, 16 / 9, 0],
    [1 / 15, -1 / 15, -1 / 15, 1 / 15, 0, -8 / 15, 0, 8 / 15]]
theorem tXX8_eq : ∀ m < 8, ∀ n < 8, ((Dp .qua8 m 0) * (Dp .qua8 n 0)).norm.isSome = true ∧ intPE .qua ((Dp .qua8 m 0) * (Dp .qua8 n 0)) = (tXX8.getD m []).getD n 0 := by
  decide +kernel

def tYY8 : List (List ℚ) :=
   [[26 / 45, 17 / 90, 23 / 90, 14 / 45, 1 / 15, -4 / 9, -1 / 15, -8 / 9],
    [17 / 90, 26 / 45, 14 / 45, 23 / 90, 1 / 15, -8 / 9, -1 / 15, -4 / 9],
    [23 / 90, 14 / 45, 26 / 45, 17 / 90, -1 / 15, -8 / 9, 1 / 15, -4 / 9],
    [14 / 45, 23 / 90, 17 / 90, 26 / 45, -1 / 15, -4 / 9, 1 / 15, -8 / 9],
    [1 / 15, 1 / 15, -1 / 15, -1 / 15, 8 / 15, 0, -8 / 15, 0],
    [-4 / 9, -8 / 9, -8 / 9, -4 / 9, 0, 16 / 9, 0, 8 / 9],
    [-1 / 15, -1 / 15, 1 / 15, 1 / 15, -8 / 15, 0, 8 / 15, 0],
    [-8 / 9, -4 / 9, -4 / 9, -8 / 9, 0, 8 / 9, 0, 16 / 9]]
theorem tYY8_eq : ∀ m < 8, ∀ n < 8, ((Dp .qua8 m 1) * (Dp .qua8 n 1)).norm.isSome = true ∧ intPE .qua ((Dp .qua8 m 1) * (Dp .qua8 n 1)) = (tYY8.getD m []).getD n 0 := by
  decide +kernel

def tN4N8 : List (List ℚ) :=
   [[0, -1 / 9, -1 / 9, -1 / 9, 4 / 9, 2 / 9, 2 / 9, 4 / 9],
    [-1 / 9, 0, -1 / 9, -1 / 9, 4 / 9, 4 / 9, 2 / 9, 2 / 9],
    [-1 / 9, -1 / 9, 0, -1 / 9, 2 / 9, 4 / 9, 4 / 9, 2 / 9],
    [-1 / 9, -1 / 9, -1 / 9, 0, 2 / 9, 2 / 9, 4 / 9, 4 / 9]]
theorem tN4N8_eq : ∀ m < 4, ∀ n < 8, ((Np .qua4 m) * (Np .qua8 n)).norm.isSome = true ∧ intPE .qua ((Np .qua4 m) * (Np .qua8 n)) = (tN4N8.getD m []).getD n 0 := by
  decide +kernel

def tN4X8 : List (List ℚ) :=
   [[-7 / 18, -1 / 18, -1 / 9, -1 / 9, 4 / 9, 1 / 3, 2 / 9, -1 / 3],
    [1 / 18, 7 / 18, 1 / 9, 1 / 9, -4 / 9, 1 / 3, -2 / 9, -1 / 3],
    [1 / 9, 1 / 9, 7 / 18, 1 / 18, -2 / 9, 1 / 3, -4 / 9, -1 / 3],
    [-1 / 9, -1 / 9, -1 / 18, -7 / 18, 2 / 9, 1 / 3, 4 / 9, -1 / 3]]
theorem tN4X8_eq : ∀ m < 4, ∀ n < 8, ((Np .qua4 m) * (Dp .qua8 n 0)).norm.isSome = true ∧ intPE .qua ((Np .qua4 m) * (Dp .qua8 n 0)) = (tN4X8.getD m []).getD n 0 := by
  decide +kernel

def tN4Y8 : List (List ℚ) :=
   [[-7 / 18, -1 / 9, -1 / 9, -1 / 18, -1 / 3, 2 / 9, 1 / 3, 4 / 9],
    [-1 / 9, -7 / 18, -1 / 18, -1 / 9, -1 / 3, 4 / 9, 1 / 3, 2 / 9],
    [1 / 9, 1 / 18, 7 / 18, 1 / 9, -1 / 3, -4 / 9, 1 / 3, -2 / 9],
    [1 / 18, 1 / 9, 1 / 9, 7 / 18, -1 / 3, -2 / 9, 1 / 3, -4 / 9]]
theorem tN4Y8_eq : ∀ m < 4, ∀ n < 8, ((Np .qua4 m) * (Dp .qua8 n 1)).norm.isSome = true ∧ intPE .qua ((Np .qua4 m) * (Dp .qua8 n 1)) = (tN4Y8.getD m []).getD n 0 := by
  decide +kernel

def tX4N8 : List (List ℚ) :=
   [[1 / 18, 1 / 18, 1 / 9, 1 / 9, -4 / 9, -1 / 3, -2 / 9, -1 / 3],
    [-1 / 18, -1 / 18, -1 / 9, -1 / 9, 4 / 9, 1 / 3, 2 / 9, 1 / 3],
    [-1 / 9, -1 / 9, -1 / 18, -1 / 18, 2 / 9, 1 / 3, 4 / 9, 1 / 3],
    [1 / 9, 1 / 9, 1 / 18, 1 / 18, -2 / 9, -1 / 3, -4 / 9, -1 / 3]]
theorem tX4N8_eq : ∀ m < 4, ∀ n < 8, ((Dp .qua4 m 0) * (Np .qua8 n)).norm.isSome = true ∧ intPE .qua ((Dp .qua4 m 0) * (Np .qua8 n)) = (tX4N8.getD m []).getD n 0 := by
  decide +kernel

def tY4N8 : List (List ℚ) :=
   [[1 / 18, 1 / 9, 1 / 9, 1 / 18, -1 / 3, -2 / 9, -1 / 3, -4 / 9],
    [1 / 9, 1 / 18, 1 / 18, 1 / 9, -1 / 3, -4 / 9, -1 / 3, -2 / 9],
    [-1 / 9, -1 / 18, -1 / 18, -1 / 9, 1 / 3, 4 / 9, 1 / 3, 2 / 9],
    [-1 / 18, -1 / 9, -1 / 9, -1 / 18, 1 / 3, 2 / 9, 1 / 3, 4 / 9]]
theorem tY4N8_eq : ∀ m < 4, ∀ n < 8, ((Dp .qua4 m 1) * (Np .qua8 n)).norm.isSome = true ∧ intPE .qua ((Dp .qua4 m 1) * (Np .qua8 n)) = (tY4N8.getD m []).getD n 0 := by
  decide +kernel

/-! ## The Jacobian of a rectangle -/

/-- Sums of the derivatives: `Σ ∂N/∂ξ_j = 0` and `Σ ξ_i ∂N/∂ξ_j = δ_ij`. -/
theorem qua_sums {k : GeoKind} (hk : k = .qua4 ∨ k = .qua8) (ξ : Nat → ℝ) : ∀ j < 2,
    (∑ m ∈ Finset.range k.nnode, Shapes.calcDeriv k ξ m j = 0) ∧
    ∀ i < 2, ∑ m ∈ Finset.range k.nnode, (refCoord k m i : ℝ) * Shapes.calcDeriv k ξ m j = if i = j then 1 else 0 := by
  have hD : ∀ m j, Shapes.calcDeriv k ξ m j = PE.eval ξ (Dp k m j) := fun _ _ => rfl
  have key : ∀ (f : Nat → PE) (n : Nat), ∑ m ∈ Finset.range n, PE.eval ξ (f m) = PE.eval ξ (PE.sum ((List.range n).map f)) := by
    intro f n
    rw [PE.eval_sum, List.map_map]
    rw [Finset.sum_eq_multiset_sum]; rfl
  intro j hj
  refine ⟨?_, fun i hi => ?_⟩
  · simp_rw [hD]
    rw [key (fun m => Dp k m j), PE.eval_eq_of_same (b := 0), PE.eval_zero]
    rcases hk with rfl | rfl <;> rcases (show j = 0 ∨ j = 1 by omega) with rfl | rfl <;> decide +kernel
  · have e : ∀ m, (refCoord k m i : ℝ) * Shapes.calcDeriv k ξ m j = PE.eval ξ (PE.c (refCoordQ k m i) * Dp k m j) := fun m => by
      rw [hD]; rfl
    simp_rw [e]
    rw [key (fun m => PE.c (refCoordQ k m i) * Dp k m j), PE.eval_eq_of_same (b := if i = j then 1 else 0)]
    · split_ifs <;> simp
    · rcases hk with rfl | rfl <;> rcases (show j = 0 ∨ j = 1 by omega) with rfl | rfl <;> rcases (show i = 0 ∨ i = 1 by omega) with rfl | rfl <;> decide +kernel

section
variable {pad : Scratchpad} (hk : pad.kind = .qua4 ∨ pad.kind = .qua8) {a b : ℝ} (hr : IsRectangle pad a b)
include hk hr

theorem rect_jac (ξ : Nat → ℝ) : jac pad ξ 0 0 = a ∧ jac pad ξ 0 1 = 0 ∧ jac pad ξ 1 0 = 0 ∧ jac pad ξ 1 1 = b := by
  obtain ⟨_, xc, yc, hx⟩ := hr
  have h0 : ∀ j < 2, jac pad ξ 0 j = if 0 = j then a else 0 := by
    intro j hj
    obtain ⟨s0, s1⟩ := qua_sums hk ξ j hj
    have := s1 0 (by norm_num)
    unfold jac
    rw [Finset.sum_congr rfl (g := fun m => xc * Shapes.calcDeriv pad.kind ξ m j + a * (refCoord pad.kind m 0 * Shapes.calcDeriv pad.kind ξ m j))
      (fun m hm => by rw [(hx m (Finset.mem_range.1 hm)).1]; ring), Finset.sum_add_distrib, ← Finset.mul_sum, ← Finset.mul_sum, s0, this]
    split_ifs <;> ring
  have h1 : ∀ j < 2, jac pad ξ 1 j = if 1 = j then b else 0 := by
    intro j hj
    obtain ⟨s0, s1⟩ := qua_sums hk ξ j hj
    have := s1 1 (by norm_num)
    unfold jac
    rw [Finset.sum_congr rfl (g := fun m => yc * Shapes.calcDeriv pad.kind ξ m j + b * (refCoord pad.kind m 1 * Shapes.calcDeriv pad.kind ξ m j))
      (fun m hm => by rw [(hx m (Finset.mem_range.1 hm)).2]; ring), Finset.sum_add_distrib, ← Finset.mul_sum, ← Finset.mul_sum, s0, this]
    split_ifs <;> ring
  rw [h0 0 (by norm_num), h0 1 (by norm_num), h1 0 (by norm_num), h1 1 (by norm_num)]
  simp

theorem rect_det (ξ : Nat → ℝ) : detJ pad ξ = a * b := by
  obtain ⟨j00, j01, j10, j11⟩ := rect_jac hk hr ξ
  have e : detJ pad ξ = jac pad ξ 0 0 * jac pad ξ 1 1 - jac pad ξ 0 1 * jac pad ξ 1 0 := by
    rw [detJ, hr.1, detN, Matrix.det_fin_two]; rfl
  rw [e, j00, j01, j10, j11]; ring

theorem rect_grad {B : (Nat → ℝ) → Nat → Nat → ℝ} (hB : IsGradientField pad B) (ha : a ≠ 0) (hb : b ≠ 0) {m : Nat} (hm : m < pad.kind.nnode) (ξ : Nat → ℝ) :
    B ξ m 0 = 1 / a * PE.eval ξ (Dp pad.kind m 0) ∧ B ξ m 1 = 1 / b * PE.eval ξ (Dp pad.kind m 1) := by
  obtain ⟨j00, j01, j10, j11⟩ := rect_jac hk hr ξ
  have h0 := hB ξ m hm 0 (by rw [hr.1]; norm_num)
  have h1 := hB ξ m hm 1 (by rw [hr.1]; norm_num)
  rw [hr.1] at h0 h1
  simp only [Finset.sum_range_succ, Finset.sum_range_zero, zero_add, j00, j01, j10, j11, mul_zero, add_zero] at h0 h1
  have e0 : Shapes.calcDeriv pad.kind ξ m 0 = PE.eval ξ (Dp pad.kind m 0) := rfl
  have e1 : Shapes.calcDeriv pad.kind ξ m 1 = PE.eval ξ (Dp pad.kind m 1) := rfl
  rw [← e0, ← e1, ← h0, ← h1]
  constructor <;> field_simp
end

/-- Every rectangle with sides that are not zero has a gradient field. -/
theorem rect_grad_exists {pad : Scratchpad} (hk : pad.kind = .qua4 ∨ pad.kind = .qua8) {a b : ℝ} (hr : IsRectangle pad a b) (ha : a ≠ 0) (hb : b ≠ 0) :
    IsGradientField pad (fun ξ m i => Shapes.calcDeriv pad.kind ξ m i / if i = 0 then a else b) := by
  intro ξ m hm j hj
  obtain ⟨j00, j01, j10, j11⟩ := rect_jac hk hr ξ
  rw [hr.1] at hj; rw [hr.1]
  rcases (show j = 0 ∨ j = 1 by omega) with rfl | rfl <;>
    simp [Finset.sum_range_succ, j00, j01, j10, j11] <;> field_simp

theorem classQua {k : GeoKind} (hk : k = .qua4 ∨ k = .qua8) : k.classOf = .qua := by rcases hk with rfl | rfl <;> rfl

/-- Integral of `c E₁ + d E₂`. -/
theorem rect_two {pad : Scratchpad} (hk : pad.kind = .qua4 ∨ pad.kind = .qua8) {a b : ℝ} (hr : IsRectangle pad a b) (c d : ℝ) {e₁ e₂ : PE} {q₁ q₂ : ℚ}
    (h₁ : e₁.norm.isSome = true ∧ intPE .qua e₁ = q₁) (h₂ : e₂.norm.isSome = true ∧ intPE .qua e₂ = q₂)
    {f : (Nat → ℝ) → ℝ} (hf : ∀ ξ, f ξ = c * PE.eval ξ e₁ + d * PE.eval ξ e₂) : elementIntegral pad f = a * b * (c * (q₁ : ℝ) + d * (q₂ : ℝ)) := by
  have := element_exprs (rect_det hk hr) (Finset.range 2) (fun k => if k = 0 then c else d) (fun k => if k = 0 then e₁ else e₂)
    (fun i hi => by have := Finset.mem_range.1 hi; rcases (show i = 0 ∨ i = 1 by omega) with rfl | rfl; exact h₁.1; exact h₂.1)
    (f := f) (fun ξ => by rw [hf]; simp [Finset.sum_range_succ])
  rw [this, classQua hk]
  simp [Finset.sum_range_succ, h₁.2, h₂.2]

theorem rect_one {pad : Scratchpad} (hk : pad.kind = .qua4 ∨ pad.kind = .qua8) {a b : ℝ} (hr : IsRectangle pad a b) (c : ℝ) {e₁ : PE} {q₁ : ℚ}
    (h₁ : e₁.norm.isSome = true ∧ intPE .qua e₁ = q₁)
    {f : (Nat → ℝ) → ℝ} (hf : ∀ ξ, f ξ = c * PE.eval ξ e₁) : elementIntegral pad f = a * b * (c * (q₁ : ℝ)) := by
  rw [element_expr (rect_det hk hr) c e₁ h₁.1 hf, classQua hk, h₁.2]

end Gemlab.Analytical
