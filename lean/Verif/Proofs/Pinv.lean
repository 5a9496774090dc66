import Verif.Model.Recovery
import Mathlib.Analysis.Matrix.Spectrum
import Mathlib.LinearAlgebra.Matrix.DotProduct
import Mathlib.Algebra.Order.Star.Real
import Mathlib.LinearAlgebra.Matrix.NonsingularInverse
/-! Existence and properties of the Moore–Penrose inverse of real matrices. -/
namespace Gemlab
noncomputable section
open Matrix

/-- A real symmetric matrix has a symmetric pseudo-inverse commuting with it. -/
theorem symm_pinv {n : Type} [Fintype n] [DecidableEq n] (G : Matrix n n ℝ) (hG : Gᵀ = G) :
    ∃ X : Matrix n n ℝ, G * X * G = G ∧ X * G * X = X ∧ Xᵀ = X ∧ X * G = G * X := by
  have hH : G.IsHermitian := by rw [Matrix.IsHermitian, Matrix.conjTranspose_eq_transpose_of_trivial]; exact hG
  set U : Matrix n n ℝ := (hH.eigenvectorUnitary).1 with hU
  set d : n → ℝ := hH.eigenvalues with hd
  have hspec : G = U * diagonal d * Uᵀ := by
    have := hH.spectral_theorem
    conv_lhs => rw [this]
    rw [Unitary.conjStarAlgAut_apply]
    rw [Matrix.star_eq_conjTranspose, Matrix.conjTranspose_eq_transpose_of_trivial]
    rfl
  have hUU : Uᵀ * U = 1 := by
    have := Unitary.coe_star_mul_self hH.eigenvectorUnitary
    rw [Matrix.star_eq_conjTranspose, Matrix.conjTranspose_eq_transpose_of_trivial] at this
    exact this
  let e : n → ℝ := fun i => (d i)⁻¹
  have key : ∀ a b : n → ℝ, (U * diagonal a * Uᵀ) * (U * diagonal b * Uᵀ) = U * diagonal (fun i => a i * b i) * Uᵀ := by
    intro a b
    calc (U * diagonal a * Uᵀ) * (U * diagonal b * Uᵀ) = U * diagonal a * (Uᵀ * U) * diagonal b * Uᵀ := by simp only [Matrix.mul_assoc]
      _ = U * (diagonal a * diagonal b) * Uᵀ := by rw [hUU]; simp only [Matrix.mul_assoc, Matrix.mul_one, Matrix.one_mul]
      _ = _ := by rw [diagonal_mul_diagonal]
  refine ⟨U * diagonal e * Uᵀ, ?_, ?_, ?_, ?_⟩
  · rw [hspec, key, key]
    congr 3; funext i
    exact mul_inv_mul_cancel (d i)
  · rw [hspec, key, key]
    congr 3; funext i
    by_cases h : d i = 0 <;> simp [e, h]
  · simp [Matrix.transpose_mul, Matrix.mul_assoc]
  · rw [hspec, key, key]
    congr 3; funext i
    exact mul_comm _ _

/-- Every real matrix has a Moore–Penrose inverse. -/
theorem exists_pinv (m n : Nat) (A : Matrix (Fin m) (Fin n) ℝ) :
    ∃ X : Matrix (Fin n) (Fin m) ℝ, A * X * A = A ∧ X * A * X = X ∧ (A * X)ᵀ = A * X ∧ (X * A)ᵀ = X * A := by
  obtain ⟨Y, h1, h2, h3, h4⟩ := symm_pinv (Aᵀ * A) (by simp)
  have h5 : A * (Y * (Aᵀ * A)) = A := by
    have : (A * (Y * (Aᵀ * A)) - A)ᵀ * (A * (Y * (Aᵀ * A)) - A) = 0 := by
      have e : (A * (Y * (Aᵀ * A)) - A)ᵀ = ((Aᵀ * A) * Y - 1) * Aᵀ := by
        rw [Matrix.transpose_sub, Matrix.transpose_mul, Matrix.transpose_mul, h3, Matrix.sub_mul, Matrix.one_mul]
        simp [Matrix.transpose_mul, Matrix.mul_assoc]
      rw [e]
      calc ((Aᵀ * A) * Y - 1) * Aᵀ * (A * (Y * (Aᵀ * A)) - A)
          = ((Aᵀ * A) * Y - 1) * ((Aᵀ * A) * Y * (Aᵀ * A) - (Aᵀ * A)) := by
            simp only [Matrix.mul_sub, Matrix.sub_mul, Matrix.mul_assoc]
        _ = 0 := by rw [h1, sub_self, Matrix.mul_zero]
    have h0 := Matrix.conjTranspose_mul_self_eq_zero (A := A * (Y * (Aᵀ * A)) - A)
    rw [Matrix.conjTranspose_eq_transpose_of_trivial] at h0
    exact sub_eq_zero.1 (h0.1 this)
  refine ⟨Y * Aᵀ, ?_, ?_, ?_, ?_⟩
  · simpa [Matrix.mul_assoc] using h5
  · calc Y * Aᵀ * A * (Y * Aᵀ) = (Y * (Aᵀ * A) * Y) * Aᵀ := by simp only [Matrix.mul_assoc]
      _ = _ := by rw [h2]
  · simp [Matrix.transpose_mul, h3, Matrix.mul_assoc]
  · rw [Matrix.mul_assoc Y, Matrix.transpose_mul, h3, h4]; simp

/-- Exact pseudo-inverse: it never fails. -/
def exactPinv : MatPseudoInverse := fun m n a =>
  .ok fun i j => if h : i < n ∧ j < m then (exists_pinv m n (toM m n a)).choose ⟨i, h.1⟩ ⟨j, h.2⟩ else 0

theorem exactPinv_spec : PinvSpec exactPinv := by
  intro m n a x h
  unfold exactPinv at h
  rw [Res.ok.injEq] at h
  have hx : toM n m x = (exists_pinv m n (toM m n a)).choose := by
    rw [← h]
    ext i j
    simp [toM]
  obtain ⟨a1, a2, a3, a4⟩ := (exists_pinv m n (toM m n a)).choose_spec
  constructor <;> rw [hx] <;> assumption

theorem pinv_left {m n : Nat} {a x : Nat → Nat → ℝ} (h : IsPinv m n a x) (hi : ∀ u : Fin n → ℝ, toM m n a *ᵥ u = 0 → u = 0) :
    toM n m x * toM m n a = 1 := by
  rw [← sub_eq_zero]
  have h0 : toM m n a * (toM n m x * toM m n a - 1) = 0 := by
    rw [Matrix.mul_sub, ← Matrix.mul_assoc, h.axa, Matrix.mul_one, sub_self]
  ext i j
  have := hi (fun i => (toM n m x * toM m n a - 1 : Matrix (Fin n) (Fin n) ℝ) i j) (by
    ext k
    exact congrFun (congrFun h0 k) j)
  exact congrFun this i

theorem pinv_right {m n : Nat} {a x : Nat → Nat → ℝ} (h : IsPinv m n a x) (hi : ∀ u : Fin m → ℝ, u ᵥ* toM m n a = 0 → u = 0) :
    toM m n a * toM n m x = 1 := by
  rw [← sub_eq_zero]
  have h0 : (toM m n a * toM n m x - 1) * toM m n a = 0 := by
    rw [Matrix.sub_mul, h.axa, Matrix.one_mul, sub_self]
  ext i j
  have := hi (fun j => (toM m n a * toM n m x - 1 : Matrix (Fin m) (Fin m) ℝ) i j) (by
    ext k
    exact congrFun (congrFun h0 i) k)
  exact congrFun this j

end
end Gemlab
