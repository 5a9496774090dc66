import Mathlib.Analysis.SpecialFunctions.Integrals.Basic
import Verif.Spec.Gauss

/-! Moments of the reference domains in closed form. -/

namespace Gemlab.GaussSpec
open MvPolynomial intervalIntegral
open scoped Nat

/-- `∫_{-1}^{1} x^a dx`. -/
def boxMoment (a : Nat) : ℚ := (1 - (-1) ^ (a + 1)) / (a + 1)

/-- The moments of the reference domains. -/
def moment : GeoClass → Nat → Nat → Nat → ℚ
  | .lin, a, b, c => boxMoment a * 0 ^ b * 0 ^ c
  | .tri, a, b, c => (a ! * b ! : ℚ) / (a + b + 2)! * 0 ^ c
  | .qua, a, b, c => boxMoment a * boxMoment b * 0 ^ c
  | .tet, a, b, c => (a ! * b ! * c ! : ℚ) / (a + b + c + 3)!
  | .hex, a, b, c => boxMoment a * boxMoment b * boxMoment c

theorem box_integral (a : Nat) : ∫ x in (-1 : ℝ)..1, x ^ a = (boxMoment a : ℝ) := by
  rw [integral_pow]; unfold boxMoment; push_cast; simp

theorem simplex_integral (h : ℝ) (c b : Nat) :
    ∫ s in (0 : ℝ)..h, s ^ b * (h - s) ^ c = h ^ (b + c + 1) * ((b ! * c ! : ℝ) / (b + c + 1)!) := by
  induction c generalizing b with
  | zero =>
    simp only [pow_zero, mul_one, integral_pow, Nat.factorial_zero, Nat.cast_one, add_zero]
    rw [Nat.factorial_succ]; push_cast
    have : (b ! : ℝ) ≠ 0 := by exact_mod_cast b.factorial_ne_zero
    have : (b : ℝ) + 1 ≠ 0 := by positivity
    field_simp; ring
  | succ c ih =>
    have hsplit : ∀ s : ℝ, s ^ b * (h - s) ^ (c + 1) = h * (s ^ b * (h - s) ^ c) - s ^ (b + 1) * (h - s) ^ c := by
      intro s; ring
    simp_rw [hsplit]
    rw [integral_sub, integral_const_mul, ih, ih]
    · have e1 : b + 1 + c + 1 = (b + c + 1) + 1 := by ring
      have e2 : b + (c + 1) + 1 = (b + c + 1) + 1 := by ring
      rw [e1, e2, Nat.factorial_succ (b + c + 1), Nat.factorial_succ b, Nat.factorial_succ c]
      push_cast
      have h1 : ((b + c + 1)! : ℝ) ≠ 0 := by exact_mod_cast (b + c + 1).factorial_ne_zero
      have h2 : (b : ℝ) + c + 1 + 1 ≠ 0 := by positivity
      field_simp; ring
    · exact Continuous.intervalIntegrable (by fun_prop) _ _
    · exact Continuous.intervalIntegrable (by fun_prop) _ _

variable {ι : Type} (S : Finset ι) (w : ι → ℝ) (a b c : ι → Nat)

theorem refIntegral_lin : refIntegral .lin (fun r s t => ∑ m ∈ S, w m * (r ^ a m * s ^ b m * t ^ c m)) =
    ∑ m ∈ S, w m * (moment .lin (a m) (b m) (c m) : ℝ) := by
  simp only [refIntegral]
  rw [integral_finset_sum]
  · apply Finset.sum_congr rfl; intro m _
    rw [integral_const_mul, integral_mul_const, integral_mul_const, box_integral]
    simp only [moment]; push_cast; ring
  · intro m _; exact Continuous.intervalIntegrable (by fun_prop) _ _

theorem refIntegral_qua : refIntegral .qua (fun r s t => ∑ m ∈ S, w m * (r ^ a m * s ^ b m * t ^ c m)) =
    ∑ m ∈ S, w m * (moment .qua (a m) (b m) (c m) : ℝ) := by
  simp only [refIntegral]
  have inner : ∀ r : ℝ, ∫ s in (-1 : ℝ)..1, ∑ m ∈ S, w m * (r ^ a m * s ^ b m * 0 ^ c m) =
      ∑ m ∈ S, (w m * boxMoment (b m) * 0 ^ c m) * r ^ a m := by
    intro r
    rw [integral_finset_sum]
    · apply Finset.sum_congr rfl; intro m _
      rw [integral_const_mul, integral_mul_const, integral_const_mul, box_integral]; ring
    · intro m _; exact Continuous.intervalIntegrable (by fun_prop) _ _
  simp_rw [inner]
  rw [integral_finset_sum]
  · apply Finset.sum_congr rfl; intro m _
    rw [integral_const_mul, box_integral]
    simp only [moment]; push_cast; ring
  · intro m _; exact Continuous.intervalIntegrable (by fun_prop) _ _

theorem refIntegral_hex : refIntegral .hex (fun r s t => ∑ m ∈ S, w m * (r ^ a m * s ^ b m * t ^ c m)) =
    ∑ m ∈ S, w m * (moment .hex (a m) (b m) (c m) : ℝ) := by
  simp only [refIntegral]
  have inner1 : ∀ r s : ℝ, ∫ t in (-1 : ℝ)..1, ∑ m ∈ S, w m * (r ^ a m * s ^ b m * t ^ c m) =
      ∑ m ∈ S, (w m * boxMoment (c m) * r ^ a m) * s ^ b m := by
    intro r s
    rw [integral_finset_sum]
    · apply Finset.sum_congr rfl; intro m _
      rw [integral_const_mul, integral_const_mul, box_integral]; ring
    · intro m _; exact Continuous.intervalIntegrable (by fun_prop) _ _
  have inner : ∀ r : ℝ, ∫ s in (-1 : ℝ)..1, ∑ m ∈ S, (w m * boxMoment (c m) * r ^ a m) * s ^ b m =
      ∑ m ∈ S, (w m * boxMoment (c m) * boxMoment (b m)) * r ^ a m := by
    intro r
    rw [integral_finset_sum]
    · apply Finset.sum_congr rfl; intro m _
      rw [integral_const_mul, box_integral]; ring
    · intro m _; exact Continuous.intervalIntegrable (by fun_prop) _ _
  simp_rw [inner1, inner]
  rw [integral_finset_sum]
  · apply Finset.sum_congr rfl; intro m _
    rw [integral_const_mul, box_integral]
    simp only [moment]; push_cast; ring
  · intro m _; exact Continuous.intervalIntegrable (by fun_prop) _ _

theorem pow_integral (h : ℝ) (b : Nat) : ∫ s in (0 : ℝ)..h, s ^ b = h ^ (b + 1) / (b + 1) := by
  rw [integral_pow]; simp

theorem refIntegral_tri : refIntegral .tri (fun r s t => ∑ m ∈ S, w m * (r ^ a m * s ^ b m * t ^ c m)) =
    ∑ m ∈ S, w m * (moment .tri (a m) (b m) (c m) : ℝ) := by
  simp only [refIntegral]
  have inner : ∀ r : ℝ, ∫ s in (0 : ℝ)..(1 - r), ∑ m ∈ S, w m * (r ^ a m * s ^ b m * 0 ^ c m) =
      ∑ m ∈ S, (w m * 0 ^ c m / (b m + 1)) * (r ^ a m * (1 - r) ^ (b m + 1)) := by
    intro r
    rw [integral_finset_sum]
    · apply Finset.sum_congr rfl; intro m _
      rw [integral_const_mul, integral_mul_const, integral_const_mul, pow_integral]; ring
    · intro m _; exact Continuous.intervalIntegrable (by fun_prop) _ _
  simp_rw [inner]
  rw [integral_finset_sum]
  · apply Finset.sum_congr rfl; intro m _
    rw [integral_const_mul, simplex_integral]
    simp only [moment, one_pow, one_mul]
    rw [Nat.factorial_succ (b m)]
    push_cast
    have h2 : (b m : ℝ) + 1 ≠ 0 := by positivity
    have e : a m + (b m + 1) + 1 = a m + b m + 2 := by ring
    rw [e]
    field_simp
  · intro m _; exact Continuous.intervalIntegrable (by fun_prop) _ _

theorem refIntegral_tet : refIntegral .tet (fun r s t => ∑ m ∈ S, w m * (r ^ a m * s ^ b m * t ^ c m)) =
    ∑ m ∈ S, w m * (moment .tet (a m) (b m) (c m) : ℝ) := by
  simp only [refIntegral]
  have inner1 : ∀ r s : ℝ, ∫ t in (0 : ℝ)..(1 - r - s), ∑ m ∈ S, w m * (r ^ a m * s ^ b m * t ^ c m) =
      ∑ m ∈ S, (w m * r ^ a m / (c m + 1)) * (s ^ b m * (1 - r - s) ^ (c m + 1)) := by
    intro r s
    rw [integral_finset_sum]
    · apply Finset.sum_congr rfl; intro m _
      rw [integral_const_mul, integral_const_mul, pow_integral]; ring
    · intro m _; exact Continuous.intervalIntegrable (by fun_prop) _ _
  have inner : ∀ r : ℝ, ∫ s in (0 : ℝ)..(1 - r), ∑ m ∈ S, (w m * r ^ a m / (c m + 1)) * (s ^ b m * (1 - r - s) ^ (c m + 1)) =
      ∑ m ∈ S, (w m / (c m + 1) * (((b m)! * (c m + 1)! : ℝ) / (b m + (c m + 1) + 1)!)) * (r ^ a m * (1 - r) ^ (b m + (c m + 1) + 1)) := by
    intro r
    rw [integral_finset_sum]
    · apply Finset.sum_congr rfl; intro m _
      rw [integral_const_mul, simplex_integral]; ring
    · intro m _; exact Continuous.intervalIntegrable (by fun_prop) _ _
  simp_rw [inner1, inner]
  rw [integral_finset_sum]
  · apply Finset.sum_congr rfl; intro m _
    rw [integral_const_mul, simplex_integral]
    simp only [moment, one_pow, one_mul]
    rw [Nat.factorial_succ (c m)]
    push_cast
    have h2 : (c m : ℝ) + 1 ≠ 0 := by positivity
    have e : a m + (b m + (c m + 1) + 1) + 1 = a m + b m + c m + 3 := by ring
    rw [e]
    have h1 : ((b m + (c m + 1) + 1)! : ℝ) ≠ 0 := by exact_mod_cast (b m + (c m + 1) + 1).factorial_ne_zero
    field_simp
  · intro m _; exact Continuous.intervalIntegrable (by fun_prop) _ _

/-- The integral of a polynomial over the reference domain. -/
theorem refIntegral_sum (cls : GeoClass) :
    refIntegral cls (fun r s t => ∑ m ∈ S, w m * (r ^ a m * s ^ b m * t ^ c m)) =
    ∑ m ∈ S, w m * (moment cls (a m) (b m) (c m) : ℝ) := by
  cases cls
  · exact refIntegral_lin S w a b c
  · exact refIntegral_tri S w a b c
  · exact refIntegral_qua S w a b c
  · exact refIntegral_tet S w a b c
  · exact refIntegral_hex S w a b c

end Gemlab.GaussSpec
