import Mathlib.Data.Int.Log
import Mathlib.Data.Real.Archimedean
import Mathlib.Algebra.Ring.Int.Parity

/-!
# Arithmetic with rounding

The result of an operation on floating-point numbers is the exact result rounded. `Rounding fl u` says what the theorems assume about the rounding `fl`:
it keeps the order, does nothing to floating-point numbers, and its relative error is at most `u`. `binary64` is the rounding of IEEE 754 double
precision (53 bits, to nearest, ties to even) for numbers whose exponents are not too large or small (no overflow and no underflow).
-/
namespace Gemlab
noncomputable section
open Classical

/-- `fl` rounds with relative error at most `u`. -/
structure Rounding (fl : ℝ → ℝ) (u : ℝ) : Prop where
  mono : Monotone fl
  idem : ∀ x, fl (fl x) = fl x
  error : ∀ x, |fl x - x| ≤ u * |x|
  small : 0 ≤ u ∧ u ≤ 1 / 100

/-- The nearest integer; the even one of two nearest integers. -/
def roundEven (x : ℝ) : ℤ :=
  if x - ⌊x⌋ < 1 / 2 then ⌊x⌋ else if 1 / 2 < x - ⌊x⌋ then ⌊x⌋ + 1 else if Even ⌊x⌋ then ⌊x⌋ else ⌊x⌋ + 1

/-- Rounding of positive numbers to 53 binary digits. -/
def binary64Pos (x : ℝ) : ℝ := (roundEven (x / (2 : ℝ) ^ (Int.log 2 x - 52)) : ℝ) * (2 : ℝ) ^ (Int.log 2 x - 52)

/-- Rounding to double precision. -/
def binary64 (x : ℝ) : ℝ := if 0 < x then binary64Pos x else if x < 0 then -binary64Pos (-x) else 0

/-- A floating-point number. -/
def IsFloat (fl : ℝ → ℝ) (x : ℝ) : Prop := fl x = x

end
end Gemlab
