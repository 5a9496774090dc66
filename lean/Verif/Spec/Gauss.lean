import Mathlib.Algebra.MvPolynomial.Degrees
import Mathlib.MeasureTheory.Integral.IntervalIntegral.Basic
import Mathlib.Analysis.Normed.Field.Basic
import Verif.Model.GeoKind

/-!
# What a quadrature rule should do (specification for `Gauss`)

Written with Mathlib's interval integral and multivariate polynomials only.
-/

namespace Gemlab.GaussSpec
open MvPolynomial
noncomputable section

/-- The point `(r, s, t)` belongs to the reference domain of the class (unused coordinates are zero). -/
def InReference : GeoClass → ℝ → ℝ → ℝ → Prop
  | .lin, r, s, t => -1 ≤ r ∧ r ≤ 1 ∧ s = 0 ∧ t = 0
  | .tri, r, s, t => 0 ≤ r ∧ 0 ≤ s ∧ r + s ≤ 1 ∧ t = 0
  | .qua, r, s, t => -1 ≤ r ∧ r ≤ 1 ∧ -1 ≤ s ∧ s ≤ 1 ∧ t = 0
  | .tet, r, s, t => 0 ≤ r ∧ 0 ≤ s ∧ 0 ≤ t ∧ r + s + t ≤ 1
  | .hex, r, s, t => -1 ≤ r ∧ r ≤ 1 ∧ -1 ≤ s ∧ s ≤ 1 ∧ -1 ≤ t ∧ t ≤ 1

/-- The integral of `f(r, s, t)` over the reference domain of the class. -/
def refIntegral : GeoClass → (ℝ → ℝ → ℝ → ℝ) → ℝ
  | .lin, f => ∫ r in (-1 : ℝ)..1, f r 0 0
  | .tri, f => ∫ r in (0 : ℝ)..1, ∫ s in (0 : ℝ)..(1 - r), f r s 0
  | .qua, f => ∫ r in (-1 : ℝ)..1, ∫ s in (-1 : ℝ)..1, f r s 0
  | .tet, f => ∫ r in (0 : ℝ)..1, ∫ s in (0 : ℝ)..(1 - r), ∫ t in (0 : ℝ)..(1 - r - s), f r s t
  | .hex, f => ∫ r in (-1 : ℝ)..1, ∫ s in (-1 : ℝ)..1, ∫ t in (-1 : ℝ)..1, f r s t

/-- The length, area or volume of the reference domain. -/
def refMeasure : GeoClass → ℝ
  | .lin => 2
  | .tri => 1 / 2
  | .qua => 4
  | .tet => 1 / 6
  | .hex => 8

/-- How good a rule is: for all polynomials up to some total degree, or for all polynomials up to
some degree *in each variable* (tensor-product rules). -/
inductive Exactness where
  | total (d : Nat)
  | perVariable (d : Nat)

/-- The rules on offer: number of points, and what they integrate exactly. -/
def rules : GeoClass → List (Nat × Exactness)
  | .lin => [(1, .total 1), (2, .total 3), (3, .total 5), (4, .total 7), (5, .total 9)]
  | .tri => [(1, .total 1), (3, .total 2), (4, .total 3), (6, .total 4), (7, .total 5), (12, .total 6), (16, .total 8)]
  | .qua => [(1, .perVariable 1), (4, .perVariable 3), (9, .perVariable 5), (16, .perVariable 7)]
  | .tet => [(1, .total 1), (4, .total 2), (5, .total 3), (8, .total 3), (14, .total 5), (15, .total 5), (24, .total 6)]
  | .hex => [(6, .total 3), (8, .perVariable 3), (14, .total 5), (27, .perVariable 5), (64, .perVariable 7)]

/-- The accuracy of the decimal numbers of each rule: the bound on the error for one monomial. -/
def accuracy : GeoClass → Nat → ℚ
  | .lin, _ => 2 / 10 ^ 16
  | .tri, 12 => 1 / 10 ^ 15
  | .tri, 16 => 5 / 10 ^ 17
  | .tri, _ => 1 / 10 ^ 20
  | .qua, 16 => 2 / 10 ^ 15
  | .qua, _ => 3 / 10 ^ 16
  | .tet, _ => 1 / 10 ^ 20
  | .hex, 6 => 0
  | .hex, 27 => 7 / 10 ^ 15
  | .hex, 64 => 1 / 10 ^ 19
  | .hex, _ => 6 / 10 ^ 16

/-- The polynomial is one of those that the rule should integrate exactly. -/
def Exactness.Covers : Exactness → MvPolynomial (Fin 3) ℝ → Prop
  | .total d, P => P.totalDegree ≤ d
  | .perVariable d, P => ∀ i, P.degreeOf i ≤ d

/-- The sum of the absolute values of the coefficients. -/
def coeffNorm (P : MvPolynomial (Fin 3) ℝ) : ℝ := ∑ m ∈ P.support, |P.coeff m|

end
end Gemlab.GaussSpec
