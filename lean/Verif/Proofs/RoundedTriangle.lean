import Verif.Model.RoundedTriangle
import Verif.Proofs.Rounded
import Mathlib.Tactic.LinearCombination
import Mathlib.Tactic.FinCases

/-! # Proofs about `triangle_coords` with rounding -/
namespace Gemlab.Rounded
noncomputable section

variable (fl : ℝ → ℝ)

/-- Twice the signed area of three points, as the code computes it. -/
def side3 (a b c : ℝ × ℝ) : ℝ := fl (fl (fl (a.1 * fl (b.2 - c.2)) + fl (b.1 * fl (c.2 - a.2))) + fl (c.1 * fl (a.2 - b.2)))

/-- The exact sum of the three rounded products. -/
def sum3 (a b c : ℝ × ℝ) : ℝ := fl (a.1 * fl (b.2 - c.2)) + fl (b.1 * fl (c.2 - a.2)) + fl (c.1 * fl (a.2 - b.2))

theorem coords_eq (a b c p : ℝ × ℝ) : triangleCoords fl a b c p =
    (fl (side3 fl p b c / side3 fl a b c), fl (side3 fl a p c / side3 fl a b c), fl (side3 fl a b p / side3 fl a b c)) := rfl

theorem sum3_cycle (a b c : ℝ × ℝ) : sum3 fl a b c = sum3 fl b c a := by simp only [sum3]; ring

variable {fl} {u : ℝ} (R : Rounding fl u) (odd : ∀ x, fl (-x) = -fl x)
include odd

theorem sum3_swap (a b c : ℝ × ℝ) : sum3 fl a b c = -sum3 fl a c b := by
  have h : ∀ x y z : ℝ, fl (x * fl (y - z)) = -fl (x * fl (z - y)) := by
    intro x y z
    rw [← odd, ← neg_sub z y, odd]; congr 1; ring
  simp only [sum3]
  rw [h a.1 b.2 c.2, h b.1 c.2 a.2, h c.1 a.2 b.2]; ring

include R

theorem side3_nonneg {a b c : ℝ × ℝ} (h : 0 ≤ sum3 fl a b c) : 0 ≤ side3 fl a b c := by
  refine R.nonneg ?_
  simp only [sum3] at h
  have e : fl (-fl (c.1 * fl (a.2 - b.2))) = -fl (c.1 * fl (a.2 - b.2)) := by rw [odd, R.idem]
  have := R.mono (show -fl (c.1 * fl (a.2 - b.2)) ≤ fl (a.1 * fl (b.2 - c.2)) + fl (b.1 * fl (c.2 - a.2)) by linarith)
  rw [e] at this; linarith

theorem side3_nonpos {a b c : ℝ × ℝ} (h : sum3 fl a b c ≤ 0) : side3 fl a b c ≤ 0 := by
  simp only [sum3] at h
  have e : fl (-fl (c.1 * fl (a.2 - b.2))) = -fl (c.1 * fl (a.2 - b.2)) := by rw [odd, R.idem]
  have := R.mono (show fl (a.1 * fl (b.2 - c.2)) + fl (b.1 * fl (c.2 - a.2)) ≤ -fl (c.1 * fl (a.2 - b.2)) by linarith)
  rw [e] at this
  have := R.mono (show fl (fl (a.1 * fl (b.2 - c.2)) + fl (b.1 * fl (c.2 - a.2))) + fl (c.1 * fl (a.2 - b.2)) ≤ 0 by linarith)
  rwa [R.zero] at this

theorem side3_eq_zero {a b c : ℝ × ℝ} (h : sum3 fl a b c = 0) : side3 fl a b c = 0 :=
  le_antisymm (side3_nonpos R odd h.le) (side3_nonneg R odd h.ge)

omit odd in
/-- The error of the computed area. -/
theorem side3_near {a b c : ℝ × ℝ} {M : ℝ} (ha : |a.1| ≤ M ∧ |a.2| ≤ M) (hb : |b.1| ≤ M ∧ |b.2| ≤ M) (hc : |c.1| ≤ M ∧ |c.2| ≤ M) :
    |side3 fl a b c - (a.1 * (b.2 - c.2) + b.1 * (c.2 - a.2) + c.1 * (a.2 - b.2))| ≤ 23 * (u * M ^ 2) := by
  have hM : 0 ≤ M := (abs_nonneg _).trans ha.1
  obtain ⟨u0, u1⟩ := R.small
  have uM : 0 ≤ u * M ^ 2 := by positivity
  have prod : ∀ x y z : ℝ, |x| ≤ M → |y| ≤ M → |z| ≤ M → |fl (x * fl (y - z)) - x * (y - z)| ≤ 4.02 * (u * M ^ 2) := by
    intro x y z hx hy hz
    have h1 : |y - z| ≤ 2 * M := (abs_sub _ _).trans (by linarith)
    have h2 := R.near h1
    have h3 : |fl (y - z)| ≤ 2.02 * M := by
      have := abs_add_le (fl (y - z) - (y - z)) (y - z)
      rw [sub_add_cancel] at this; nlinarith
    have h4 : |x * fl (y - z)| ≤ 2.02 * M ^ 2 := by
      rw [abs_mul]; nlinarith [abs_nonneg x, abs_nonneg (fl (y - z))]
    have h5 := R.near h4
    have h6 : |x * fl (y - z) - x * (y - z)| ≤ 2 * (u * M ^ 2) := by
      rw [← mul_sub, abs_mul]
      calc |x| * |fl (y - z) - (y - z)| ≤ M * (u * (2 * M)) := mul_le_mul hx h2 (abs_nonneg _) hM
        _ = _ := by ring
    have := abs_add_le (fl (x * fl (y - z)) - x * fl (y - z)) (x * fl (y - z) - x * (y - z))
    rw [sub_add_sub_cancel] at this
    linarith
  have big : ∀ x y z : ℝ, |x| ≤ M → |y| ≤ M → |z| ≤ M → |fl (x * fl (y - z))| ≤ 2.0402 * M ^ 2 := by
    intro x y z hx hy hz
    have h1 := prod x y z hx hy hz
    have h2 : |x * (y - z)| ≤ 2 * M ^ 2 := by
      rw [abs_mul]
      calc |x| * |y - z| ≤ M * (2 * M) := mul_le_mul hx ((abs_sub _ _).trans (by linarith)) (abs_nonneg _) hM
        _ = _ := by ring
    have := abs_add_le (fl (x * fl (y - z)) - x * (y - z)) (x * (y - z))
    rw [sub_add_cancel] at this
    nlinarith [sq_nonneg M]
  have p1 := prod a.1 b.2 c.2 ha.1 hb.2 hc.2
  have p2 := prod b.1 c.2 a.2 hb.1 hc.2 ha.2
  have p3 := prod c.1 a.2 b.2 hc.1 ha.2 hb.2
  have b1 := big a.1 b.2 c.2 ha.1 hb.2 hc.2
  have b2 := big b.1 c.2 a.2 hb.1 hc.2 ha.2
  have b3 := big c.1 a.2 b.2 hc.1 ha.2 hb.2
  unfold side3
  generalize fl (a.1 * fl (b.2 - c.2)) = P at *
  generalize fl (b.1 * fl (c.2 - a.2)) = Q at *
  generalize fl (c.1 * fl (a.2 - b.2)) = T at *
  have s1 : |P + Q| ≤ 4.0804 * M ^ 2 := (abs_add_le _ _).trans (by linarith)
  have e1 := R.near s1
  have s2 : |fl (P + Q)| ≤ 4.1213 * M ^ 2 := by
    have := abs_add_le (fl (P + Q) - (P + Q)) (P + Q)
    rw [sub_add_cancel] at this
    nlinarith [sq_nonneg M]
  have s3 : |fl (P + Q) + T| ≤ 6.1615 * M ^ 2 := (abs_add_le _ _).trans (by linarith)
  have e2 := R.near s3
  rw [abs_le] at *
  constructor <;> nlinarith

end
end Gemlab.Rounded
