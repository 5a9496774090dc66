import Verif.Model.Geometry
import Verif.Spec.Euclid
import Mathlib.Tactic.Linarith
import Mathlib.Tactic.LinearCombination
import Mathlib.Tactic.FieldSimp
import Mathlib.Tactic.Ring
import Mathlib.Tactic.Positivity
import Mathlib.Algebra.BigOperators.Fin

/-! # Euclidean geometry of coordinate lists of length 2 and 3 -/
namespace Gemlab
noncomputable section
open Spec

/-- Norm of three components. -/
def n3 (x y z : ℝ) : ℝ := Real.sqrt (x * x + y * y + z * z)

theorem n3_nonneg (x y z : ℝ) : 0 ≤ n3 x y z := Real.sqrt_nonneg _

theorem n3_sq (x y z : ℝ) : n3 x y z * n3 x y z = x * x + y * y + z * z :=
  Real.mul_self_sqrt (by nlinarith [mul_self_nonneg x, mul_self_nonneg y, mul_self_nonneg z])

theorem n3_le_of_sq {x y z r : ℝ} (hr : 0 ≤ r) (h : x * x + y * y + z * z ≤ r * r) : n3 x y z ≤ r := by
  unfold n3; rw [Real.sqrt_le_iff]; exact ⟨hr, by nlinarith⟩

theorem n3_eq_of_sq {x y z r : ℝ} (hr : 0 ≤ r) (h : x * x + y * y + z * z = r * r) : n3 x y z = r := by
  unfold n3; rw [h]; exact Real.sqrt_mul_self hr

theorem dot_le_n3 (a b c x y z : ℝ) : a * x + b * y + c * z ≤ n3 a b c * n3 x y z := by
  apply le_of_sq_le_sq
  · exact mul_nonneg (n3_nonneg _ _ _) (n3_nonneg _ _ _)
  · have h1 := n3_sq a b c
    have h2 := n3_sq x y z
    have : (n3 a b c * n3 x y z) ^ 2 = (a * a + b * b + c * c) * (x * x + y * y + z * z) := by
      rw [← h1, ← h2]; ring
    rw [this]
    nlinarith [sq_nonneg (a * y - b * x), sq_nonneg (a * z - c * x), sq_nonneg (b * z - c * y)]
where
  le_of_sq_le_sq {u v : ℝ} (hv : 0 ≤ v) (h : u ^ 2 ≤ v ^ 2) : u ≤ v := by
    by_contra hc
    rw [not_le] at hc
    nlinarith

theorem n3_add_le (a b c x y z : ℝ) : n3 (a + x) (b + y) (c + z) ≤ n3 a b c + n3 x y z := by
  apply n3_le_of_sq (add_nonneg (n3_nonneg _ _ _) (n3_nonneg _ _ _))
  have h1 := n3_sq a b c
  have h2 := n3_sq x y z
  have h3 := dot_le_n3 a b c x y z
  nlinarith

theorem n3_neg (x y z : ℝ) : n3 (-x) (-y) (-z) = n3 x y z := by unfold n3; congr 1; ring

theorem abs_le_n3_1 (x y z : ℝ) : |x| ≤ n3 x y z := by
  apply Real.abs_le_sqrt; nlinarith [mul_self_nonneg y, mul_self_nonneg z]
theorem abs_le_n3_2 (x y z : ℝ) : |y| ≤ n3 x y z := by
  apply Real.abs_le_sqrt; nlinarith [mul_self_nonneg x, mul_self_nonneg z]
theorem abs_le_n3_3 (x y z : ℝ) : |z| ≤ n3 x y z := by
  apply Real.abs_le_sqrt; nlinarith [mul_self_nonneg y, mul_self_nonneg x]

/-- Distance of two coordinate lists (2 or 3 coordinates) through the padded difference. -/
def d3 (a b : List ℝ) : ℝ := n3 (at' a 0 - at' b 0) (at' a 1 - at' b 1) (at' a 2 - at' b 2)

theorem d3_comm (a b : List ℝ) : d3 a b = d3 b a := by
  unfold d3; rw [← n3_neg]; congr 1 <;> ring

theorem d3_triangle (a b c : List ℝ) : d3 a c ≤ d3 a b + d3 b c := by
  unfold d3
  have := n3_add_le (at' a 0 - at' b 0) (at' a 1 - at' b 1) (at' a 2 - at' b 2) (at' b 0 - at' c 0) (at' b 1 - at' c 1)
    (at' b 2 - at' c 2)
  simpa using this

theorem d3_nonneg (a b : List ℝ) : 0 ≤ d3 a b := n3_nonneg _ _ _

theorem at'_of_ge {v : List ℝ} {i : Nat} (h : v.length ≤ i) : at' v i = 0 := by
  unfold at'; rw [List.getD_eq_getElem?_getD, List.getElem?_eq_none h]; rfl

theorem euclid_eq_d3 {a b : List ℝ} (ha : a.length = 2 ∨ a.length = 3) (hb : b.length = a.length) : euclid a b = d3 a b := by
  unfold euclid d3 n3
  congr 1
  rcases ha with h | h
  · have h1 := at'_of_ge (v := a) (i := 2) (by omega)
    have h2 := at'_of_ge (v := b) (i := 2) (by omega)
    rw [h, Finset.sum_range_succ, Finset.sum_range_succ, Finset.sum_range_zero, h1, h2]
    simp only [at']; ring
  · rw [h, Finset.sum_range_succ, Finset.sum_range_succ, Finset.sum_range_succ, Finset.sum_range_zero]
    simp only [at']; ring

theorem euclid_comm {a b : List ℝ} (ha : a.length = 2 ∨ a.length = 3) (hb : b.length = a.length) : euclid a b = euclid b a := by
  rw [euclid_eq_d3 ha hb, euclid_eq_d3 (by omega) hb.symm, d3_comm]

theorem pointPointDistance_eq {a b : List ℝ} (ha : a.length = 2 ∨ a.length = 3) (hb : b.length = a.length) :
    pointPointDistance a b = .ok (d3 a b) := by
  unfold pointPointDistance
  rw [if_neg (by omega), if_neg (by omega)]
  rcases ha with h | h
  · have h1 := at'_of_ge (v := a) (i := 2) (by omega)
    have h2 := at'_of_ge (v := b) (i := 2) (by omega)
    rw [if_pos h]; unfold d3 n3; rw [h1, h2]; congr 2; ring
  · rw [if_neg (by omega)]; unfold d3 n3; congr 2; ring

theorem length_linePoint {a b : List ℝ} (hb : b.length = a.length) (t : ℝ) : (linePoint a b t).length = a.length := by
  unfold linePoint; rw [List.length_zipWith]; omega

theorem at'_linePoint {a b : List ℝ} (hb : b.length = a.length) (t : ℝ) (i : Nat) :
    at' (linePoint a b t) i = at' a i + t * (at' b i - at' a i) := by
  by_cases h : i < a.length
  · have h2 : i < b.length := by omega
    simp [at', linePoint, h, h2]
  · rw [at'_of_ge (by rw [length_linePoint hb]; omega), at'_of_ge (v := a) (by omega), at'_of_ge (v := b) (by omega)]
    ring

/-- `n ⋅ n` of the axis. -/
def nn3 (a b : List ℝ) : ℝ :=
  (at' b 0 - at' a 0) * (at' b 0 - at' a 0) + (at' b 1 - at' a 1) * (at' b 1 - at' a 1) + (at' b 2 - at' a 2) * (at' b 2 - at' a 2)

theorem nn3_eq (a b : List ℝ) : nn3 a b = d3 a b * d3 a b := by unfold d3; rw [n3_sq]; unfold nn3; ring

/-- Parameter of the foot of the perpendicular. -/
def foot (a b c : List ℝ) : ℝ :=
  ((at' c 0 - at' a 0) * (at' b 0 - at' a 0) + (at' c 1 - at' a 1) * (at' b 1 - at' a 1) + (at' c 2 - at' a 2) * (at' b 2 - at' a 2)) / nn3 a b

theorem pointLineDistance_eq {a b c : List ℝ} (ha : a.length = 2 ∨ a.length = 3) (hb : b.length = a.length)
    (hc : c.length = a.length) :
    pointLineDistance a b c = if nn3 a b ≤ f64Epsilon then .err "a-to-b segment is too short"
      else .ok (d3 c (linePoint a b (foot a b c))) := by
  unfold pointLineDistance
  rw [if_neg (by omega), if_neg (by omega), if_neg (by omega)]
  rcases ha with h | h
  · have h1 := at'_of_ge (v := a) (i := 2) (by omega)
    have h2 := at'_of_ge (v := b) (i := 2) (by omega)
    have h3 := at'_of_ge (v := c) (i := 2) (by omega)
    rw [if_pos h]
    dsimp only
    have e : (at' b 0 - at' a 0) * (at' b 0 - at' a 0) + (at' b 1 - at' a 1) * (at' b 1 - at' a 1) = nn3 a b := by
      unfold nn3; rw [h1, h2]; ring
    rw [e]
    split
    · rfl
    · unfold d3 n3; rw [at'_linePoint hb, at'_linePoint hb, at'_linePoint hb, h1, h2, h3]
      unfold foot; rw [h1, h2, h3]; congr 2; ring
  · rw [if_neg (by omega)]
    dsimp only
    rw [show (at' b 0 - at' a 0) * (at' b 0 - at' a 0) + (at' b 1 - at' a 1) * (at' b 1 - at' a 1)
      + (at' b 2 - at' a 2) * (at' b 2 - at' a 2) = nn3 a b from rfl]
    split
    · rfl
    · unfold d3 n3; rw [at'_linePoint hb, at'_linePoint hb, at'_linePoint hb]
      unfold foot; congr 2; ring

theorem f64Epsilon_pos : 0 < f64Epsilon := by unfold f64Epsilon; positivity

/-- The foot of the perpendicular is the closest point of the line. -/
theorem foot_min {a b c : List ℝ} (hb : b.length = a.length) (hn : 0 < nn3 a b) (t : ℝ) :
    d3 c (linePoint a b (foot a b c)) ≤ d3 c (linePoint a b t) := by
  unfold d3
  apply n3_le_of_sq (n3_nonneg _ _ _)
  rw [n3_sq]
  simp only [at'_linePoint hb]
  have hs : foot a b c * nn3 a b = (at' c 0 - at' a 0) * (at' b 0 - at' a 0) + (at' c 1 - at' a 1) * (at' b 1 - at' a 1)
      + (at' c 2 - at' a 2) * (at' b 2 - at' a 2) := by
    unfold foot; exact div_mul_cancel₀ _ hn.ne'
  have hnn : nn3 a b = (at' b 0 - at' a 0) * (at' b 0 - at' a 0) + (at' b 1 - at' a 1) * (at' b 1 - at' a 1)
      + (at' b 2 - at' a 2) * (at' b 2 - at' a 2) := rfl
  generalize foot a b c = s at *
  have key : 0 ≤ nn3 a b * (t - s) ^ 2 := by positivity
  have e : nn3 a b * (t - s) ^ 2 = nn3 a b * t * t - 2 * t * (s * nn3 a b) + s * (s * nn3 a b) := by ring
  rw [e, hs, hnn] at key
  have hh : s * s * nn3 a b = s * (s * nn3 a b) := by ring
  rw [hs, hnn] at hh
  nlinarith [key, hh]

/-- `foot` is characterised by orthogonality. -/
theorem foot_orth {a b c : List ℝ} (hb : b.length = a.length) (hn : 0 < nn3 a b) :
    (at' c 0 - at' (linePoint a b (foot a b c)) 0) * (at' b 0 - at' a 0)
    + (at' c 1 - at' (linePoint a b (foot a b c)) 1) * (at' b 1 - at' a 1)
    + (at' c 2 - at' (linePoint a b (foot a b c)) 2) * (at' b 2 - at' a 2) = 0 := by
  simp only [at'_linePoint hb]
  have hs : foot a b c * nn3 a b = (at' c 0 - at' a 0) * (at' b 0 - at' a 0) + (at' c 1 - at' a 1) * (at' b 1 - at' a 1)
      + (at' c 2 - at' a 2) * (at' b 2 - at' a 2) := by
    unfold foot; exact div_mul_cancel₀ _ hn.ne'
  unfold nn3 at hs
  linarith

/-- Distance to the line is 1-Lipschitz. -/
theorem lineDist_lip {a b c c' : List ℝ} (hb : b.length = a.length) (hn : 0 < nn3 a b) :
    d3 c (linePoint a b (foot a b c)) ≤ d3 c c' + d3 c' (linePoint a b (foot a b c')) :=
  (foot_min hb hn _).trans (d3_triangle _ _ _)

end
end Gemlab
