import Verif.Props.RoundedTetrahedron
import Verif.Props.RoundedTriangle2

/-!
# C92 in double precision: the hypotheses are met; a lost corner and a lost point of a common face

`C92_corner_lost`: a corner of a tetrahedron is not found in the tetrahedron. `C92_face_lost`: a point in the middle of the common face of two tetrahedra is
found in neither of them. So the margins of `C92_inside` cannot be dropped, and the theorems C91_corner and C91_shared_edge have no counterpart in 3D.
-/
namespace Gemlab.Rounded
noncomputable section
open Gemlab.Spec

/-- Rounding to the nearest floating-point number. -/
theorem b64_round {x y : ℝ} (m n : ℕ) (hm : 2 ^ 52 < m ∧ m < 2 ^ 53) (h1 : (m : ℝ) - 1 / 2 < x * 2 ^ n) (h2 : x * 2 ^ n < m + 1 / 2) (hy : y = m / 2 ^ n) :
    binary64 x = y := by
  have hp : (0 : ℝ) < 2 ^ n := by positivity
  have k1 : (4503599627370496 : ℝ) + 1 ≤ m := by exact_mod_cast hm.1
  have k2 : (m : ℝ) + 1 ≤ 9007199254740992 := by exact_mod_cast hm.2
  have hx0 : 0 < x := by
    by_contra h
    push Not at h
    have := mul_nonpos_of_nonpos_of_nonneg h hp.le
    linarith
  have e : x = x * 2 ^ n * (2 : ℝ) ^ (-(n : ℤ)) := by rw [zpow_neg, zpow_natCast, mul_assoc, mul_inv_cancel₀ hp.ne', mul_one]
  have hlog : Int.log 2 x = 52 - n := by
    obtain ⟨a, b⟩ := pow_log hx0
    have c1 : (2 : ℝ) ^ (52 - n : ℤ) ≤ x := by
      rw [e, show (52 - n : ℤ) = 52 + -(n : ℤ) by ring, zpow_add₀ (by norm_num)]
      refine mul_le_mul_of_nonneg_right ?_ (two_pos' _).le
      norm_num; linarith
    have c2 : x < (2 : ℝ) ^ (53 - n : ℤ) := by
      rw [e, show (53 - n : ℤ) = 53 + -(n : ℤ) by ring, zpow_add₀ (by norm_num)]
      refine mul_lt_mul_of_pos_right ?_ (two_pos' _)
      norm_num; linarith
    have := (zpow_lt_zpow_iff_right₀ (by norm_num : (1 : ℝ) < 2)).1 (c1.trans_lt b)
    have := (zpow_lt_zpow_iff_right₀ (by norm_num : (1 : ℝ) < 2)).1 (a.trans_lt c2)
    omega
  unfold binary64 binary64Pos
  rw [if_pos hx0, hlog, show ((52 - n : ℤ) - 52) = -(n : ℤ) by ring, zpow_neg, zpow_natCast, div_inv_eq_mul]
  have r : roundEven (x * 2 ^ n) = m := by
    have h := abs_le.1 (roundEven_near (x * 2 ^ n))
    have l1 : ((m : ℤ) : ℝ) - 1 < roundEven (x * 2 ^ n) := by push_cast; linarith
    have l2 : (roundEven (x * 2 ^ n) : ℝ) < ((m : ℤ) : ℝ) + 1 := by push_cast; linarith
    have l1' : (m : ℤ) - 1 < roundEven (x * 2 ^ n) := by exact_mod_cast l1
    have l2' : roundEven (x * 2 ^ n) < (m : ℤ) + 1 := by exact_mod_cast l2
    omega
  rw [r, hy, div_eq_mul_inv]
  push_cast; rfl

theorem b64_round_neg {x y : ℝ} (m n : ℕ) (hm : 2 ^ 52 < m ∧ m < 2 ^ 53) (h1 : (m : ℝ) - 1 / 2 < -x * 2 ^ n) (h2 : -x * 2 ^ n < m + 1 / 2)
    (hy : y = -(m / 2 ^ n)) : binary64 x = y := by
  have := b64_round m n hm h1 h2 rfl
  rw [binary64_odd] at this
  rw [hy, ← this, neg_neg]

/-- The computed numerator of the third coordinate. -/
def num2 (fl : ℝ → ℝ) (a b d p : ℝ × ℝ × ℝ) : ℝ :=
  plane fl (dot3 fl a.1 (cross fl b.2.1 d.2.2 d.2.1 b.2.2) b.1 (cross fl d.2.1 a.2.2 a.2.1 d.2.2) d.1 (cross fl a.2.1 b.2.2 b.2.1 a.2.2))
      p.1 (cross fl (fl (b.2.1 - d.2.1)) (fl (a.2.2 - d.2.2)) (fl (a.2.1 - d.2.1)) (fl (b.2.2 - d.2.2)))
      p.2.1 (cross fl (fl (a.1 - d.1)) (fl (b.2.2 - d.2.2)) (fl (b.1 - d.1)) (fl (a.2.2 - d.2.2)))
      p.2.2 (cross fl (fl (b.1 - d.1)) (fl (a.2.1 - d.2.1)) (fl (a.1 - d.1)) (fl (b.2.1 - d.2.1)))

/-- The computed numerator of the fourth coordinate. -/
def num3 (fl : ℝ → ℝ) (a b c p : ℝ × ℝ × ℝ) : ℝ :=
  plane fl (dot3 fl a.1 (cross fl c.2.1 b.2.2 b.2.1 c.2.2) b.1 (cross fl a.2.1 c.2.2 c.2.1 a.2.2) c.1 (cross fl b.2.1 a.2.2 a.2.1 b.2.2))
      p.1 (cross fl (fl (a.2.1 - c.2.1)) (fl (b.2.2 - a.2.2)) (fl (a.2.1 - b.2.1)) (fl (c.2.2 - a.2.2)))
      p.2.1 (cross fl (fl (b.1 - a.1)) (fl (a.2.2 - c.2.2)) (fl (c.1 - a.1)) (fl (a.2.2 - b.2.2)))
      p.2.2 (cross fl (fl (a.1 - c.1)) (fl (b.2.1 - a.2.1)) (fl (a.1 - b.1)) (fl (c.2.1 - a.2.1)))

/-- The computed volume. -/
def volC (fl : ℝ → ℝ) (t : Corners4) : ℝ :=
  dot3 fl (fl ((t 1).1 - (t 0).1)) (cross fl (fl ((t 1).2.1 - (t 2).2.1)) (fl ((t 2).2.2 - (t 3).2.2)) (fl ((t 2).2.1 - (t 3).2.1)) (fl ((t 1).2.2 - (t 2).2.2)))
    (fl ((t 2).1 - (t 1).1)) (cross fl (fl ((t 2).2.1 - (t 3).2.1)) (fl ((t 0).2.2 - (t 1).2.2)) (fl ((t 0).2.1 - (t 1).2.1)) (fl ((t 2).2.2 - (t 3).2.2)))
    (fl ((t 3).1 - (t 2).1)) (cross fl (fl ((t 0).2.1 - (t 1).2.1)) (fl ((t 1).2.2 - (t 2).2.2)) (fl ((t 1).2.1 - (t 2).2.1)) (fl ((t 0).2.2 - (t 1).2.2)))

theorem zeta4_two (fl : ℝ → ℝ) (t : Corners4) (p : ℝ × ℝ × ℝ) : zeta4 fl t p 2 = fl (num2 fl (t 0) (t 1) (t 3) p / volC fl t) := rfl
theorem zeta4_three (fl : ℝ → ℝ) (t : Corners4) (p : ℝ × ℝ × ℝ) : zeta4 fl t p 3 = fl (num3 fl (t 0) (t 1) (t 2) p / volC fl t) := rfl

theorem volC_pos {M : ℝ} {t : Corners4} (hM : 0 < M) (ht : ∀ k, In3 M (t k)) (hv : 400 * ((2 : ℝ) ^ (-53 : ℤ) * M ^ 3) < vol6 t) : 0 < volC binary64 t := by
  obtain ⟨a1, a2, a3⟩ := ht 0
  obtain ⟨b1, b2, b3⟩ := ht 1
  obtain ⟨c1, c2, c3⟩ := ht 2
  obtain ⟨d1, d2, d3⟩ := ht 3
  have D := fun x y : ℝ => Ap.diff (x := x) (y := y) binary64_rounding hM
  have h := Ap.volume binary64_rounding hM (D _ _ b1 a1) (Ap.crossD binary64_rounding hM (D _ _ b2 c2) (D _ _ c3 d3) (D _ _ c2 d2) (D _ _ b3 c3))
    (D _ _ c1 b1) (Ap.crossD binary64_rounding hM (D _ _ c2 d2) (D _ _ a3 b3) (D _ _ a2 b2) (D _ _ c3 d3))
    (D _ _ d1 c1) (Ap.crossD binary64_rounding hM (D _ _ a2 b2) (D _ _ b3 c3) (D _ _ b2 c2) (D _ _ a3 b3))
  have h' : |volC binary64 t - vol6 t| ≤ 400 * ((2 : ℝ) ^ (-53 : ℤ) * M ^ 3) := near_of h (by unfold vol6 tetVol6; ring)
  have := (abs_le.1 h').1
  linarith

theorem lost_of {t : Corners4} {p : ℝ × ℝ × ℝ} {i : Fin 4} {n v : ℝ} (e : zeta4 binary64 t p i = binary64 (n / v)) (hn : n < 0) (hv : 0 < v) :
    found4 binary64 t p = false := by
  rw [← Bool.not_eq_true, found4_iff]
  intro h
  have h := h i
  have := binary64_rounding.pos (div_pos (neg_pos.2 hn) hv)
  rw [e] at h
  rw [neg_div, binary64_odd] at this
  linarith

theorem ex_corner : num2 binary64 ((1 / 4 : ℝ), (0 : ℝ), (1 : ℝ)) ((3152519739159347 / 4503599627370496 : ℝ), (0 : ℝ), (1 / 2 : ℝ)) ((1 / 2 : ℝ), (3 : ℝ), (0 : ℝ)) ((1 / 4 : ℝ), (0 : ℝ), (1 : ℝ)) = (-1 / 4503599627370496 : ℝ) := by
  have h0 : binary64 ((0 : ℝ) * (0 : ℝ)) = (0 : ℝ) := b64_exact (0) 0 (by norm_num) (by norm_num) (by norm_num)
  have h1 : binary64 ((3 : ℝ) * (1 / 2 : ℝ)) = (3 / 2 : ℝ) := b64_exact (3) 1 (by norm_num) (by norm_num) (by norm_num)
  have h2 : binary64 ((0 : ℝ) - (3 / 2 : ℝ)) = (-3 / 2 : ℝ) := b64_exact (-3) 1 (by norm_num) (by norm_num) (by norm_num)
  have h3 : binary64 ((3 : ℝ) * (1 : ℝ)) = (3 : ℝ) := b64_exact (3) 0 (by norm_num) (by norm_num) (by norm_num)
  have h4 : binary64 ((3 : ℝ) - (0 : ℝ)) = (3 : ℝ) := b64_exact (3) 0 (by norm_num) (by norm_num) (by norm_num)
  have h5 : binary64 ((0 : ℝ) * (1 / 2 : ℝ)) = (0 : ℝ) := b64_exact (0) 0 (by norm_num) (by norm_num) (by norm_num)
  have h6 : binary64 ((0 : ℝ) * (1 : ℝ)) = (0 : ℝ) := b64_exact (0) 0 (by norm_num) (by norm_num) (by norm_num)
  have h7 : binary64 ((0 : ℝ) - (0 : ℝ)) = (0 : ℝ) := b64_exact (0) 0 (by norm_num) (by norm_num) (by norm_num)
  have h8 : binary64 ((1 / 4 : ℝ) * (-3 / 2 : ℝ)) = (-3 / 8 : ℝ) := b64_exact (-3) 3 (by norm_num) (by norm_num) (by norm_num)
  have h9 : binary64 ((3152519739159347 / 4503599627370496 : ℝ) * (3 : ℝ)) = (1182194902184755 / 562949953421312 : ℝ) := b64_tie 4728779608739020 52 (by norm_num) (by norm_num) (by norm_num)
  have h10 : binary64 ((-3 / 8 : ℝ) + (1182194902184755 / 562949953421312 : ℝ)) = (971088669651763 / 562949953421312 : ℝ) := b64_exact (971088669651763) 49 (by norm_num) (by norm_num) (by norm_num)
  have h11 : binary64 ((1 / 2 : ℝ) * (0 : ℝ)) = (0 : ℝ) := b64_exact (0) 0 (by norm_num) (by norm_num) (by norm_num)
  have h12 : binary64 ((971088669651763 / 562949953421312 : ℝ) + (0 : ℝ)) = (971088669651763 / 562949953421312 : ℝ) := b64_exact (971088669651763) 49 (by norm_num) (by norm_num) (by norm_num)
  have h13 : binary64 ((0 : ℝ) - (3 : ℝ)) = (-3 : ℝ) := b64_exact (-3) 0 (by norm_num) (by norm_num) (by norm_num)
  have h14 : binary64 ((1 : ℝ) - (0 : ℝ)) = (1 : ℝ) := b64_exact (1) 0 (by norm_num) (by norm_num) (by norm_num)
  have h15 : binary64 ((1 / 2 : ℝ) - (0 : ℝ)) = (1 / 2 : ℝ) := b64_exact (1) 1 (by norm_num) (by norm_num) (by norm_num)
  have h16 : binary64 ((-3 : ℝ) * (1 : ℝ)) = (-3 : ℝ) := b64_exact (-3) 0 (by norm_num) (by norm_num) (by norm_num)
  have h17 : binary64 ((-3 : ℝ) * (1 / 2 : ℝ)) = (-3 / 2 : ℝ) := b64_exact (-3) 1 (by norm_num) (by norm_num) (by norm_num)
  have h18 : binary64 ((-3 : ℝ) - (-3 / 2 : ℝ)) = (-3 / 2 : ℝ) := b64_exact (-3) 1 (by norm_num) (by norm_num) (by norm_num)
  have h19 : binary64 ((1 / 4 : ℝ) - (1 / 2 : ℝ)) = (-1 / 4 : ℝ) := b64_exact (-1) 2 (by norm_num) (by norm_num) (by norm_num)
  have h20 : binary64 ((3152519739159347 / 4503599627370496 : ℝ) - (1 / 2 : ℝ)) = (900719925474099 / 4503599627370496 : ℝ) := b64_exact (900719925474099) 52 (by norm_num) (by norm_num) (by norm_num)
  have h21 : binary64 ((-1 / 4 : ℝ) * (1 / 2 : ℝ)) = (-1 / 8 : ℝ) := b64_exact (-1) 3 (by norm_num) (by norm_num) (by norm_num)
  have h22 : binary64 ((900719925474099 / 4503599627370496 : ℝ) * (1 : ℝ)) = (900719925474099 / 4503599627370496 : ℝ) := b64_exact (900719925474099) 52 (by norm_num) (by norm_num) (by norm_num)
  have h23 : binary64 ((-1 / 8 : ℝ) - (900719925474099 / 4503599627370496 : ℝ)) = (-1463669878895411 / 4503599627370496 : ℝ) := b64_exact (-1463669878895411) 52 (by norm_num) (by norm_num) (by norm_num)
  have h24 : binary64 ((900719925474099 / 4503599627370496 : ℝ) * (-3 : ℝ)) = (-2702159776422297 / 4503599627370496 : ℝ) := b64_exact (-2702159776422297) 52 (by norm_num) (by norm_num) (by norm_num)
  have h25 : binary64 ((-1 / 4 : ℝ) * (-3 : ℝ)) = (3 / 4 : ℝ) := b64_exact (3) 2 (by norm_num) (by norm_num) (by norm_num)
  have h26 : binary64 ((-2702159776422297 / 4503599627370496 : ℝ) - (3 / 4 : ℝ)) = (-6079859496950169 / 4503599627370496 : ℝ) := b64_exact (-6079859496950169) 52 (by norm_num) (by norm_num) (by norm_num)
  have h27 : binary64 ((971088669651763 / 562949953421312 : ℝ) + (-3 / 8 : ℝ)) = (759982437118771 / 562949953421312 : ℝ) := b64_exact (759982437118771) 49 (by norm_num) (by norm_num) (by norm_num)
  have h28 : binary64 ((0 : ℝ) * (-1463669878895411 / 4503599627370496 : ℝ)) = (0 : ℝ) := b64_exact (0) 0 (by norm_num) (by norm_num) (by norm_num)
  have h29 : binary64 ((759982437118771 / 562949953421312 : ℝ) + (0 : ℝ)) = (759982437118771 / 562949953421312 : ℝ) := b64_exact (759982437118771) 49 (by norm_num) (by norm_num) (by norm_num)
  have h30 : binary64 ((1 : ℝ) * (-6079859496950169 / 4503599627370496 : ℝ)) = (-6079859496950169 / 4503599627370496 : ℝ) := b64_exact (-6079859496950169) 52 (by norm_num) (by norm_num) (by norm_num)
  have h31 : binary64 ((759982437118771 / 562949953421312 : ℝ) + (-6079859496950169 / 4503599627370496 : ℝ)) = (-1 / 4503599627370496 : ℝ) := b64_exact (-1) 52 (by norm_num) (by norm_num) (by norm_num)
  simp only [num2, plane, dot3, cross, h0, h1, h2, h3, h4, h5, h6, h7, h8, h9, h10, h11, h12, h13, h14, h15, h16, h17, h18, h19, h20, h21, h22, h23, h24, h25, h26, h27, h28, h29, h30, h31]

theorem ex_face1 : num3 binary64 ((2 : ℝ), (1 : ℝ), (2 : ℝ)) ((1 / 2 : ℝ), (2 : ℝ), (2 : ℝ)) ((3152519739159347 / 4503599627370496 : ℝ), (2 : ℝ), (1 : ℝ)) ((7093169413108531 / 9007199254740992 : ℝ), (15 / 8 : ℝ), (3 / 2 : ℝ)) = (-1 / 9007199254740992 : ℝ) := by
  have h0 : binary64 ((2 : ℝ) * (2 : ℝ)) = (4 : ℝ) := b64_exact (4) 0 (by norm_num) (by norm_num) (by norm_num)
  have h1 : binary64 ((2 : ℝ) * (1 : ℝ)) = (2 : ℝ) := b64_exact (2) 0 (by norm_num) (by norm_num) (by norm_num)
  have h2 : binary64 ((4 : ℝ) - (2 : ℝ)) = (2 : ℝ) := b64_exact (2) 0 (by norm_num) (by norm_num) (by norm_num)
  have h3 : binary64 ((1 : ℝ) * (1 : ℝ)) = (1 : ℝ) := b64_exact (1) 0 (by norm_num) (by norm_num) (by norm_num)
  have h4 : binary64 ((1 : ℝ) - (4 : ℝ)) = (-3 : ℝ) := b64_exact (-3) 0 (by norm_num) (by norm_num) (by norm_num)
  have h5 : binary64 ((1 : ℝ) * (2 : ℝ)) = (2 : ℝ) := b64_exact (2) 0 (by norm_num) (by norm_num) (by norm_num)
  have h6 : binary64 ((1 / 2 : ℝ) * (-3 : ℝ)) = (-3 / 2 : ℝ) := b64_exact (-3) 1 (by norm_num) (by norm_num) (by norm_num)
  have h7 : binary64 ((4 : ℝ) + (-3 / 2 : ℝ)) = (5 / 2 : ℝ) := b64_exact (5) 1 (by norm_num) (by norm_num) (by norm_num)
  have h8 : binary64 ((3152519739159347 / 4503599627370496 : ℝ) * (2 : ℝ)) = (3152519739159347 / 2251799813685248 : ℝ) := b64_exact (3152519739159347) 51 (by norm_num) (by norm_num) (by norm_num)
  have h9 : binary64 ((5 / 2 : ℝ) + (3152519739159347 / 2251799813685248 : ℝ)) = (8782019273372467 / 2251799813685248 : ℝ) := b64_exact (8782019273372467) 51 (by norm_num) (by norm_num) (by norm_num)
  have h10 : binary64 ((1 : ℝ) - (2 : ℝ)) = (-1 : ℝ) := b64_exact (-1) 0 (by norm_num) (by norm_num) (by norm_num)
  have h11 : binary64 ((2 : ℝ) - (2 : ℝ)) = (0 : ℝ) := b64_exact (0) 0 (by norm_num) (by norm_num) (by norm_num)
  have h12 : binary64 ((-1 : ℝ) * (0 : ℝ)) = (0 : ℝ) := b64_exact (0) 0 (by norm_num) (by norm_num) (by norm_num)
  have h13 : binary64 ((-1 : ℝ) * (-1 : ℝ)) = (1 : ℝ) := b64_exact (1) 0 (by norm_num) (by norm_num) (by norm_num)
  have h14 : binary64 ((0 : ℝ) - (1 : ℝ)) = (-1 : ℝ) := b64_exact (-1) 0 (by norm_num) (by norm_num) (by norm_num)
  have h15 : binary64 ((1 / 2 : ℝ) - (2 : ℝ)) = (-3 / 2 : ℝ) := b64_exact (-3) 1 (by norm_num) (by norm_num) (by norm_num)
  have h16 : binary64 ((2 : ℝ) - (1 : ℝ)) = (1 : ℝ) := b64_exact (1) 0 (by norm_num) (by norm_num) (by norm_num)
  have h17 : binary64 ((3152519739159347 / 4503599627370496 : ℝ) - (2 : ℝ)) = (-5854679515581645 / 4503599627370496 : ℝ) := b64_exact (-5854679515581645) 52 (by norm_num) (by norm_num) (by norm_num)
  have h18 : binary64 ((-3 / 2 : ℝ) * (1 : ℝ)) = (-3 / 2 : ℝ) := b64_exact (-3) 1 (by norm_num) (by norm_num) (by norm_num)
  have h19 : binary64 ((-5854679515581645 / 4503599627370496 : ℝ) * (0 : ℝ)) = (0 : ℝ) := b64_exact (0) 0 (by norm_num) (by norm_num) (by norm_num)
  have h20 : binary64 ((-3 / 2 : ℝ) - (0 : ℝ)) = (-3 / 2 : ℝ) := b64_exact (-3) 1 (by norm_num) (by norm_num) (by norm_num)
  have h21 : binary64 ((2 : ℝ) - (3152519739159347 / 4503599627370496 : ℝ)) = (5854679515581645 / 4503599627370496 : ℝ) := b64_exact (5854679515581645) 52 (by norm_num) (by norm_num) (by norm_num)
  have h22 : binary64 ((2 : ℝ) - (1 / 2 : ℝ)) = (3 / 2 : ℝ) := b64_exact (3) 1 (by norm_num) (by norm_num) (by norm_num)
  have h23 : binary64 ((5854679515581645 / 4503599627370496 : ℝ) * (1 : ℝ)) = (5854679515581645 / 4503599627370496 : ℝ) := b64_exact (5854679515581645) 52 (by norm_num) (by norm_num) (by norm_num)
  have h24 : binary64 ((3 / 2 : ℝ) * (1 : ℝ)) = (3 / 2 : ℝ) := b64_exact (3) 1 (by norm_num) (by norm_num) (by norm_num)
  have h25 : binary64 ((5854679515581645 / 4503599627370496 : ℝ) - (3 / 2 : ℝ)) = (-900719925474099 / 4503599627370496 : ℝ) := b64_exact (-900719925474099) 52 (by norm_num) (by norm_num) (by norm_num)
  have h26 : binary64 ((7093169413108531 / 9007199254740992 : ℝ) * (-1 : ℝ)) = (-7093169413108531 / 9007199254740992 : ℝ) := b64_exact (-7093169413108531) 53 (by norm_num) (by norm_num) (by norm_num)
  have h27 : binary64 ((8782019273372467 / 2251799813685248 : ℝ) + (-7093169413108531 / 9007199254740992 : ℝ)) = (3504363460047667 / 1125899906842624 : ℝ) := b64_round 7008726920095334 51 (by norm_num) (by norm_num) (by norm_num) (by norm_num)
  have h28 : binary64 ((15 / 8 : ℝ) * (-3 / 2 : ℝ)) = (-45 / 16 : ℝ) := b64_exact (-45) 4 (by norm_num) (by norm_num) (by norm_num)
  have h29 : binary64 ((3504363460047667 / 1125899906842624 : ℝ) + (-45 / 16 : ℝ)) = (337769972052787 / 1125899906842624 : ℝ) := b64_exact (337769972052787) 50 (by norm_num) (by norm_num) (by norm_num)
  have h30 : binary64 ((3 / 2 : ℝ) * (-900719925474099 / 4503599627370496 : ℝ)) = (-2702159776422297 / 9007199254740992 : ℝ) := b64_exact (-2702159776422297) 53 (by norm_num) (by norm_num) (by norm_num)
  have h31 : binary64 ((337769972052787 / 1125899906842624 : ℝ) + (-2702159776422297 / 9007199254740992 : ℝ)) = (-1 / 9007199254740992 : ℝ) := b64_exact (-1) 53 (by norm_num) (by norm_num) (by norm_num)
  simp only [num3, plane, dot3, cross, h0, h1, h2, h3, h4, h5, h6, h7, h8, h9, h10, h11, h12, h13, h14, h15, h16, h17, h18, h19, h20, h21, h22, h23, h24, h25, h26, h27, h28, h29, h30, h31]

theorem ex_face2 : num3 binary64 ((2 : ℝ), (1 : ℝ), (2 : ℝ)) ((3152519739159347 / 4503599627370496 : ℝ), (2 : ℝ), (1 : ℝ)) ((1 / 2 : ℝ), (2 : ℝ), (2 : ℝ)) ((7093169413108531 / 9007199254740992 : ℝ), (15 / 8 : ℝ), (3 / 2 : ℝ)) = (-3 / 9007199254740992 : ℝ) := by
  have h0 : binary64 ((2 : ℝ) * (1 : ℝ)) = (2 : ℝ) := b64_exact (2) 0 (by norm_num) (by norm_num) (by norm_num)
  have h1 : binary64 ((2 : ℝ) * (2 : ℝ)) = (4 : ℝ) := b64_exact (4) 0 (by norm_num) (by norm_num) (by norm_num)
  have h2 : binary64 ((2 : ℝ) - (4 : ℝ)) = (-2 : ℝ) := b64_exact (-2) 0 (by norm_num) (by norm_num) (by norm_num)
  have h3 : binary64 ((1 : ℝ) * (2 : ℝ)) = (2 : ℝ) := b64_exact (2) 0 (by norm_num) (by norm_num) (by norm_num)
  have h4 : binary64 ((1 : ℝ) * (1 : ℝ)) = (1 : ℝ) := b64_exact (1) 0 (by norm_num) (by norm_num) (by norm_num)
  have h5 : binary64 ((4 : ℝ) - (1 : ℝ)) = (3 : ℝ) := b64_exact (3) 0 (by norm_num) (by norm_num) (by norm_num)
  have h6 : binary64 ((2 : ℝ) * (-2 : ℝ)) = (-4 : ℝ) := b64_exact (-4) 0 (by norm_num) (by norm_num) (by norm_num)
  have h7 : binary64 ((3152519739159347 / 4503599627370496 : ℝ) * (-2 : ℝ)) = (-3152519739159347 / 2251799813685248 : ℝ) := b64_exact (-3152519739159347) 51 (by norm_num) (by norm_num) (by norm_num)
  have h8 : binary64 ((-4 : ℝ) + (-3152519739159347 / 2251799813685248 : ℝ)) = (-3039929748475085 / 562949953421312 : ℝ) := b64_tie_neg 6079859496950169 51 (by norm_num) (by norm_num) (by norm_num)
  have h9 : binary64 ((1 / 2 : ℝ) * (3 : ℝ)) = (3 / 2 : ℝ) := b64_exact (3) 1 (by norm_num) (by norm_num) (by norm_num)
  have h10 : binary64 ((-3039929748475085 / 562949953421312 : ℝ) + (3 / 2 : ℝ)) = (-2195504818343117 / 562949953421312 : ℝ) := b64_exact (-2195504818343117) 49 (by norm_num) (by norm_num) (by norm_num)
  have h11 : binary64 ((1 : ℝ) - (2 : ℝ)) = (-1 : ℝ) := b64_exact (-1) 0 (by norm_num) (by norm_num) (by norm_num)
  have h12 : binary64 ((2 : ℝ) - (2 : ℝ)) = (0 : ℝ) := b64_exact (0) 0 (by norm_num) (by norm_num) (by norm_num)
  have h13 : binary64 ((-1 : ℝ) * (-1 : ℝ)) = (1 : ℝ) := b64_exact (1) 0 (by norm_num) (by norm_num) (by norm_num)
  have h14 : binary64 ((-1 : ℝ) * (0 : ℝ)) = (0 : ℝ) := b64_exact (0) 0 (by norm_num) (by norm_num) (by norm_num)
  have h15 : binary64 ((1 : ℝ) - (0 : ℝ)) = (1 : ℝ) := b64_exact (1) 0 (by norm_num) (by norm_num) (by norm_num)
  have h16 : binary64 ((3152519739159347 / 4503599627370496 : ℝ) - (2 : ℝ)) = (-5854679515581645 / 4503599627370496 : ℝ) := b64_exact (-5854679515581645) 52 (by norm_num) (by norm_num) (by norm_num)
  have h17 : binary64 ((1 / 2 : ℝ) - (2 : ℝ)) = (-3 / 2 : ℝ) := b64_exact (-3) 1 (by norm_num) (by norm_num) (by norm_num)
  have h18 : binary64 ((2 : ℝ) - (1 : ℝ)) = (1 : ℝ) := b64_exact (1) 0 (by norm_num) (by norm_num) (by norm_num)
  have h19 : binary64 ((-5854679515581645 / 4503599627370496 : ℝ) * (0 : ℝ)) = (0 : ℝ) := b64_exact (0) 0 (by norm_num) (by norm_num) (by norm_num)
  have h20 : binary64 ((-3 / 2 : ℝ) * (1 : ℝ)) = (-3 / 2 : ℝ) := b64_exact (-3) 1 (by norm_num) (by norm_num) (by norm_num)
  have h21 : binary64 ((0 : ℝ) - (-3 / 2 : ℝ)) = (3 / 2 : ℝ) := b64_exact (3) 1 (by norm_num) (by norm_num) (by norm_num)
  have h22 : binary64 ((2 : ℝ) - (1 / 2 : ℝ)) = (3 / 2 : ℝ) := b64_exact (3) 1 (by norm_num) (by norm_num) (by norm_num)
  have h23 : binary64 ((2 : ℝ) - (3152519739159347 / 4503599627370496 : ℝ)) = (5854679515581645 / 4503599627370496 : ℝ) := b64_exact (5854679515581645) 52 (by norm_num) (by norm_num) (by norm_num)
  have h24 : binary64 ((3 / 2 : ℝ) * (1 : ℝ)) = (3 / 2 : ℝ) := b64_exact (3) 1 (by norm_num) (by norm_num) (by norm_num)
  have h25 : binary64 ((5854679515581645 / 4503599627370496 : ℝ) * (1 : ℝ)) = (5854679515581645 / 4503599627370496 : ℝ) := b64_exact (5854679515581645) 52 (by norm_num) (by norm_num) (by norm_num)
  have h26 : binary64 ((3 / 2 : ℝ) - (5854679515581645 / 4503599627370496 : ℝ)) = (900719925474099 / 4503599627370496 : ℝ) := b64_exact (900719925474099) 52 (by norm_num) (by norm_num) (by norm_num)
  have h27 : binary64 ((7093169413108531 / 9007199254740992 : ℝ) * (1 : ℝ)) = (7093169413108531 / 9007199254740992 : ℝ) := b64_exact (7093169413108531) 53 (by norm_num) (by norm_num) (by norm_num)
  have h28 : binary64 ((-2195504818343117 / 562949953421312 : ℝ) + (7093169413108531 / 9007199254740992 : ℝ)) = (-7008726920095335 / 2251799813685248 : ℝ) := b64_round_neg 7008726920095335 51 (by norm_num) (by norm_num) (by norm_num) (by norm_num)
  have h29 : binary64 ((15 / 8 : ℝ) * (3 / 2 : ℝ)) = (45 / 16 : ℝ) := b64_exact (45) 4 (by norm_num) (by norm_num) (by norm_num)
  have h30 : binary64 ((-7008726920095335 / 2251799813685248 : ℝ) + (45 / 16 : ℝ)) = (-675539944105575 / 2251799813685248 : ℝ) := b64_exact (-675539944105575) 51 (by norm_num) (by norm_num) (by norm_num)
  have h31 : binary64 ((3 / 2 : ℝ) * (900719925474099 / 4503599627370496 : ℝ)) = (2702159776422297 / 9007199254740992 : ℝ) := b64_exact (2702159776422297) 53 (by norm_num) (by norm_num) (by norm_num)
  have h32 : binary64 ((-675539944105575 / 2251799813685248 : ℝ) + (2702159776422297 / 9007199254740992 : ℝ)) = (-3 / 9007199254740992 : ℝ) := b64_exact (-3) 53 (by norm_num) (by norm_num) (by norm_num)
  simp only [num3, plane, dot3, cross, h0, h1, h2, h3, h4, h5, h6, h7, h8, h9, h10, h11, h12, h13, h14, h15, h16, h17, h18, h19, h20, h21, h22, h23, h24, h25, h26, h27, h28, h29, h30, h31, h32]

/-- The tetrahedron of the first example: the second corner has the floating-point number next to 0.7 as its first coordinate. -/
def exT : Corners4 := ![(1 / 4, 0, 1), (3152519739159347 / 4503599627370496, 0, 1 / 2), (1 / 2, 0, 0), (1 / 2, 3, 0)]

theorem exT_in : ∀ k, In3 3 (exT k) := by
  rw [forall_fin4]
  refine ⟨?_, ?_, ?_, ?_⟩ <;> refine ⟨?_, ?_, ?_⟩ <;> simp only [exT, Matrix.cons_val] <;> rw [abs_le] <;> norm_num

theorem exT_vol : vol6 exT = 4391009636686233 / 4503599627370496 := by
  simp only [vol6, exT, Matrix.cons_val, tetVol6]; norm_num

/-- In double precision, a corner of a tetrahedron may not be found in the tetrahedron (its volume is about 0.16). -/
theorem C92_corner_lost : found4 binary64 exT (exT 0) = false ∧ found4 id exT (exT 0) = true ∧ 0.97 < vol6 exT := by
  refine ⟨?_, ?_, ?_⟩
  · have h : num2 binary64 (exT 0) (exT 1) (exT 3) (exT 0) < 0 := by
      refine lt_of_eq_of_lt (Eq.trans ?_ ex_corner) (by norm_num)
      simp only [exT, Matrix.cons_val]
    exact lost_of (zeta4_two _ _ _) h (volC_pos (M := 3) (by norm_num) exT_in (by rw [exT_vol]; norm_num))
  · rw [found4_iff, forall_fin4]
    refine ⟨?_, ?_, ?_, ?_⟩ <;> simp only [zeta4, tetrahedronCoords, plane, dot3, cross, id, exT, Matrix.cons_val] <;> norm_num
  · rw [exT_vol]; norm_num

/-- The tetrahedra of the second example on both sides of a common face. -/
def exF₁ : Corners4 := ![(2, 1, 2), (1 / 2, 2, 2), (3152519739159347 / 4503599627370496, 2, 1), (0, 0, 0)]
def exF₂ : Corners4 := ![(2, 1, 2), (3152519739159347 / 4503599627370496, 2, 1), (1 / 2, 2, 2), (2, 2, 2)]

/-- A point in the middle of the face. -/
def exFP : ℝ × ℝ × ℝ := (7093169413108531 / 9007199254740992, 15 / 8, 3 / 2)

theorem exF₁_in : ∀ k, In3 2 (exF₁ k) := by
  rw [forall_fin4]
  refine ⟨?_, ?_, ?_, ?_⟩ <;> refine ⟨?_, ?_, ?_⟩ <;> simp only [exF₁, Matrix.cons_val] <;> rw [abs_le] <;> norm_num

theorem exF₂_in : ∀ k, In3 2 (exF₂ k) := by
  rw [forall_fin4]
  refine ⟨?_, ?_, ?_, ?_⟩ <;> refine ⟨?_, ?_, ?_⟩ <;> simp only [exF₂, Matrix.cons_val] <;> rw [abs_le] <;> norm_num

/-- In double precision, a point of the common face of two tetrahedra may be found in neither of them: it is the combination of the corners of the face with the
weights 1/8, 3/8 and 1/2. -/
theorem C92_face_lost : found4 binary64 exF₁ exFP = false ∧ found4 binary64 exF₂ exFP = false ∧
    exFP = (1 / 8 : ℝ) • exF₁ 0 + (3 / 8 : ℝ) • exF₁ 1 + (1 / 2 : ℝ) • exF₁ 2 ∧
    exF₂ 0 = exF₁ 0 ∧ exF₂ 1 = exF₁ 2 ∧ exF₂ 2 = exF₁ 1 ∧ 1 < vol6 exF₁ ∧ 1 < vol6 exF₂ := by
  have v1 : 1 < vol6 exF₁ := by simp only [vol6, exF₁, Matrix.cons_val, tetVol6]; norm_num
  have v2 : 1 < vol6 exF₂ := by simp only [vol6, exF₂, Matrix.cons_val, tetVol6]; norm_num
  refine ⟨?_, ?_, ?_, rfl, rfl, rfl, v1, v2⟩
  · have h : num3 binary64 (exF₁ 0) (exF₁ 1) (exF₁ 2) exFP < 0 := by
      refine lt_of_eq_of_lt (Eq.trans ?_ ex_face1) (by norm_num)
      simp only [exF₁, exFP, Matrix.cons_val]
    exact lost_of (zeta4_three _ _ _) h (volC_pos (M := 2) (by norm_num) exF₁_in (lt_of_le_of_lt (by norm_num) v1))
  · have h : num3 binary64 (exF₂ 0) (exF₂ 1) (exF₂ 2) exFP < 0 := by
      refine lt_of_eq_of_lt (Eq.trans ?_ ex_face2) (by norm_num)
      simp only [exF₂, exFP, Matrix.cons_val]
    exact lost_of (zeta4_three _ _ _) h (volC_pos (M := 2) (by norm_num) exF₂_in (lt_of_le_of_lt (by norm_num) v2))
  · simp only [exF₁, exFP, Matrix.cons_val, Prod.smul_mk, Prod.mk_add_mk, smul_eq_mul, Prod.mk.injEq]; norm_num

theorem update4 (t : Corners4) (p : ℝ × ℝ × ℝ) : vol6 (Function.update t 0 p) = tetVol6 p (t 1) (t 2) (t 3) ∧ vol6 (Function.update t 1 p) = tetVol6 (t 0) p (t 2) (t 3) ∧
    vol6 (Function.update t 2 p) = tetVol6 (t 0) (t 1) p (t 3) ∧ vol6 (Function.update t 3 p) = tetVol6 (t 0) (t 1) (t 2) p := ⟨rfl, rfl, rfl, rfl⟩

/-- The hypotheses of `C92_inside` and `C92_outside` are met. -/
theorem C92_example : found4 binary64 exT (1 / 2, 3 / 4, 3 / 8) = true ∧ found4 binary64 exT (1 / 2, 3, 1) = false := by
  have hs : SignType.sign (vol6 exT) = 1 := sign_pos (by rw [exT_vol]; norm_num)
  have hv : 400 * ((2 : ℝ) ^ (-53 : ℤ) * 3 ^ 3) < |vol6 exT| := by rw [exT_vol]; norm_num [abs_of_pos]
  constructor
  · refine C92_inside binary64_rounding (M := 3) (by norm_num) exT_in hv ?_ ?_
    · refine ⟨?_, ?_, ?_⟩ <;> rw [abs_le] <;> norm_num
    · rw [forall_fin4]
      simp only [depth4, hs, update4]
      refine ⟨?_, ?_, ?_, ?_⟩ <;> simp only [exT, Matrix.cons_val, tetVol6] <;> norm_num
  · refine C92_outside binary64_rounding (M := 3) (by norm_num) exT_in hv ?_ (i := 2) ?_
    · refine ⟨?_, ?_, ?_⟩ <;> rw [abs_le] <;> norm_num
    · simp only [depth4, hs, update4]
      simp only [exT, Matrix.cons_val, tetVol6]; norm_num

end
end Gemlab.Rounded
