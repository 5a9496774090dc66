import Verif.Props.RoundedTriangle
import Mathlib.Tactic.IntervalCases

/-!
# C91 in double precision: the hypotheses are met, and a gap near an inner point

`C91_gap`: a point one unit in the last place below the common corner of three triangles is found in none of the three, although it is in the interior of
their union. So the condition of `C91_fan` that the point is not too near to the corner cannot be dropped.
-/
namespace Gemlab.Rounded
noncomputable section
open Gemlab.Spec

/-- Double precision treats both signs alike. -/
theorem binary64_odd (x : ℝ) : binary64 (-x) = -binary64 x := by
  unfold binary64
  rcases lt_trichotomy x 0 with h | h | h
  · rw [if_pos (by linarith : 0 < -x), if_neg (by linarith : ¬ 0 < x), if_pos h, neg_neg]
  · subst h; simp
  · rw [if_neg (by linarith : ¬ 0 < -x), if_pos (by linarith : -x < 0), if_pos h, neg_neg]

theorem b64_exact {x y : ℝ} (k : ℤ) (n : ℕ) (hk : k.natAbs ≤ 2 ^ 53) (hx : x = k / 2 ^ n) (hy : y = k / 2 ^ n) : binary64 x = y := by
  rw [hx, hy]
  have := binary64_dyadic k.natAbs (-n) hk
  unfold IsFloat at this
  rw [zpow_neg, zpow_natCast, ← div_eq_mul_inv] at this
  rcases le_total 0 k with h | h
  · have e : ((k.natAbs : ℕ) : ℝ) = k := by rw [Nat.cast_natAbs, abs_of_nonneg h]
    rwa [e] at this
  · have e : ((k.natAbs : ℕ) : ℝ) = -k := by rw [Nat.cast_natAbs, abs_of_nonpos h]; push_cast; rfl
    rw [e, neg_div, binary64_odd] at this
    exact neg_injective this

/-- A tie goes to the even neighbour. -/
theorem b64_tie {x y : ℝ} (m n : ℕ) (hm : 2 ^ 52 ≤ m ∧ m < 2 ^ 53) (hx : x = (2 * m + 1) / 2 ^ n) (hy : y = 2 * (if m % 2 = 0 then m else m + 1) / 2 ^ n) :
    binary64 x = y := by
  have hp : (0 : ℝ) < 2 ^ n := by positivity
  have h1 : (2 : ℝ) ^ (52 : ℤ) ≤ m := by exact_mod_cast hm.1
  have h2 : (m : ℝ) + 1 ≤ (2 : ℝ) ^ (53 : ℤ) := by exact_mod_cast hm.2
  have hx0 : 0 < x := by rw [hx]; positivity
  have hlog : Int.log 2 x = 53 - n := by
    obtain ⟨a, b⟩ := pow_log hx0
    have e : x = (2 * m + 1) * (2 : ℝ) ^ (-(n : ℤ)) := by rw [hx, zpow_neg, zpow_natCast, div_eq_mul_inv]
    have c1 : (2 : ℝ) ^ (53 - n : ℤ) ≤ x := by
      rw [e, show (53 - n : ℤ) = 53 + -(n : ℤ) by ring, zpow_add₀ (by norm_num)]
      refine mul_le_mul_of_nonneg_right ?_ (two_pos' _).le
      rw [show (53 : ℤ) = 52 + 1 by norm_num, zpow_add₀ (by norm_num)]
      have h1 : (4503599627370496 : ℝ) ≤ m := by exact_mod_cast hm.1
      norm_num; linarith
    have c2 : x < (2 : ℝ) ^ (54 - n : ℤ) := by
      rw [e, show (54 - n : ℤ) = 54 + -(n : ℤ) by ring, zpow_add₀ (by norm_num)]
      refine mul_lt_mul_of_pos_right ?_ (two_pos' _)
      rw [show (54 : ℤ) = 53 + 1 by norm_num, zpow_add₀ (by norm_num)]; norm_num at h2 ⊢; linarith
    have := (zpow_lt_zpow_iff_right₀ (by norm_num : (1 : ℝ) < 2)).1 (c1.trans_lt b)
    have := (zpow_lt_zpow_iff_right₀ (by norm_num : (1 : ℝ) < 2)).1 (a.trans_lt c2)
    omega
  unfold binary64 binary64Pos
  rw [if_pos hx0, hlog]
  have e : (2 : ℝ) ^ ((53 - n : ℤ) - 52) = 2 / 2 ^ n := by
    rw [show ((53 - n : ℤ) - 52) = 1 + -(n : ℤ) by ring, zpow_add₀ (by norm_num), zpow_neg, zpow_natCast]; norm_num; rfl
  have q : x / (2 / 2 ^ n) = m + 1 / 2 := by rw [hx]; field_simp
  rw [e, q]
  have fl' : ⌊(m : ℝ) + 1 / 2⌋ = m := by rw [Int.floor_eq_iff]; constructor <;> push_cast <;> linarith
  have r : roundEven ((m : ℝ) + 1 / 2) = (if m % 2 = 0 then m else m + 1 : ℕ) := by
    unfold roundEven
    rw [fl', if_neg (by push_cast; linarith), if_neg (by push_cast; linarith)]
    by_cases h : m % 2 = 0
    · rw [if_pos h, if_pos (by rw [Int.even_coe_nat, Nat.even_iff]; exact h)]
    · rw [if_neg h, if_neg (by rw [Int.even_coe_nat, Nat.even_iff]; exact h)]; push_cast; ring
  rw [r, hy]
  push_cast
  ring

theorem b64_tie_neg {x y : ℝ} (m n : ℕ) (hm : 2 ^ 52 ≤ m ∧ m < 2 ^ 53) (hx : x = -((2 * m + 1) / 2 ^ n))
    (hy : y = -(2 * (if m % 2 = 0 then m else m + 1) / 2 ^ n)) : binary64 x = y := by
  rw [hx, hy, binary64_odd, b64_tie m n hm rfl rfl]

theorem side3_eval {fl : ℝ → ℝ} {a b c : ℝ × ℝ} {d1 m1 d2 m2 s d3 m3 r : ℝ} (h1 : fl (b.2 - c.2) = d1) (h2 : fl (a.1 * d1) = m1) (h3 : fl (c.2 - a.2) = d2)
    (h4 : fl (b.1 * d2) = m2) (h5 : fl (m1 + m2) = s) (h6 : fl (a.2 - b.2) = d3) (h7 : fl (c.1 * d3) = m3) (h8 : fl (s + m3) = r) :
    side3 fl a b c = r := by
  unfold side3; rw [h1, h2, h3, h4, h5, h6, h7, h8]

/-- The common corner. -/
def exV : ℝ × ℝ := (3 / 2, 5 / 4)

/-- The other corners, counter-clockwise. -/
def exR : ℕ → ℝ × ℝ
  | 0 => (1, 1)
  | 1 => (7 / 4, 1 / 2)
  | 2 => (7 / 4, 2)
  | _ => (1, 1)

/-- The point one unit in the last place below the corner. -/
def exP : ℝ × ℝ := (3 / 2, 5 / 4 - 1 / 2 ^ 52)

theorem ex_area0 : side3 binary64 exV (exR 0) (exR 1) = (7 / 16) :=
  side3_eval (d1 := (1 / 2)) (m1 := (3 / 4)) (d2 := (-3 / 4)) (m2 := (-3 / 4)) (s := (0)) (d3 := (1 / 4)) (m3 := (7 / 16))
    (b64_exact (1) 1 (by norm_num) (by norm_num [exV, exP, exR]) (by norm_num))
    (b64_exact (3) 2 (by norm_num) (by norm_num [exV, exP, exR]) (by norm_num))
    (b64_exact (-3) 2 (by norm_num) (by norm_num [exV, exP, exR]) (by norm_num))
    (b64_exact (-3) 2 (by norm_num) (by norm_num [exV, exP, exR]) (by norm_num))
    (b64_exact (0) 0 (by norm_num) (by norm_num [exV, exP, exR]) (by norm_num))
    (b64_exact (1) 2 (by norm_num) (by norm_num [exV, exP, exR]) (by norm_num))
    (b64_exact (7) 4 (by norm_num) (by norm_num [exV, exP, exR]) (by norm_num))
    (b64_exact (7) 4 (by norm_num) (by norm_num [exV, exP, exR]) (by norm_num))

theorem ex_num0 : side3 binary64 exV exP (exR 1) = (-1 / 18014398509481984) :=
  side3_eval (d1 := (3377699720527871 / 4503599627370496)) (m1 := (2533274790395903 / 2251799813685248)) (d2 := (-3 / 4)) (m2 := (-9 / 8)) (s := (-1 / 2251799813685248)) (d3 := (1 / 4503599627370496)) (m3 := (7 / 18014398509481984))
    (b64_exact (3377699720527871) 52 (by norm_num) (by norm_num [exV, exP, exR]) (by norm_num))
    (b64_tie 5066549580791806 53 (by norm_num) (by norm_num [exV, exP, exR]) (by norm_num))
    (b64_exact (-3) 2 (by norm_num) (by norm_num [exV, exP, exR]) (by norm_num))
    (b64_exact (-9) 3 (by norm_num) (by norm_num [exV, exP, exR]) (by norm_num))
    (b64_exact (-1) 51 (by norm_num) (by norm_num [exV, exP, exR]) (by norm_num))
    (b64_exact (1) 52 (by norm_num) (by norm_num [exV, exP, exR]) (by norm_num))
    (b64_exact (7) 54 (by norm_num) (by norm_num [exV, exP, exR]) (by norm_num))
    (b64_exact (-1) 54 (by norm_num) (by norm_num [exV, exP, exR]) (by norm_num))

theorem ex_area1 : side3 binary64 exV (exR 1) (exR 2) = (3 / 8) :=
  side3_eval (d1 := (-3 / 2)) (m1 := (-9 / 4)) (d2 := (3 / 4)) (m2 := (21 / 16)) (s := (-15 / 16)) (d3 := (3 / 4)) (m3 := (21 / 16))
    (b64_exact (-3) 1 (by norm_num) (by norm_num [exV, exP, exR]) (by norm_num))
    (b64_exact (-9) 2 (by norm_num) (by norm_num [exV, exP, exR]) (by norm_num))
    (b64_exact (3) 2 (by norm_num) (by norm_num [exV, exP, exR]) (by norm_num))
    (b64_exact (21) 4 (by norm_num) (by norm_num [exV, exP, exR]) (by norm_num))
    (b64_exact (-15) 4 (by norm_num) (by norm_num [exV, exP, exR]) (by norm_num))
    (b64_exact (3) 2 (by norm_num) (by norm_num [exV, exP, exR]) (by norm_num))
    (b64_exact (21) 4 (by norm_num) (by norm_num [exV, exP, exR]) (by norm_num))
    (b64_exact (3) 3 (by norm_num) (by norm_num [exV, exP, exR]) (by norm_num))

theorem ex_num1 : side3 binary64 exV exP (exR 2) = (-1 / 18014398509481984) :=
  side3_eval (d1 := (-3377699720527873 / 4503599627370496)) (m1 := (-2533274790395905 / 2251799813685248)) (d2 := (3 / 4)) (m2 := (9 / 8)) (s := (-1 / 2251799813685248)) (d3 := (1 / 4503599627370496)) (m3 := (7 / 18014398509481984))
    (b64_exact (-3377699720527873) 52 (by norm_num) (by norm_num [exV, exP, exR]) (by norm_num))
    (b64_tie_neg 5066549580791809 53 (by norm_num) (by norm_num [exV, exP, exR]) (by norm_num))
    (b64_exact (3) 2 (by norm_num) (by norm_num [exV, exP, exR]) (by norm_num))
    (b64_exact (9) 3 (by norm_num) (by norm_num [exV, exP, exR]) (by norm_num))
    (b64_exact (-1) 51 (by norm_num) (by norm_num [exV, exP, exR]) (by norm_num))
    (b64_exact (1) 52 (by norm_num) (by norm_num [exV, exP, exR]) (by norm_num))
    (b64_exact (7) 54 (by norm_num) (by norm_num [exV, exP, exR]) (by norm_num))
    (b64_exact (-1) 54 (by norm_num) (by norm_num [exV, exP, exR]) (by norm_num))

theorem ex_area2 : side3 binary64 exV (exR 2) (exR 3) = (5 / 16) :=
  side3_eval (d1 := (1)) (m1 := (3 / 2)) (d2 := (-1 / 4)) (m2 := (-7 / 16)) (s := (17 / 16)) (d3 := (-3 / 4)) (m3 := (-3 / 4))
    (b64_exact (1) 0 (by norm_num) (by norm_num [exV, exP, exR]) (by norm_num))
    (b64_exact (3) 1 (by norm_num) (by norm_num [exV, exP, exR]) (by norm_num))
    (b64_exact (-1) 2 (by norm_num) (by norm_num [exV, exP, exR]) (by norm_num))
    (b64_exact (-7) 4 (by norm_num) (by norm_num [exV, exP, exR]) (by norm_num))
    (b64_exact (17) 4 (by norm_num) (by norm_num [exV, exP, exR]) (by norm_num))
    (b64_exact (-3) 2 (by norm_num) (by norm_num [exV, exP, exR]) (by norm_num))
    (b64_exact (-3) 2 (by norm_num) (by norm_num [exV, exP, exR]) (by norm_num))
    (b64_exact (5) 4 (by norm_num) (by norm_num [exV, exP, exR]) (by norm_num))

theorem ex_num2 : side3 binary64 exV exP (exR 3) = (-1 / 9007199254740992) :=
  side3_eval (d1 := (1125899906842623 / 4503599627370496)) (m1 := (3377699720527869 / 9007199254740992)) (d2 := (-1 / 4)) (m2 := (-3 / 8)) (s := (-3 / 9007199254740992)) (d3 := (1 / 4503599627370496)) (m3 := (1 / 4503599627370496))
    (b64_exact (1125899906842623) 52 (by norm_num) (by norm_num [exV, exP, exR]) (by norm_num))
    (b64_exact (3377699720527869) 53 (by norm_num) (by norm_num [exV, exP, exR]) (by norm_num))
    (b64_exact (-1) 2 (by norm_num) (by norm_num [exV, exP, exR]) (by norm_num))
    (b64_exact (-3) 3 (by norm_num) (by norm_num [exV, exP, exR]) (by norm_num))
    (b64_exact (-3) 53 (by norm_num) (by norm_num [exV, exP, exR]) (by norm_num))
    (b64_exact (1) 52 (by norm_num) (by norm_num [exV, exP, exR]) (by norm_num))
    (b64_exact (1) 52 (by norm_num) (by norm_num [exV, exP, exR]) (by norm_num))
    (b64_exact (-1) 53 (by norm_num) (by norm_num [exV, exP, exR]) (by norm_num))

theorem not_found_of {t : Corners} {p : ℝ × ℝ} {x a : ℝ} (hn : num binary64 t p 1 = -x) (hs : side3 binary64 (t 0) (t 1) (t 2) = a) (hx : 0 < x) (ha : 0 < a) :
    found binary64 t p = false := by
  rw [← Bool.not_eq_true, found_iff]
  intro h
  have h := h 1
  rw [zeta_eq, hn, hs, neg_div, binary64_odd] at h
  have := binary64_rounding.pos (div_pos hx ha)
  linarith

/-- A gap: in double precision, a point in the interior of the union of three triangles is found in none of them (and it is in one of them exactly). -/
theorem C91_gap : (∀ k < 3, found binary64 ![exV, exR k, exR (k + 1)] exP = false) ∧
    IsFloat binary64 exP.1 ∧ IsFloat binary64 exP.2 ∧ exR 3 = exR 0 ∧ (∀ k < 3, 5 / 16 ≤ triArea2 exV (exR k) (exR (k + 1))) ∧
    found id ![exV, exR 0, exR 1] exP = true := by
  refine ⟨?_, ?_, ?_, rfl, ?_, ?_⟩
  · intro k hk
    interval_cases k
    · exact not_found_of (x := 1 / 18014398509481984) (ex_num0.trans (by norm_num)) ex_area0 (by norm_num) (by norm_num)
    · exact not_found_of (x := 1 / 18014398509481984) (ex_num1.trans (by norm_num)) ex_area1 (by norm_num) (by norm_num)
    · exact not_found_of (x := 1 / 9007199254740992) (ex_num2.trans (by norm_num)) ex_area2 (by norm_num) (by norm_num)
  · exact b64_exact 3 1 (by norm_num) (by norm_num [exP]) (by norm_num [exP])
  · exact b64_exact 5629499534213119 52 (by norm_num) (by norm_num [exP]) (by norm_num [exP])
  · intro k hk
    interval_cases k <;> norm_num [triArea2, exV, exR]
  · rw [found_iff, Fin.forall_fin_succ, Fin.forall_fin_two]
    refine ⟨?_, ?_, ?_⟩ <;> simp only [zeta_eq, num, side3, id, Fin.succ_zero_eq_one, Fin.succ_one_eq_two, Matrix.cons_val] <;> norm_num [exV, exR, exP]

/-- `C91_inside`, `C91_two_cells` and `C91_fan` in double precision: a point of an edge of the fan is found in one of the three triangles. -/
theorem C91_example : ∃ k < 3, found binary64 ![exV, exR k, exR (k + 1)] (5 / 4, 9 / 8) = true := by
  have hr : ∀ k, In 2 (exR k) := by
    intro k
    match k with
    | 0 | 1 | 2 => constructor <;> rw [abs_le] <;> constructor <;> norm_num [exR]
    | (n + 3) => change In 2 (1, 1); constructor <;> rw [abs_le] <;> constructor <;> norm_num
  refine C91_fan binary64_rounding binary64_odd (M := 2) (n := 3) rfl ?_ (fun k _ => hr k) ?_ ?_ ?_ (i := 2) (j := 1) (by norm_num) (by norm_num) ?_ ?_
  · constructor <;> rw [abs_le] <;> constructor <;> norm_num [exV]
  · intro k hk; interval_cases k <;> norm_num [triArea2, exV, exR]
  · constructor <;> rw [abs_le] <;> constructor <;> norm_num
  · intro k hk; interval_cases k <;> norm_num [triArea2, exR]
  · norm_num [triArea2, exV, exR]
  · norm_num [triArea2, exV, exR]

theorem depth0 (a b c p : ℝ × ℝ) : depth ![a, b, c] 0 p = SignType.sign (area2 ![a, b, c]) * triArea2 p b c := rfl
theorem depth1 (a b c p : ℝ × ℝ) : depth ![a, b, c] 1 p = SignType.sign (area2 ![a, b, c]) * triArea2 p c a := rfl
theorem depth2 (a b c p : ℝ × ℝ) : depth ![a, b, c] 2 p = SignType.sign (area2 ![a, b, c]) * triArea2 p a b := rfl

/-- The other theorems in double precision: a corner and an inner point are found, an outer point is not, and a point of a common edge is found in one of two triangles. -/
theorem C91_example2 : found binary64 ![exV, exR 0, exR 1] exV = true ∧ found binary64 ![exV, exR 0, exR 1] (3 / 2, 1) = true ∧
    found binary64 ![exV, exR 0, exR 1] (3 / 2, 2) = false ∧
    (found binary64 ![exV, exR 0, exR 1] (13 / 8, 7 / 8) = true ∨ found binary64 ![exV, exR 1, exR 2] (13 / 8, 7 / 8) = true) := by
  have ht : ∀ k q, In 2 ((![exV, exR k, exR (k + 1)] : Corners) q) := by
    have hr : ∀ k, In 2 (exR k) := by
      intro k
      match k with
      | 0 | 1 | 2 => constructor <;> rw [abs_le] <;> constructor <;> norm_num [exR]
      | (n + 3) => change In 2 (1, 1); constructor <;> rw [abs_le] <;> constructor <;> norm_num
    intro k
    rw [Fin.forall_fin_succ, Fin.forall_fin_two]
    refine ⟨?_, hr k, hr (k + 1)⟩
    constructor <;> rw [abs_le] <;> constructor <;> norm_num [exV]
  have v0 : area2 ![exV, exR 0, exR 1] = 7 / 16 := by
    change triArea2 _ _ _ = _; simp only [Matrix.cons_val]; norm_num [triArea2, exV, exR]
  have v1 : area2 ![exV, exR 1, exR 2] = 3 / 8 := by
    change triArea2 _ _ _ = _; simp only [Matrix.cons_val]; norm_num [triArea2, exV, exR]
  have a0 : 23 * ((2 : ℝ) ^ (-53 : ℤ) * 2 ^ 2) < |area2 ![exV, exR 0, exR 1]| := by rw [v0]; norm_num [abs_of_pos]
  have a1 : 23 * ((2 : ℝ) ^ (-53 : ℤ) * 2 ^ 2) < |area2 ![exV, exR 1, exR 2]| := by rw [v1]; norm_num [abs_of_pos]
  have s0 : SignType.sign (area2 ![exV, exR 0, exR 1]) = 1 := sign_pos (by rw [v0]; norm_num)
  have s1 : SignType.sign (area2 ![exV, exR 1, exR 2]) = 1 := sign_pos (by rw [v1]; norm_num)
  have hp : ∀ x y : ℝ, 0 ≤ x → x ≤ 2 → 0 ≤ y → y ≤ 2 → In 2 (x, y) := by
    intro x y h1 h2 h3 h4; constructor <;> rw [abs_le] <;> constructor <;> simp only <;> linarith
  refine ⟨C91_corner binary64_rounding binary64_odd (ht 0) a0 0, ?_, ?_, ?_⟩
  · refine C91_inside binary64_rounding (ht 0) a0 (hp _ _ (by norm_num) (by norm_num) (by norm_num) (by norm_num)) ?_
    rw [Fin.forall_fin_succ, Fin.forall_fin_two]
    refine ⟨?_, ?_, ?_⟩
    · rw [depth0, s0]; norm_num [triArea2, exV, exR]
    · change _ ≤ depth _ 1 _; rw [depth1, s0]; norm_num [triArea2, exV, exR]
    · change _ ≤ depth _ 2 _; rw [depth2, s0]; norm_num [triArea2, exV, exR]
  · refine C91_outside binary64_rounding (ht 0) a0 (hp _ _ (by norm_num) (by norm_num) (by norm_num) (by norm_num)) (i := 1) ?_
    rw [depth1, s0]
    norm_num [triArea2, exV, exR]
  · refine C91_two_cells binary64_rounding binary64_odd (ht 0) (ht 1) a0 a1 (s0.trans s1.symm) (i := 1) (j := 2) ⟨rfl, rfl⟩
      (hp _ _ (by norm_num) (by norm_num) (by norm_num) (by norm_num)) ?_ ?_
    · rw [Fin.forall_fin_succ, Fin.forall_fin_two]
      refine ⟨?_, ?_, ?_⟩
      · intro _; change _ ≤ depth _ 0 _; rw [depth0, s0]; norm_num [triArea2, exV, exR]
      · intro h; exact absurd rfl h
      · intro _; change _ ≤ depth _ 2 _; rw [depth2, s0]; norm_num [triArea2, exV, exR]
    · rw [Fin.forall_fin_succ, Fin.forall_fin_two]
      refine ⟨?_, ?_, ?_⟩
      · intro _; change _ ≤ depth _ 0 _; rw [depth0, s1]; norm_num [triArea2, exV, exR]
      · intro _; change _ ≤ depth _ 1 _; rw [depth1, s1]; norm_num [triArea2, exV, exR]
      · intro h; exact absurd rfl h

end
end Gemlab.Rounded
