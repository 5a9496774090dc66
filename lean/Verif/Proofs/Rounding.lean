import Verif.Spec.Rounding
import Mathlib.Tactic.Linarith
import Mathlib.Tactic.Ring
import Mathlib.Tactic.NormNum
import Mathlib.Tactic.Positivity
import Mathlib.Tactic.FieldSimp

/-! # Double precision rounding meets the assumptions -/
namespace Gemlab
noncomputable section
open Classical

theorem roundEven_near (x : ℝ) : |(roundEven x : ℝ) - x| ≤ 1 / 2 := by
  unfold roundEven
  have h1 := Int.floor_le x
  have h2 := Int.lt_floor_add_one x
  split
  · rw [abs_le]; constructor <;> linarith
  split
  · push_cast; rw [abs_le]; constructor <;> linarith
  split <;> (push_cast; rw [abs_le]; constructor <;> linarith)

theorem roundEven_int (n : ℤ) : roundEven n = n := by
  unfold roundEven
  simp

theorem roundEven_mono : Monotone roundEven := by
  intro x y h
  have hf : ⌊x⌋ ≤ ⌊y⌋ := Int.floor_mono h
  rcases hf.lt_or_eq with hf | hf
  · have a : roundEven x ≤ ⌊x⌋ + 1 := by unfold roundEven; split_ifs <;> omega
    have b : ⌊y⌋ ≤ roundEven y := by unfold roundEven; split_ifs <;> omega
    omega
  · unfold roundEven
    rw [hf]
    split_ifs <;> first | omega | (exfalso; linarith)

theorem pow_log {x : ℝ} (hx : 0 < x) : (2 : ℝ) ^ Int.log 2 x ≤ x ∧ x < (2 : ℝ) ^ (Int.log 2 x + 1) := by
  exact_mod_cast And.intro (Int.zpow_log_le_self (b := 2) (by norm_num) hx) (Int.lt_zpow_succ_log_self (b := 2) (by norm_num) x)

theorem two_pos' (n : ℤ) : (0 : ℝ) < (2 : ℝ) ^ n := zpow_pos (by norm_num) n

theorem scaled {x : ℝ} (hx : 0 < x) : (2 : ℝ) ^ (52 : ℤ) ≤ x / (2 : ℝ) ^ (Int.log 2 x - 52) ∧ x / (2 : ℝ) ^ (Int.log 2 x - 52) < (2 : ℝ) ^ (53 : ℤ) := by
  obtain ⟨a, b⟩ := pow_log hx
  have hp := two_pos' (Int.log 2 x - 52)
  constructor
  · rw [le_div_iff₀ hp, ← zpow_add₀ (by norm_num)]
    rwa [show (52 : ℤ) + (Int.log 2 x - 52) = Int.log 2 x by omega]
  · rw [div_lt_iff₀ hp, ← zpow_add₀ (by norm_num)]
    rwa [show (53 : ℤ) + (Int.log 2 x - 52) = Int.log 2 x + 1 by omega]

/-- The digits have 53 bits. -/
theorem digits {x : ℝ} (hx : 0 < x) : (2 : ℤ) ^ 52 ≤ roundEven (x / (2 : ℝ) ^ (Int.log 2 x - 52)) ∧ roundEven (x / (2 : ℝ) ^ (Int.log 2 x - 52)) ≤ (2 : ℤ) ^ 53 := by
  obtain ⟨a, b⟩ := scaled hx
  constructor
  · have := roundEven_mono ((by norm_num : (((2 : ℤ) ^ 52 : ℤ) : ℝ) = (2 : ℝ) ^ (52 : ℤ)).trans_le a)
    rwa [roundEven_int] at this
  · have := roundEven_mono (b.le.trans_eq (by norm_num : (2 : ℝ) ^ (53 : ℤ) = (((2 : ℤ) ^ 53 : ℤ) : ℝ)))
    rwa [roundEven_int] at this

theorem binary64Pos_range {x : ℝ} (hx : 0 < x) : (2 : ℝ) ^ Int.log 2 x ≤ binary64Pos x ∧ binary64Pos x ≤ (2 : ℝ) ^ (Int.log 2 x + 1) := by
  obtain ⟨a, b⟩ := digits hx
  have hp := two_pos' (Int.log 2 x - 52)
  have a' : (2 : ℝ) ^ (52 : ℤ) ≤ (roundEven (x / (2 : ℝ) ^ (Int.log 2 x - 52)) : ℝ) := by exact_mod_cast a
  have b' : (roundEven (x / (2 : ℝ) ^ (Int.log 2 x - 52)) : ℝ) ≤ (2 : ℝ) ^ (53 : ℤ) := by exact_mod_cast b
  unfold binary64Pos
  constructor
  · calc (2 : ℝ) ^ Int.log 2 x = (2 : ℝ) ^ (52 : ℤ) * (2 : ℝ) ^ (Int.log 2 x - 52) := by
          rw [← zpow_add₀ (by norm_num)]; congr 1; omega
      _ ≤ _ := mul_le_mul_of_nonneg_right a' hp.le
  · calc _ ≤ (2 : ℝ) ^ (53 : ℤ) * (2 : ℝ) ^ (Int.log 2 x - 52) := mul_le_mul_of_nonneg_right b' hp.le
      _ = _ := by rw [← zpow_add₀ (by norm_num)]; congr 1; omega

theorem binary64Pos_pos {x : ℝ} (hx : 0 < x) : 0 < binary64Pos x := (two_pos' _).trans_le (binary64Pos_range hx).1

theorem binary64Pos_mono {x y : ℝ} (hx : 0 < x) (h : x ≤ y) : binary64Pos x ≤ binary64Pos y := by
  have hy := hx.trans_le h
  have hl : Int.log 2 x ≤ Int.log 2 y := Int.log_mono_right hx h
  rcases hl.lt_or_eq with hl | hl
  · exact (binary64Pos_range hx).2.trans ((zpow_le_zpow_right₀ (by norm_num) (by omega)).trans (binary64Pos_range hy).1)
  · unfold binary64Pos
    rw [hl]
    have hp := two_pos' (Int.log 2 y - 52)
    refine mul_le_mul_of_nonneg_right ?_ hp.le
    exact_mod_cast roundEven_mono (div_le_div_of_nonneg_right h hp.le)

theorem binary64Pos_error {x : ℝ} (hx : 0 < x) : |binary64Pos x - x| ≤ (2 : ℝ) ^ (-53 : ℤ) * x := by
  have hp := two_pos' (Int.log 2 x - 52)
  have h := roundEven_near (x / (2 : ℝ) ^ (Int.log 2 x - 52))
  have e : binary64Pos x - x = ((roundEven (x / (2 : ℝ) ^ (Int.log 2 x - 52)) : ℝ) - x / (2 : ℝ) ^ (Int.log 2 x - 52)) * (2 : ℝ) ^ (Int.log 2 x - 52) := by
    unfold binary64Pos
    rw [sub_mul, div_mul_cancel₀ _ hp.ne']
  rw [e, abs_mul, abs_of_pos hp]
  calc _ ≤ 1 / 2 * (2 : ℝ) ^ (Int.log 2 x - 52) := mul_le_mul_of_nonneg_right h hp.le
    _ = (2 : ℝ) ^ (-53 : ℤ) * (2 : ℝ) ^ Int.log 2 x := by
      rw [show (1 : ℝ) / 2 = (2 : ℝ) ^ (-1 : ℤ) by norm_num, ← zpow_add₀ (by norm_num), ← zpow_add₀ (by norm_num)]
      congr 1; omega
    _ ≤ _ := mul_le_mul_of_nonneg_left (pow_log hx).1 (two_pos' _).le

theorem log_of_range {x : ℝ} {n : ℤ} (h1 : (2 : ℝ) ^ n ≤ x) (h2 : x < (2 : ℝ) ^ (n + 1)) : Int.log 2 x = n := by
  have hx := (two_pos' n).trans_le h1
  apply le_antisymm
  · have := (Int.lt_zpow_iff_log_lt (b := 2) (by norm_num) hx (x := n + 1)).1 (by exact_mod_cast h2)
    omega
  · exact (Int.zpow_le_iff_le_log (b := 2) (by norm_num) hx).1 (by exact_mod_cast h1)

theorem binary64Pos_idem {x : ℝ} (hx : 0 < x) : binary64Pos (binary64Pos x) = binary64Pos x := by
  obtain ⟨a, b⟩ := binary64Pos_range hx
  rcases b.lt_or_eq with b | b
  · have hl := log_of_range a b
    have hp := two_pos' (Int.log 2 x - 52)
    have : binary64Pos x / (2 : ℝ) ^ (Int.log 2 x - 52) = (roundEven (x / (2 : ℝ) ^ (Int.log 2 x - 52)) : ℝ) := by
      unfold binary64Pos; rw [mul_div_cancel_right₀ _ hp.ne']
    have e : ∀ y, binary64Pos y = (roundEven (y / (2 : ℝ) ^ (Int.log 2 y - 52)) : ℝ) * (2 : ℝ) ^ (Int.log 2 y - 52) := fun _ => rfl
    rw [e (binary64Pos x), hl, this, roundEven_int, ← e x]
  · rw [b]
    have hl : Int.log 2 ((2 : ℝ) ^ (Int.log 2 x + 1)) = Int.log 2 x + 1 := log_of_range le_rfl (zpow_lt_zpow_right₀ (by norm_num) (by omega))
    unfold binary64Pos
    rw [hl]
    have : (2 : ℝ) ^ (Int.log 2 x + 1) / (2 : ℝ) ^ (Int.log 2 x + 1 - 52) = (((2 : ℤ) ^ 52 : ℤ) : ℝ) := by
      rw [← zpow_sub₀ (by norm_num), show Int.log 2 x + 1 - (Int.log 2 x + 1 - 52) = 52 by omega]; norm_num
    rw [this, roundEven_int]
    rw [show (((2 : ℤ) ^ 52 : ℤ) : ℝ) = (2 : ℝ) ^ (52 : ℤ) by norm_num, ← zpow_add₀ (by norm_num)]
    congr 1; omega

/-- Double precision meets the assumptions, with `u = 2^(-53)`. -/
theorem binary64_rounding : Rounding binary64 ((2 : ℝ) ^ (-53 : ℤ)) := by
  have hpos : ∀ {x : ℝ}, 0 < x → binary64 x = binary64Pos x := fun h => if_pos h
  have hneg : ∀ {x : ℝ}, x < 0 → binary64 x = -binary64Pos (-x) := fun h => by unfold binary64; rw [if_neg (by linarith), if_pos h]
  have hz : binary64 0 = 0 := by unfold binary64; simp
  refine ⟨?_, ?_, ?_, by positivity, by norm_num⟩
  · intro x y h
    rcases lt_trichotomy x 0 with hx | hx | hx <;> rcases lt_trichotomy y 0 with hy | hy | hy
    · rw [hneg hx, hneg hy]
      have := binary64Pos_mono (x := -y) (y := -x) (by linarith) (by linarith)
      linarith
    · rw [hneg hx, hy, hz]
      have := binary64Pos_pos (x := -x) (by linarith)
      linarith
    · rw [hneg hx, hpos hy]
      have := binary64Pos_pos (x := -x) (by linarith)
      have := binary64Pos_pos hy
      linarith
    · linarith
    · rw [hx, hy]
    · rw [hx, hz, hpos hy]
      exact (binary64Pos_pos hy).le
    · linarith
    · linarith
    · rw [hpos hx, hpos hy]
      exact binary64Pos_mono hx h
  · intro x
    rcases lt_trichotomy x 0 with hx | hx | hx
    · have := binary64Pos_pos (x := -x) (by linarith)
      rw [hneg hx, hneg (by linarith), neg_neg, binary64Pos_idem (by linarith)]
    · rw [hx, hz, hz]
    · rw [hpos hx, hpos (binary64Pos_pos hx), binary64Pos_idem hx]
  · intro x
    rcases lt_trichotomy x 0 with hx | hx | hx
    · have := binary64Pos_error (x := -x) (by linarith)
      rw [hneg hx, abs_of_neg hx, show -binary64Pos (-x) - x = -(binary64Pos (-x) - -x) by ring, abs_neg]
      exact this
    · rw [hx, hz]; simp
    · rw [hpos hx, abs_of_pos hx]
      exact binary64Pos_error hx

end
end Gemlab
