import Verif.Props.Rounded

/-!
# C88: the hypotheses are met

A grid of 4 x 4 containers in double precision, with a point that is found from a place nearby.
-/
namespace Gemlab.Rounded
open Gemlab.Spec
noncomputable section
open Classical

/-- Integers of at most 53 bits times a power of two are floating-point numbers. -/
theorem binary64_dyadic (m : ℕ) (e : ℤ) (hm : m ≤ 2 ^ 53) : IsFloat binary64 ((m : ℝ) * (2 : ℝ) ^ e) := by
  unfold IsFloat
  rcases Nat.eq_zero_or_pos m with rfl | h0
  · simp [binary64]
  have hm' : (m : ℝ) ≤ (2 : ℝ) ^ (53 : ℤ) := by exact_mod_cast hm
  have h0' : (1 : ℝ) ≤ m := by exact_mod_cast h0
  have hp := two_pos' e
  have hx : 0 < (m : ℝ) * (2 : ℝ) ^ e := by positivity
  unfold binary64
  rw [if_pos hx]
  obtain ⟨a, b⟩ := pow_log hx
  have hlog : Int.log 2 ((m : ℝ) * (2 : ℝ) ^ e) ≤ e + 53 := by
    have : (2 : ℝ) ^ Int.log 2 ((m : ℝ) * (2 : ℝ) ^ e) ≤ (2 : ℝ) ^ (e + 53) := a.trans (by
      rw [add_comm, zpow_add₀ (by norm_num)]
      exact mul_le_mul_of_nonneg_right hm' hp.le)
    exact (zpow_le_zpow_iff_right₀ (by norm_num)).1 this
  set L := Int.log 2 ((m : ℝ) * (2 : ℝ) ^ e) with hL
  have key : ∃ k : ℤ, (m : ℝ) * (2 : ℝ) ^ e / (2 : ℝ) ^ (L - 52) = k := by
    rcases hlog.lt_or_eq with h | h
    · obtain ⟨j, hj⟩ := Int.eq_ofNat_of_zero_le (show 0 ≤ e - (L - 52) by omega)
      refine ⟨(m : ℤ) * 2 ^ j, ?_⟩
      rw [mul_div_assoc, ← zpow_sub₀ (by norm_num), hj]
      push_cast
      rw [zpow_natCast]
    · refine ⟨2 ^ 52, ?_⟩
      have e1 : (m : ℝ) * (2 : ℝ) ^ e = (2 : ℝ) ^ L := by
        apply le_antisymm _ a
        rw [h, add_comm e, zpow_add₀ (by norm_num)]
        exact mul_le_mul_of_nonneg_right hm' hp.le
      rw [e1, ← zpow_sub₀ (by norm_num), show L - (L - 52) = 52 by omega]
      norm_num
  obtain ⟨k, hk⟩ := key
  unfold binary64Pos
  rw [← hL, hk, roundEven_int, ← hk, div_mul_cancel₀ _ (two_pos' _).ne']

theorem binary64_sixteenth (k : ℕ) (hk : k ≤ 1000) : binary64 ((k : ℝ) / 16) = (k : ℝ) / 16 := by
  have := binary64_dyadic k (-4) (by omega)
  rw [show (2 : ℝ) ^ (-4 : ℤ) = 1 / 16 by norm_num] at this
  rw [div_eq_mul_one_div]
  exact this

/-- The grid of the example. -/
def exGrid : GridSearch :=
  { ndim := 2, ndiv := [4, 4], xmin := [0, 0], xmax := [4, 4], coefficient := [1, 4, 16], sideLength := 1, tolerance := 1 / 8,
    tolDist := binary64 (binary64 (Real.sqrt 2) * (1 / 8)), radius := binary64 (binary64 (binary64 (Real.sqrt 2) * 1) / 2), containers := [] }

theorem exGrid_new : new binary64 [0, 0] [4, 4] (some 4) (some (1 / 8)) (some 0) = .ok exGrid := by
  have f0 : binary64 0 = 0 := by simp [binary64]
  have f1 : binary64 1 = 1 := by have := binary64_sixteenth 16 (by norm_num); norm_num at this; exact this
  have f4 : binary64 4 = 4 := by have := binary64_sixteenth 64 (by norm_num); norm_num at this; exact this
  have f5 : binary64 (1 / 4) = 1 / 4 := by have := binary64_sixteenth 4 (by norm_num); norm_num at this; exact this
  have hn : numDivisions binary64 1 4 [0, 0] [4, 4] = .ok [4, 4] := by
    unfold numDivisions
    simp [at', f4, f1, List.range_succ, List.range'_succ]
    rw [if_neg (by norm_num)]
    rfl
  unfold new
  simp only [Option.getD_some, List.length_cons, List.length_nil, hn, Res.bind_ok]
  simp [exGrid, at', f0, f1, f4, f5, List.range_succ, List.range'_succ]
  norm_num
  rw [f5]
  norm_num

/-- The hypotheses of C88 are met in double precision: a point is inserted at (1, 1) and found from (1 + 1/16, 1). -/
theorem C88_example {iter : List (Nat × List ℝ) → List (Nat × List ℝ)} (hiter : IterOrder iter) :
    ∃ g, Reached binary64 [0, 0] [4, 4] (some 4) (some (1 / 8)) (some 0) g [(7, [1, 1])] ∧ Fits ((2 : ℝ) ^ (-53 : ℤ)) 4 g ∧
      search binary64 iter g [1 + 1 / 16, 1] = .ok (some 7) := by
  have h0 := Reached.new exGrid_new
  have hin : ∀ x : List ℝ, x.length = 2 → (∀ i < 2, 0 ≤ at' x i ∧ at' x i ≤ 4) → GridSearch.Inside exGrid x := by
    intro x _ h i hi
    change i < 2 at hi
    have := h i hi
    interval_cases i <;> simpa [exGrid, at'] using this
  obtain ⟨g', hg'⟩ := ((C88_ok h0 hiter 7 [1, 1]).1 ⟨rfl, (outside_iff rfl).2 (hin _ rfl (by
    intro i hi; interval_cases i <;> norm_num [at']))⟩).1
  have h1 := Reached.insert h0 hg'
  obtain ⟨_, cs, rfl⟩ := inv_insert h0.inv.1 hg'
  have hF : Fits ((2 : ℝ) ^ (-53 : ℤ)) 4 { exGrid with containers := cs } := by
    refine ⟨?_, ?_⟩
    · intro i hi
      change i < 2 at hi
      interval_cases i <;> simp [exGrid, at']
    · norm_num [exGrid]
  refine ⟨_, h1, hF, ?_⟩
  obtain ⟨id', hid⟩ := C88_finds binary64_rounding h1 hF hiter (id := 7) (x := [1, 1]) (q := [1 + 1 / 16, 1]) ⟨[], [], rfl, by simp⟩ rfl
    (by
      intro i hi
      change i < 2 at hi
      have a := binary64_sixteenth 17 (by norm_num)
      have b := binary64_sixteenth 16 (by norm_num)
      norm_num at a b
      interval_cases i <;> norm_num [IsFloat, a, b])
    ((outside_iff rfl).2 (hin _ rfl (by intro i hi; interval_cases i <;> norm_num [at'])))
    (by
      intro i hi
      change i < 2 at hi
      interval_cases i <;> norm_num)
  obtain ⟨x, hx, -⟩ := C88_sound binary64_rounding h1 hiter hid
  simp at hx
  rw [hid, hx.1]

end
end Gemlab.Rounded
