import Verif.Props.UnstructuredRing
import Mathlib.Analysis.SpecialFunctions.Trigonometric.Inverse

/-! # C71: the polygon of the quarter of a ring has distinct points -/
namespace Gemlab.Unstructured

theorem cos_quarter_inj {s t : ℝ} (hs : 0 ≤ s ∧ s ≤ 1) (ht : 0 ≤ t ∧ t ≤ 1) (h : Real.cos (s * (Real.pi / 2)) = Real.cos (t * (Real.pi / 2))) : s = t := by
  have hp := Real.pi_pos
  have := Real.injOn_cos (show s * (Real.pi / 2) ∈ Set.Icc 0 Real.pi from ⟨by nlinarith [hs.1], by nlinarith [hs.2]⟩)
    (show t * (Real.pi / 2) ∈ Set.Icc 0 Real.pi from ⟨by nlinarith [ht.1], by nlinarith [ht.2]⟩) h
  nlinarith

/-- Where the points of the polygon are. -/
theorem ring_cases {rmin rmax : ℝ} {nr na : Nat} (hnr : 1 ≤ nr) (hna : 1 ≤ na) {pos : Nat → ℝ × ℝ} (h : IsRingPoint rmin rmax nr na pos) (j : Nat)
    (hj : j < 2 * nr + 2 * na) :
    (j ≤ nr ∧ ∃ s : ℝ, 0 ≤ s ∧ s ≤ 1 ∧ s * nr = j ∧ pos j = (rmin + s * (rmax - rmin), 0)) ∨
    (nr < j ∧ j ≤ nr + na ∧ ∃ s : ℝ, 0 < s ∧ s ≤ 1 ∧ s * na = (j - nr : Nat) ∧ pos j = (rmax * Real.cos (s * (Real.pi / 2)), rmax * Real.sin (s * (Real.pi / 2)))) ∨
    (nr + na < j ∧ j ≤ nr + na + nr ∧ ∃ s : ℝ, 0 < s ∧ s ≤ 1 ∧ s * nr = (j - nr - na : Nat) ∧ pos j = (0, rmax - s * (rmax - rmin))) ∨
    (nr + na + nr < j ∧ ∃ s : ℝ, 0 < s ∧ s < 1 ∧ s * na = (2 * nr + 2 * na - j : Nat) ∧
      pos j = (rmin * Real.cos (s * (Real.pi / 2)), rmin * Real.sin (s * (Real.pi / 2)))) := by
  have hnr' : (0 : ℝ) < nr := by exact_mod_cast hnr
  have hna' : (0 : ℝ) < na := by exact_mod_cast hna
  by_cases h1 : j ≤ nr
  · left
    refine ⟨h1, (j : ℝ) / nr, by positivity, (div_le_one hnr').2 (by exact_mod_cast h1), by field_simp, ?_⟩
    rw [h.bottom j h1]
    congr 1
    field_simp
  · right
    by_cases h2 : j ≤ nr + na
    · left
      have hpos : 0 < j - nr := by omega
      refine ⟨by omega, h2, ((j - nr : Nat) : ℝ) / na, div_pos (by exact_mod_cast hpos) hna', (div_le_one hna').2 (by exact_mod_cast (by omega : j - nr ≤ na)),
        by field_simp, ?_⟩
      have := h.outer (j - nr) (by omega)
      rwa [Nat.add_sub_cancel' (by omega)] at this
    · right
      by_cases h3 : j ≤ nr + na + nr
      · left
        have hpos : 0 < j - nr - na := by omega
        refine ⟨by omega, h3, ((j - nr - na : Nat) : ℝ) / nr, div_pos (by exact_mod_cast hpos) hnr',
          (div_le_one hnr').2 (by exact_mod_cast (by omega : j - nr - na ≤ nr)), by field_simp, ?_⟩
        have := h.left (j - nr - na) (by omega)
        rw [show nr + na + (j - nr - na) = j by omega] at this
        rw [this]
        congr 1
        field_simp
      · right
        have hi : j - nr - na - nr ≤ na := by omega
        have hpos : 0 < j - nr - na - nr := by omega
        have e : ((2 * nr + 2 * na - j : Nat) : ℝ) / na = 1 - ((j - nr - na - nr : Nat) : ℝ) / na := by
          have : 2 * nr + 2 * na - j = na - (j - nr - na - nr) := by omega
          rw [this, Nat.cast_sub hi]
          field_simp
        refine ⟨by omega, ((2 * nr + 2 * na - j : Nat) : ℝ) / na, div_pos (by exact_mod_cast (by omega : 0 < 2 * nr + 2 * na - j)) hna',
          (div_lt_one hna').2 (by exact_mod_cast (by omega : 2 * nr + 2 * na - j < na)), by field_simp, ?_⟩
        have := h.inner (j - nr - na - nr) hi
        rw [show nr + na + nr + (j - nr - na - nr) = j by omega, Nat.mod_eq_of_lt hj] at this
        rw [e]
        exact this

/-- **C71.** If `0 < rmin < rmax`, the points of the polygon are pairwise different. -/
theorem C71_distinct {rmin rmax : ℝ} (h0 : 0 < rmin) (h1 : rmin < rmax) {nr na : Nat} (hnr : 1 ≤ nr) (hna : 1 ≤ na) {pos : Nat → ℝ × ℝ}
    (h : IsRingPoint rmin rmax nr na pos) (i j : Nat) (hi : i < 2 * nr + 2 * na) (hj : j < 2 * nr + 2 * na) (he : pos i = pos j) : i = j := by
  have hnr' : (0 : ℝ) < nr := by exact_mod_cast hnr
  have hna' : (0 : ℝ) < na := by exact_mod_cast hna
  have hp := Real.pi_pos
  have sinpos : ∀ s : ℝ, 0 < s → s ≤ 1 → 0 < Real.sin (s * (Real.pi / 2)) := fun s a b =>
    Real.sin_pos_of_pos_of_lt_pi (by positivity) (by nlinarith)
  have cospos : ∀ s : ℝ, 0 < s → s < 1 → 0 < Real.cos (s * (Real.pi / 2)) := fun s a b =>
    Real.cos_pos_of_mem_Ioo ⟨by nlinarith, by nlinarith⟩
  have pyth : ∀ r s : ℝ, (r * Real.cos s) ^ 2 + (r * Real.sin s) ^ 2 = r ^ 2 := fun r s => by
    rw [mul_pow, mul_pow, ← mul_add, Real.cos_sq_add_sin_sq, mul_one]
  have castinj : ∀ {a b c : Nat} {s t : ℝ}, s * c = a → t * c = b → s = t → a = b := by
    intro a b c s t e1 e2 e3
    rw [e3, e2] at e1
    exact_mod_cast e1.symm
  -- it is enough to consider `i` in the same part as `j` or before it
  have key : ∀ i j, i < 2 * nr + 2 * na → j < 2 * nr + 2 * na → i < j → pos i ≠ pos j := by
    intro i j hi hj hij he
    rcases ring_cases hnr hna h i hi with ⟨a1, s, s0, s1, sn, e1⟩ | ⟨a1, a2, s, s0, s1, sn, e1⟩ | ⟨a1, a2, s, s0, s1, sn, e1⟩ | ⟨a1, s, s0, s1, sn, e1⟩ <;>
    rcases ring_cases hnr hna h j hj with ⟨b1, t, t0, t1, tn, e2⟩ | ⟨b1, b2, t, t0, t1, tn, e2⟩ | ⟨b1, b2, t, t0, t1, tn, e2⟩ | ⟨b1, t, t0, t1, tn, e2⟩ <;>
    first | omega | skip
    all_goals rw [e1, e2, Prod.mk.injEq] at he
    all_goals obtain ⟨hx, hy⟩ := he
    · have : s * (rmax - rmin) = t * (rmax - rmin) := by linarith
      have := castinj sn tn (mul_right_cancel₀ (by linarith) this)
      omega
    · have := mul_pos (lt_trans h0 h1) (sinpos t t0 t1)
      linarith
    · nlinarith
    · have := mul_pos h0 (sinpos t t0 t1.le)
      linarith
    · have := castinj sn tn (cos_quarter_inj ⟨s0.le, s1⟩ ⟨t0.le, t1⟩ (mul_left_cancel₀ (by linarith) hx))
      omega
    · have h2 := pyth rmax (s * (Real.pi / 2))
      rw [hx, hy] at h2
      have d0 := mul_pos t0 (sub_pos.2 h1)
      have d1 : t * (rmax - rmin) ≤ rmax - rmin := by nlinarith
      have := mul_pos d0 (show 0 < 2 * rmax - t * (rmax - rmin) by linarith)
      nlinarith
    · have h2 := pyth rmax (s * (Real.pi / 2))
      rw [hx, hy, pyth] at h2
      nlinarith
    · have : s * (rmax - rmin) = t * (rmax - rmin) := by linarith
      have := castinj sn tn (mul_right_cancel₀ (by linarith) this)
      omega
    · have := mul_pos h0 (cospos t t0 t1)
      linarith
    · have := castinj sn tn (cos_quarter_inj ⟨s0.le, s1.le⟩ ⟨t0.le, t1.le⟩ (mul_left_cancel₀ (by linarith) hx))
      omega
  rcases lt_trichotomy i j with hlt | heq | hgt
  · exact absurd he (key i j hi hj hlt)
  · exact heq
  · exact absurd he.symm (key j i hj hi hgt)

end Gemlab.Unstructured
