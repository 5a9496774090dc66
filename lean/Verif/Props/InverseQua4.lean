import Verif.Proofs.InverseQua4

/-!
# C97: the inverse of the isoparametric map of a quadrilateral with four nodes
-/
namespace Gemlab.InverseMap
noncomputable section
open Gemlab.Spec.Integ Gemlab.Spec.InverseMap Gemlab.Shapes Gemlab.Scratchpad

variable {inv : MatInverse} {pad : Scratchpad} {x ξ η : Nat → ℝ} {tol : ℝ}

theorem norm2_two_le {v : Nat → ℝ} : norm2 2 v ≤ |v 0| + |v 1| := by
  unfold norm2
  simp only [Finset.sum_range_succ, Finset.sum_range_zero, zero_add]
  refine Real.sqrt_le_iff.2 ⟨by positivity, ?_⟩
  rw [← sq_abs (v 0), ← sq_abs (v 1)]
  nlinarith [abs_nonneg (v 0), abs_nonneg (v 1)]

theorem qua4_accuracy (hd : detJ pad ξ ≠ 0) {t s : ℝ} (b0 : η 0 - ξ 0 = t * (dir pad ξ).1) (b1 : η 1 - ξ 1 = t * (dir pad ξ).2) (q0 : |mixed pad 0 * t| ≤ s) (q1 : |mixed pad 1 * t| ≤ s) :
    |detJ pad ξ| * |η 0 - ξ 0| ≤ s * (|jac pad ξ 0 1| + |jac pad ξ 1 1|) ∧ |detJ pad ξ| * |η 1 - ξ 1| ≤ s * (|jac pad ξ 0 0| + |jac pad ξ 1 0|) := by
  constructor
  · have e : detJ pad ξ * (η 0 - ξ 0) = (mixed pad 0 * t) * jac pad ξ 1 1 - (mixed pad 1 * t) * jac pad ξ 0 1 := by
      rw [b0]; unfold dir; field_simp
    rw [← abs_mul, e]
    refine (abs_sub _ _).trans ?_
    rw [abs_mul, abs_mul (mixed pad 1 * t)]
    have h1 := mul_le_mul_of_nonneg_right q0 (abs_nonneg (jac pad ξ 1 1))
    have h2 := mul_le_mul_of_nonneg_right q1 (abs_nonneg (jac pad ξ 0 1))
    linarith
  · have e : detJ pad ξ * (η 1 - ξ 1) = (mixed pad 1 * t) * jac pad ξ 0 0 - (mixed pad 0 * t) * jac pad ξ 1 0 := by
      rw [b1]; unfold dir; field_simp
    rw [← abs_mul, e]
    refine (abs_sub _ _).trans ?_
    rw [abs_mul, abs_mul (mixed pad 0 * t)]
    have h1 := mul_le_mul_of_nonneg_right q1 (abs_nonneg (jac pad ξ 0 0))
    have h2 := mul_le_mul_of_nonneg_right q0 (abs_nonneg (jac pad ξ 1 0))
    linarith

/-- The next coefficient. -/
theorem coef_step {τ t c s T : ℝ} (e2 : 0 ≤ t * c) (e3 : t * c ≤ s) (e4 : |t| ≤ T) (b3 : τ * (1 + 2 * (t * c)) = t * (t * c)) : 0 ≤ τ * c ∧ τ * c ≤ s ∧ |τ| ≤ T * (1 / 2) := by
  have hq : 0 < 1 + 2 * (t * c) := by linarith
  have b4 : τ * c * (1 + 2 * (t * c)) = (t * c) * (t * c) := by linear_combination c * b3
  have b5 : τ * c = (t * c) * (t * c) / (1 + 2 * (t * c)) := by rw [eq_div_iff hq.ne']; exact b4
  have b6 : |τ| * (1 + 2 * (t * c)) = |t| * (t * c) := by
    rw [← abs_of_pos hq, ← abs_mul, b3, abs_mul, abs_of_nonneg e2]
  have b7 : |τ| = |t| * (t * c) / (1 + 2 * (t * c)) := by rw [eq_div_iff hq.ne']; exact b6
  refine ⟨by rw [b5]; positivity, ?_, ?_⟩
  · rw [b5]
    refine le_trans ?_ e3
    rw [div_le_iff₀ hq]
    nlinarith
  · refine le_trans ?_ (mul_le_mul_of_nonneg_right e4 (by norm_num))
    rw [b7, div_le_iff₀ hq]
    nlinarith [abs_nonneg t]

/-- The iterations of a `Qua4` after the first one. -/
theorem qua4_run (hinv : InverseSpec inv) (hall : ∀ a, detN 2 a ≠ 0 → ∃ r, inv 2 a = .ok r) {big low : ℝ} (hok : pad.okXxt = true) (hk : pad.kind = .qua4) (h2 : pad.spaceNdim = 2)
    (hbl : ∀ m < 4, ∀ j < 2, low ≤ pad.X m j ∧ pad.X m j ≤ big) (hx : MapsTo pad ξ x) (hd : detJ pad ξ ≠ 0) {ξ₀ ξ₁ : Nat → ℝ} (h0 : IsGuess pad x ξ₀) (hd0 : detJ pad ξ₀ ≠ 0)
    (hs : 0 < detJ pad ξ₁ * detJ pad ξ) {t1 c : ℝ} (hc : c = (dir pad ξ).1 * (dir pad ξ).2) (a0 : ξ₁ 0 - ξ 0 = t1 * (dir pad ξ).1) (a1 : ξ₁ 1 - ξ 1 = t1 * (dir pad ξ).2)
    (a2 : t1 * (1 + (ξ₀ 1 - ξ 1) * (dir pad ξ).1 + (ξ₀ 0 - ξ 0) * (dir pad ξ).2) = (ξ₀ 0 - ξ 0) * (ξ₀ 1 - ξ 1)) (n : Nat)
    (hn : (|mixed pad 0| + |mixed pad 1|) * (|t1 ^ 2 * c / (1 + 2 * (t1 * c))| * (1 / 2) ^ n * (1 + t1 ^ 2 * c / (1 + 2 * (t1 * c)) * c)) ≤ tol) {nitMax : Nat} (hnit : n + 2 < nitMax) :
    ∃ it η pad', approximateKsi inv big low pad 2 2 x nitMax tol = .ok (it, η, pad') ∧ it ≤ n + 2 ∧
      ((it = 0 ∧ ∀ j < 2, η j = ξ₀ j) ∨
       (0 < it ∧ |detJ pad ξ| * |η 0 - ξ 0| ≤ 2 * tol * (|jac pad ξ 0 1| + |jac pad ξ 1 1|) ∧ |detJ pad ξ| * |η 1 - ξ 1| ≤ 2 * tol * (|jac pad ξ 0 0| + |jac pad ξ 1 0|))) := by
  have hkd : pad.kind.ndim = pad.spaceNdim := by rw [hk, h2]; rfl
  -- the sign of the determinant
  have hdet : ∀ (η : Nat → ℝ) (t : ℝ), η 0 - ξ 0 = t * (dir pad ξ).1 → η 1 - ξ 1 = t * (dir pad ξ).2 → detJ pad η = detJ pad ξ * (1 + 2 * (t * c)) := by
    intro η t e0 e1
    rw [qua4_det_eq hk h2 hd η, e0, e1, hc]; ring
  have hD : 0 < detJ pad ξ ^ 2 := by positivity
  have ht1 : 0 < 1 + 2 * (t1 * c) := by
    rw [hdet ξ₁ t1 a0 a1] at hs
    by_contra hcon
    push Not at hcon
    have : detJ pad ξ * (1 + 2 * (t1 * c)) * detJ pad ξ = detJ pad ξ ^ 2 * (1 + 2 * (t1 * c)) := by ring
    rw [this] at hs
    nlinarith [mul_nonneg hD.le (neg_nonneg.2 hcon)]
  generalize ht2 : t1 ^ 2 * c / (1 + 2 * (t1 * c)) = t2 at hn
  replace ht2 := ht2.symm
  have hu2 : 0 ≤ t2 * c := by
    have : t2 * c = (t1 * c) ^ 2 / (1 + 2 * (t1 * c)) := by rw [ht2]; ring
    rw [this]; positivity
  -- the limits of the next coefficients
  have hres : ∀ (η : Nat → ℝ) (t : ℝ), η 0 - ξ 0 = t * (dir pad ξ).1 → η 1 - ξ 1 = t * (dir pad ξ).2 → residualNorm pad x η ≤ tol → ∀ i < 2, |mixed pad i| * |t * (1 + t * c)| ≤ tol := by
    intro η t e0 e1 hr i hi
    have := le_norm2 (d := pad.spaceNdim) (v := fun i => x i - Shapes.calcCoords pad.kind pad.X η i) (i := i) (by omega)
    beta_reduce at this
    rw [qua4_residual hk h2 hd hx e0 e1 hi, abs_neg, abs_mul, ← hc] at this
    exact this.trans hr
  have hdet0 : ∀ η : Nat → ℝ, (∀ j < 2, η j = ξ₀ j) → detJ pad η = detJ pad ξ₀ := by
    intro η h
    rw [qua4_det_eq hk h2 hd η, qua4_det_eq hk h2 hd ξ₀, h 0 (by omega), h 1 (by omega)]
  let P : Nat → (Nat → ℝ) → Prop := fun k η => match k with
    | 0 => ∀ j < 2, η j = ξ₀ j
    | 1 => ∀ j < 2, η j = ξ₁ j
    | k + 2 => ∃ t, η 0 - ξ 0 = t * (dir pad ξ).1 ∧ η 1 - ξ 1 = t * (dir pad ξ).2 ∧ 0 ≤ t * c ∧ t * c ≤ t2 * c ∧ |t| ≤ |t2| * (1 / 2) ^ k
  have hpos : ∀ k η, P (k + 1) η → ∃ t, η 0 - ξ 0 = t * (dir pad ξ).1 ∧ η 1 - ξ 1 = t * (dir pad ξ).2 ∧ 0 < 1 + 2 * (t * c) := by
    intro k η h
    match k, h with
    | 0, h => exact ⟨t1, by rw [h 0 (by omega)]; exact a0, by rw [h 1 (by omega)]; exact a1, ht1⟩
    | k + 1, ⟨t, b0, b1, b2, _⟩ => exact ⟨t, b0, b1, by linarith⟩
  unfold approximateKsi
  rw [if_neg (not_not.2 hkd), if_neg (by rw [h2]; simp), if_neg (by rw [hk]; decide)]
  obtain ⟨it, η, pad', r1, r2, r3, r4⟩ := loop_run hinv hok hkd (x := x) (tol := tol) P
    (by
      intro k η hP _
      rw [h2]
      apply hall
      have e : detN 2 (jac pad η) = detJ pad η := by unfold detJ; rw [h2]
      rw [e]
      match k, hP with
      | 0, hP => rw [hdet0 η hP]; exact hd0
      | k + 1, hP =>
        obtain ⟨t, b0, b1, b2⟩ := hpos k η hP
        rw [hdet η t b0 b1]
        exact mul_ne_zero hd b2.ne')
    (by
      intro k η ζ hP _ hst
      obtain ⟨τ, b0, b1, b2⟩ := qua4_step hk h2 hd hx hst
      match k, hP with
      | 0, hP =>
        rw [hP 0 (by omega), hP 1 (by omega), ← a2] at b2
        have hne : 1 + (ξ₀ 1 - ξ 1) * (dir pad ξ).1 + (ξ₀ 0 - ξ 0) * (dir pad ξ).2 ≠ 0 := by
          intro h
          rw [qua4_det_eq hk h2 hd ξ₀, h, mul_zero] at hd0
          exact hd0 rfl
        have : τ = t1 := mul_right_cancel₀ hne b2
        rw [this] at b0 b1
        intro j hj
        interval_cases j <;> linarith
      | 1, hP =>
        have e0 : η 0 - ξ 0 = t1 * (dir pad ξ).1 := by rw [hP 0 (by omega)]; exact a0
        have e1 : η 1 - ξ 1 = t1 * (dir pad ξ).2 := by rw [hP 1 (by omega)]; exact a1
        rw [e0, e1] at b2
        have : τ = t2 := by
          rw [ht2, eq_div_iff ht1.ne', hc]
          linear_combination b2
        rw [this] at b0 b1
        exact ⟨t2, b0, b1, hu2, le_refl _, by simp⟩
      | k + 2, hP =>
        obtain ⟨t, e0, e1, e2, e3, e4⟩ := hP
        rw [e0, e1] at b2
        have b3 : τ * (1 + 2 * (t * c)) = t * (t * c) := by rw [hc]; linear_combination b2
        obtain ⟨f1, f2, f3⟩ := coef_step e2 e3 e4 b3
        exact ⟨τ, b0, b1, f1, f2, by rw [pow_succ, ← mul_assoc]; exact f3⟩)
    (n + 2) (by
      intro η hP
      obtain ⟨t, e0, e1, e2, e3, e4⟩ := hP
      refine le_trans ?_ hn
      change norm2 pad.spaceNdim (fun i => x i - Shapes.calcCoords pad.kind pad.X η i) ≤ _
      rw [h2]
      refine norm2_two_le.trans ?_
      rw [qua4_residual hk h2 hd hx e0 e1 (i := 0) (by omega), qua4_residual hk h2 hd hx e0 e1 (i := 1) (by omega), abs_neg, abs_neg, abs_mul, abs_mul (mixed pad 1), ← add_mul, ← hc]
      refine mul_le_mul_of_nonneg_left ?_ (by positivity)
      rw [abs_mul, abs_of_nonneg (show 0 ≤ 1 + t * c by linarith)]
      exact mul_le_mul e4 (by linarith) (by linarith) (by positivity))
    0 (Nat.zero_le _) pad ⟨rfl, rfl, rfl, rfl⟩ (guessKsi big low pad x) (fun j hj => guess_eq (by rw [hk, h2]; exact hbl) h0 (by omega)) nitMax (by omega)
  refine ⟨it, η, pad', r1, r2, ?_⟩
  match it, r3 with
  | 0, r3 => exact Or.inl ⟨rfl, r3⟩
  | k + 1, r3 =>
    refine Or.inr ⟨by omega, ?_⟩
    obtain ⟨t, b0, b1, b2⟩ := hpos k η r3
    have hq : ∀ i < 2, |mixed pad i * t| ≤ 2 * tol := by
      intro i hi
      have := hres η t b0 b1 r4 i hi
      rw [abs_mul t, abs_of_pos (show 0 < 1 + t * c by linarith)] at this
      rw [abs_mul]
      have hp : 0 ≤ |mixed pad i| * |t| := by positivity
      have h3 := mul_le_mul_of_nonneg_left (show 1 / 2 ≤ 1 + t * c by linarith) hp
      rw [← mul_assoc] at this
      linarith
    exact qua4_accuracy hd b0 b1 (hq 0 (by omega)) (hq 1 (by omega))

/-- **C97 (`Qua4`).** Suppose that `x` is the image of the local coordinates `ξ` and that the determinants of the Jacobian at `ξ` and at the first guess are not zero.
If the determinant at the coordinates after one iteration has the sign of the determinant at `ξ`, then `approximate_ksi` succeeds for every positive tolerance and
enough iterations, and (unless it accepts the first guess) the result is near `ξ`, up to a constant times the tolerance. -/
theorem C97_qua4 (hinv : InverseSpec inv) (hall : ∀ a, detN 2 a ≠ 0 → ∃ r, inv 2 a = .ok r) {big low : ℝ} (hok : pad.okXxt = true) (hk : pad.kind = .qua4) (h2 : pad.spaceNdim = 2)
    (hbl : ∀ m < 4, ∀ j < 2, low ≤ pad.X m j ∧ pad.X m j ≤ big) (hx : MapsTo pad ξ x) (hd : detJ pad ξ ≠ 0) {ξ₀ ξ₁ : Nat → ℝ} (h0 : IsGuess pad x ξ₀) (hd0 : detJ pad ξ₀ ≠ 0)
    (h1 : NewtonStep pad x ξ₀ ξ₁) (hs : 0 < detJ pad ξ₁ * detJ pad ξ) (htol : 0 < tol) :
    ∃ n, ∀ nitMax > n, ∃ it η pad', approximateKsi inv big low pad 2 2 x nitMax tol = .ok (it, η, pad') ∧ it ≤ n ∧
      ((it = 0 ∧ ∀ j < 2, η j = ξ₀ j) ∨
       (0 < it ∧ |detJ pad ξ| * |η 0 - ξ 0| ≤ 2 * tol * (|jac pad ξ 0 1| + |jac pad ξ 1 1|) ∧ |detJ pad ξ| * |η 1 - ξ 1| ≤ 2 * tol * (|jac pad ξ 0 0| + |jac pad ξ 1 0|))) := by
  obtain ⟨t1, a0, a1, a2⟩ := qua4_step hk h2 hd hx h1
  obtain ⟨c, hc⟩ : ∃ c, c = (dir pad ξ).1 * (dir pad ξ).2 := ⟨_, rfl⟩
  set A := (|mixed pad 0| + |mixed pad 1|) * (|t1 ^ 2 * c / (1 + 2 * (t1 * c))| * (1 + t1 ^ 2 * c / (1 + 2 * (t1 * c)) * c)) with hA
  obtain ⟨n, hn⟩ : ∃ n : Nat, A * (1 / 2) ^ n ≤ tol := by
    by_cases h : A ≤ 0
    · exact ⟨0, by rw [pow_zero, mul_one]; linarith⟩
    · push Not at h
      obtain ⟨n, hn⟩ := exists_pow_lt_of_lt_one (div_pos htol h) (show (1 / 2 : ℝ) < 1 by norm_num)
      rw [lt_div_iff₀ h] at hn
      exact ⟨n, by linarith⟩
  refine ⟨n + 2, fun nitMax hnit => ?_⟩
  exact qua4_run hinv hall hok hk h2 hbl hx hd h0 hd0 hs hc a0 a1 a2 n (by rw [hA] at hn; linarith) hnit

/-- **C97 (`Qua4` with two parallel sides).** In a trapezoid with nonzero Jacobian (at `ξ` and at the guess), `approximate_ksi` finds the coordinates in at most two iterations,
whatever the tolerance. -/
theorem C97_trapezoid (hinv : InverseSpec inv) (hall : ∀ a, detN 2 a ≠ 0 → ∃ r, inv 2 a = .ok r) {big low : ℝ} (hok : pad.okXxt = true) (hk : pad.kind = .qua4) (h2 : pad.spaceNdim = 2)
    (hbl : ∀ m < 4, ∀ j < 2, low ≤ pad.X m j ∧ pad.X m j ≤ big)
    (hpar : (pad.X 1 0 - pad.X 0 0) * (pad.X 2 1 - pad.X 3 1) = (pad.X 1 1 - pad.X 0 1) * (pad.X 2 0 - pad.X 3 0) ∨
      (pad.X 3 0 - pad.X 0 0) * (pad.X 2 1 - pad.X 1 1) = (pad.X 3 1 - pad.X 0 1) * (pad.X 2 0 - pad.X 1 0))
    (hx : MapsTo pad ξ x) (hd : detJ pad ξ ≠ 0) {ξ₀ : Nat → ℝ} (h0 : IsGuess pad x ξ₀) (hd0 : detJ pad ξ₀ ≠ 0) (htol : 0 ≤ tol) {nitMax : Nat} (hnit : 2 < nitMax) :
    ∃ it η pad', approximateKsi inv big low pad 2 2 x nitMax tol = .ok (it, η, pad') ∧ it ≤ 2 ∧
      ((it = 0 ∧ ∀ j < 2, η j = ξ₀ j) ∨
       (0 < it ∧ |detJ pad ξ| * |η 0 - ξ 0| ≤ 2 * tol * (|jac pad ξ 0 1| + |jac pad ξ 1 1|) ∧ |detJ pad ξ| * |η 1 - ξ 1| ≤ 2 * tol * (|jac pad ξ 0 0| + |jac pad ξ 1 0|))) := by
  have hq : 1 + (ξ₀ 1 - ξ 1) * (dir pad ξ).1 + (ξ₀ 0 - ξ 0) * (dir pad ξ).2 ≠ 0 := by
    intro h
    rw [qua4_det_eq hk h2 hd ξ₀, h, mul_zero] at hd0
    exact hd0 rfl
  have hc : (dir pad ξ).1 * (dir pad ξ).2 = 0 := by
    unfold dir mixed jac
    rw [hk]
    simp only [GeoKind.nnode, Finset.sum_range_succ, Finset.sum_range_zero, zero_add]
    simp [Shapes.calcDeriv, Shapes.deriv, qua4Deriv, eval_lit]
    rcases hpar with h | h
    · right; left
      linear_combination h / 8
    · left; left
      linear_combination -h / 8
  set t1 := (ξ₀ 0 - ξ 0) * (ξ₀ 1 - ξ 1) / (1 + (ξ₀ 1 - ξ 1) * (dir pad ξ).1 + (ξ₀ 0 - ξ 0) * (dir pad ξ).2) with ht1
  let ξ₁ : Nat → ℝ := fun j => if j = 0 then ξ 0 + t1 * (dir pad ξ).1 else ξ 1 + t1 * (dir pad ξ).2
  refine qua4_run (ξ₁ := ξ₁) (t1 := t1) (c := 0) hinv hall hok hk h2 hbl hx hd h0 hd0 ?_ hc.symm (by simp [ξ₁]) (by simp [ξ₁]) (by rw [ht1]; field_simp) 0 (by simpa using htol) hnit
  rw [qua4_det_eq hk h2 hd ξ₁]
  have : 1 + (ξ₁ 1 - ξ 1) * (dir pad ξ).1 + (ξ₁ 0 - ξ 0) * (dir pad ξ).2 = 1 := by
    simp only [ξ₁, one_ne_zero, if_true, if_false]
    linear_combination 2 * t1 * hc
  rw [this, mul_one]
  exact mul_self_pos.2 hd

end
end Gemlab.InverseMap
