import Verif.Model.RoundedTetrahedron
import Verif.Proofs.Rounded
import Mathlib.Tactic.LinearCombination

/-! # Proofs about `tetrahedron_coords` with rounding: propagation of errors -/
namespace Gemlab.Rounded
noncomputable section

/-- The computed number `x` approximates the exact number `X`: `X` is at most `B * P` in magnitude, and the error is at most `e * u * P`. -/
def Ap (u P B e x X : ℝ) : Prop := 0 ≤ e ∧ |X| ≤ B * P ∧ |x - X| ≤ e * (u * P)

variable {fl : ℝ → ℝ} {u P Q B e x X C f y Y : ℝ}

theorem Ap.size (hu : 0 ≤ u ∧ u ≤ 1 / 100) (hP : 0 ≤ P) (h : Ap u P B e x X) : |x| ≤ (B + e / 100) * P := by
  obtain ⟨h0, h1, h2⟩ := h
  have := abs_add_le (x - X) X
  rw [sub_add_cancel] at this
  have h3 : e * (u * P) ≤ e / 100 * P := by
    have : u * P ≤ 1 / 100 * P := mul_le_mul_of_nonneg_right hu.2 hP
    nlinarith
  linarith

theorem Ap.add' (R : Rounding fl u) (hP : 0 ≤ P) {z Z : ℝ} (hz : |Z| ≤ (B + C) * P) (h3 : |z - Z| ≤ (e + f) * (u * P)) (hef : 0 ≤ e + f) (hBC : 0 ≤ B + C) :
    Ap u P (B + C) ((e + f) + (B + C) + (e + f) / 100) (fl z) Z := by
  have hs := Ap.size (u := u) (P := P) (B := B + C) (e := e + f) (x := z) (X := Z) R.small hP ⟨hef, hz, h3⟩
  refine ⟨by positivity, hz, ?_⟩
  have h4 := R.near hs
  have := abs_add_le (fl z - z) (z - Z)
  rw [sub_add_sub_cancel] at this
  refine this.trans ((add_le_add h4 h3).trans (le_of_eq ?_))
  ring

theorem Ap.nonneg (hP : 0 < P) (h : Ap u P B e x X) : 0 ≤ B := by
  by_contra hB
  push Not at hB
  have := (abs_nonneg _).trans h.2.1
  nlinarith

theorem Ap.add (R : Rounding fl u) (hP : 0 < P) (h : Ap u P B e x X) (h' : Ap u P C f y Y) :
    Ap u P (B + C) ((e + f) + (B + C) + (e + f) / 100) (fl (x + y)) (X + Y) := by
  refine Ap.add' R hP.le ((abs_add_le _ _).trans ?_) ?_ (add_nonneg h.1 h'.1) (add_nonneg (h.nonneg hP) (h'.nonneg hP))
  · linarith [h.2.1, h'.2.1]
  · rw [show x + y - (X + Y) = (x - X) + (y - Y) by ring]
    refine (abs_add_le _ _).trans ?_
    linarith [h.2.2, h'.2.2]

theorem Ap.sub (R : Rounding fl u) (hP : 0 < P) (h : Ap u P B e x X) (h' : Ap u P C f y Y) :
    Ap u P (B + C) ((e + f) + (B + C) + (e + f) / 100) (fl (x - y)) (X - Y) := by
  refine Ap.add' R hP.le ((abs_sub _ _).trans ?_) ?_ (add_nonneg h.1 h'.1) (add_nonneg (h.nonneg hP) (h'.nonneg hP))
  · linarith [h.2.1, h'.2.1]
  · rw [show x - y - (X - Y) = (x - X) - (y - Y) by ring]
    refine (abs_sub _ _).trans ?_
    linarith [h.2.2, h'.2.2]

theorem Ap.mul (R : Rounding fl u) (hP : 0 < P) (hQ : 0 < Q) (h : Ap u P B e x X) (h' : Ap u Q C f y Y) :
    Ap u (P * Q) (B * C) ((B + e / 100) * f + C * e + (B + e / 100) * (C + f / 100)) (fl (x * y)) (X * Y) := by
  have s1 := h.size R.small hP.le
  have s2 := h'.size R.small hQ.le
  have hB := h.nonneg hP
  have hC := h'.nonneg hQ
  have he := h.1
  have hf := h'.1
  have hu := R.small.1
  have p1 : 0 ≤ (B + e / 100) * P := by positivity
  refine ⟨by positivity, ?_, ?_⟩
  · rw [abs_mul, show B * C * (P * Q) = (B * P) * (C * Q) by ring]
    exact mul_le_mul h.2.1 h'.2.1 (abs_nonneg _) (by positivity)
  · have e1 : |x * y| ≤ (B + e / 100) * P * ((C + f / 100) * Q) := by
      rw [abs_mul]; exact mul_le_mul s1 s2 (abs_nonneg _) p1
    have e2 := R.near e1
    have e3 : |x * y - X * Y| ≤ (B + e / 100) * P * (f * (u * Q)) + C * Q * (e * (u * P)) := by
      rw [show x * y - X * Y = x * (y - Y) + Y * (x - X) by ring]
      refine (abs_add_le _ _).trans (add_le_add ?_ ?_)
      · rw [abs_mul]; exact mul_le_mul s1 h'.2.2 (abs_nonneg _) p1
      · rw [abs_mul]; exact mul_le_mul h'.2.1 h.2.2 (abs_nonneg _) (by positivity)
    have := abs_add_le (fl (x * y) - x * y) (x * y - X * Y)
    rw [sub_add_sub_cancel] at this
    refine this.trans ((add_le_add e2 e3).trans (le_of_eq ?_))
    ring

theorem Ap.weaken (hu : 0 ≤ u) (hP : 0 < P) (h : Ap u P B e x X) (hB : B ≤ C) (he : e ≤ f) : Ap u P C f x X :=
  ⟨h.1.trans he, h.2.1.trans (mul_le_mul_of_nonneg_right hB hP.le), h.2.2.trans (mul_le_mul_of_nonneg_right he (by positivity))⟩

theorem Ap.exact (h : |x| ≤ P) : Ap u P 1 0 x x := ⟨le_rfl, by rwa [one_mul], by simp⟩

variable {M : ℝ}

theorem Ap.diff (R : Rounding fl u) (hM : 0 < M) (hx : |x| ≤ M) (hy : |y| ≤ M) : Ap u M 2 2 (fl (x - y)) (x - y) := by
  refine ((Ap.exact hx).sub R hM (Ap.exact hy)).weaken R.small.1 hM ?_ ?_ <;> norm_num

theorem Ap.crossC (R : Rounding fl u) (hM : 0 < M) {a b c d : ℝ} (ha : |a| ≤ M) (hb : |b| ≤ M) (hc : |c| ≤ M) (hd : |d| ≤ M) :
    Ap u (M * M) 2 (402 / 100) (cross fl a b c d) (a * b - c * d) := by
  refine (((Ap.exact ha).mul R hM hM (Ap.exact hb)).sub R (by positivity) ((Ap.exact hc).mul R hM hM (Ap.exact hd))).weaken R.small.1 (by positivity) ?_ ?_ <;> norm_num

theorem Ap.crossD (R : Rounding fl u) (hM : 0 < M) {a b c d A B C D : ℝ} (ha : Ap u M 2 2 a A) (hb : Ap u M 2 2 b B) (hc : Ap u M 2 2 c C) (hd : Ap u M 2 2 d D) :
    Ap u (M * M) 8 (327 / 10) (cross fl a b c d) (A * B - C * D) := by
  refine ((ha.mul R hM hM hb).sub R (by positivity) (hc.mul R hM hM hd)).weaken R.small.1 (by positivity) ?_ ?_ <;> norm_num

/-- The error of the computed volume. -/
theorem Ap.volume (R : Rounding fl u) (hM : 0 < M) {a b c d e f A B C D E F : ℝ} (ha : Ap u M 2 2 a A) (hb : Ap u (M * M) 8 (327 / 10) b B)
    (hc : Ap u M 2 2 c C) (hd : Ap u (M * M) 8 (327 / 10) d D) (he : Ap u M 2 2 e E) (hf : Ap u (M * M) 8 (327 / 10) f F) :
    |dot3 fl a b c d e f - (A * B + C * D + E * F)| ≤ 400 * (u * M ^ 3) := by
  have hMM : 0 < M * M := by positivity
  have hMMM : 0 < M * (M * M) := by positivity
  have := ((((ha.mul R hM hMM hb).add R hMMM (hc.mul R hM hMM hd)).add R hMMM (he.mul R hM hMM hf)).weaken (C := 48) (f := 400) R.small.1 hMMM
    (by norm_num) (by norm_num)).2.2
  rw [show M ^ 3 = M * (M * M) by ring]
  exact this

/-- The error of a computed numerator. -/
theorem Ap.numer (R : Rounding fl u) (hM : 0 < M) {a b c d e f B D F x y z b' d' f' B' D' F' : ℝ} (ha : |a| ≤ M) (hb : Ap u (M * M) 2 (402 / 100) b B)
    (hc : |c| ≤ M) (hd : Ap u (M * M) 2 (402 / 100) d D) (he : |e| ≤ M) (hf : Ap u (M * M) 2 (402 / 100) f F)
    (hx : |x| ≤ M) (hb' : Ap u (M * M) 8 (327 / 10) b' B') (hy : |y| ≤ M) (hd' : Ap u (M * M) 8 (327 / 10) d' D')
    (hz : |z| ≤ M) (hf' : Ap u (M * M) 8 (327 / 10) f' F') :
    |plane fl (dot3 fl a b c d e f) x b' y d' z f' - ((a * B + c * D + e * F) + x * B' + y * D' + z * F')| ≤ 225 * (u * M ^ 3) := by
  have hMM : 0 < M * M := by positivity
  have hMMM : 0 < M * (M * M) := by positivity
  have k := (((Ap.exact ha).mul R hM hMM hb).add R hMMM ((Ap.exact hc).mul R hM hMM hd)).add R hMMM ((Ap.exact he).mul R hM hMM hf)
  have := ((((k.add R hMMM ((Ap.exact hx).mul R hM hMM hb')).add R hMMM ((Ap.exact hy).mul R hM hMM hd')).add R hMMM ((Ap.exact hz).mul R hM hMM hf')).weaken
    (C := 30) (f := 225) R.small.1 hMMM (by norm_num) (by norm_num)).2.2
  rw [show M ^ 3 = M * (M * M) by ring]
  exact this

end
end Gemlab.Rounded
