import Verif.Props.InverseMap
import Verif.Props.OneToOne
import Mathlib.Tactic.LinearCombination

/-!
# `approximate_ksi` for `Qua4`
-/
namespace Gemlab.InverseMap
noncomputable section
open Gemlab.Spec.Integ Gemlab.Spec.InverseMap Gemlab.Shapes Gemlab.Scratchpad

variable {inv : MatInverse} {pad : Scratchpad} {x ξ η : Nat → ℝ} {tol : ℝ}

/-- The coefficient of the mixed term. -/
def mixed (pad : Scratchpad) (i : Nat) : ℝ := (pad.X 0 i - pad.X 1 i + pad.X 2 i - pad.X 3 i) / 4

theorem qua4_jac (hk : pad.kind = .qua4) (ξ η : Nat → ℝ) (i : Nat) :
    jac pad η i 0 = jac pad ξ i 0 + mixed pad i * (η 1 - ξ 1) ∧ jac pad η i 1 = jac pad ξ i 1 + mixed pad i * (η 0 - ξ 0) := by
  unfold jac mixed
  rw [hk]
  simp only [GeoKind.nnode, Finset.sum_range_succ, Finset.sum_range_zero, zero_add]
  simp [Shapes.calcDeriv, Shapes.deriv, qua4Deriv, eval_lit]
  constructor <;> ring

theorem qua4_diff (hk : pad.kind = .qua4) (ξ η : Nat → ℝ) (i : Nat) :
    Shapes.calcCoords pad.kind pad.X η i - Shapes.calcCoords pad.kind pad.X ξ i =
      jac pad ξ i 0 * (η 0 - ξ 0) + jac pad ξ i 1 * (η 1 - ξ 1) + mixed pad i * (η 0 - ξ 0) * (η 1 - ξ 1) := by
  unfold jac mixed Shapes.calcCoords
  rw [hk]
  simp only [GeoKind.nnode, Finset.sum_range_succ, Finset.sum_range_zero, zero_add]
  simp [Shapes.calcInterp, Shapes.interp, Shapes.calcDeriv, Shapes.deriv, qua4Interp, qua4Deriv, eval_lit]
  ring

theorem detJ_two (h2 : pad.spaceNdim = 2) (ξ : Nat → ℝ) : detJ pad ξ = jac pad ξ 0 0 * jac pad ξ 1 1 - jac pad ξ 0 1 * jac pad ξ 1 0 := by
  unfold detJ
  rw [h2, detN_two]

/-- Direction of the errors after the first iteration. -/
def dir (pad : Scratchpad) (ξ : Nat → ℝ) : ℝ × ℝ :=
  ((mixed pad 0 * jac pad ξ 1 1 - mixed pad 1 * jac pad ξ 0 1) / detJ pad ξ, (jac pad ξ 0 0 * mixed pad 1 - jac pad ξ 1 0 * mixed pad 0) / detJ pad ξ)

theorem qua4_det_eq (hk : pad.kind = .qua4) (h2 : pad.spaceNdim = 2) (hd : detJ pad ξ ≠ 0) (η : Nat → ℝ) :
    detJ pad η = detJ pad ξ * (1 + (η 1 - ξ 1) * (dir pad ξ).1 + (η 0 - ξ 0) * (dir pad ξ).2) := by
  have e : detJ pad ξ * (1 + (η 1 - ξ 1) * (dir pad ξ).1 + (η 0 - ξ 0) * (dir pad ξ).2) = detJ pad ξ +
      (η 1 - ξ 1) * (mixed pad 0 * jac pad ξ 1 1 - mixed pad 1 * jac pad ξ 0 1) + (η 0 - ξ 0) * (jac pad ξ 0 0 * mixed pad 1 - jac pad ξ 1 0 * mixed pad 0) := by
    unfold dir; field_simp
  rw [e, detJ_two h2, detJ_two h2, (qua4_jac hk ξ η 0).1, (qua4_jac hk ξ η 0).2, (qua4_jac hk ξ η 1).1, (qua4_jac hk ξ η 1).2]
  ring

/-- A step of Newton's method: the new error is along `dir`. -/
theorem qua4_step (hk : pad.kind = .qua4) (h2 : pad.spaceNdim = 2) (hd : detJ pad ξ ≠ 0) (hx : MapsTo pad ξ x) {ζ : Nat → ℝ} (hs : NewtonStep pad x η ζ) :
    ∃ τ, ζ 0 - ξ 0 = τ * (dir pad ξ).1 ∧ ζ 1 - ξ 1 = τ * (dir pad ξ).2 ∧
      τ * (1 + (η 1 - ξ 1) * (dir pad ξ).1 + (η 0 - ξ 0) * (dir pad ξ).2) = (η 0 - ξ 0) * (η 1 - ξ 1) := by
  have key (i : Nat) (hi : i < 2) : jac pad ξ i 0 * (ζ 0 - ξ 0) + jac pad ξ i 1 * (ζ 1 - ξ 1) =
      mixed pad i * ((η 0 - ξ 0) * (η 1 - ξ 1) - (η 1 - ξ 1) * (ζ 0 - ξ 0) - (η 0 - ξ 0) * (ζ 1 - ξ 1)) := by
    have a := hs i (by omega)
    have b := hx i (by omega)
    change Shapes.calcCoords pad.kind pad.X η i + _ = _ at a
    change Shapes.calcCoords pad.kind pad.X ξ i = _ at b
    have c := qua4_diff hk ξ η i
    rw [h2] at a
    simp only [Finset.sum_range_succ, Finset.sum_range_zero, zero_add] at a
    rw [(qua4_jac hk ξ η i).1, (qua4_jac hk ξ η i).2] at a
    linear_combination a - b - c
  have k0 := key 0 (by omega)
  have k1 := key 1 (by omega)
  set τ := (η 0 - ξ 0) * (η 1 - ξ 1) - (η 1 - ξ 1) * (ζ 0 - ξ 0) - (η 0 - ξ 0) * (ζ 1 - ξ 1) with hτ
  have e0 : ζ 0 - ξ 0 = τ * (dir pad ξ).1 := by
    unfold dir
    simp only
    rw [mul_div_assoc', eq_div_iff hd, detJ_two h2]
    linear_combination jac pad ξ 1 1 * k0 - jac pad ξ 0 1 * k1
  have e1 : ζ 1 - ξ 1 = τ * (dir pad ξ).2 := by
    unfold dir
    simp only
    rw [mul_div_assoc', eq_div_iff hd, detJ_two h2]
    linear_combination jac pad ξ 0 0 * k1 - jac pad ξ 1 0 * k0
  refine ⟨τ, e0, e1, ?_⟩
  rw [e0, e1] at hτ
  linear_combination hτ

/-- The residual when the error is along `dir`. -/
theorem qua4_residual (hk : pad.kind = .qua4) (h2 : pad.spaceNdim = 2) (hd : detJ pad ξ ≠ 0) (hx : MapsTo pad ξ x) {t : ℝ} (h0 : η 0 - ξ 0 = t * (dir pad ξ).1)
    (h1 : η 1 - ξ 1 = t * (dir pad ξ).2) {i : Nat} (hi : i < 2) :
    x i - Shapes.calcCoords pad.kind pad.X η i = -(mixed pad i * (t * (1 + t * ((dir pad ξ).1 * (dir pad ξ).2)))) := by
  have a := hx i (by omega)
  change Shapes.calcCoords pad.kind pad.X ξ i = _ at a
  have b := qua4_diff hk ξ η i
  rw [h0, h1] at b
  have e : jac pad ξ i 0 * (dir pad ξ).1 + jac pad ξ i 1 * (dir pad ξ).2 = mixed pad i := by
    unfold dir
    simp only
    rw [mul_div_assoc', mul_div_assoc', ← add_div, div_eq_iff hd, detJ_two h2]
    interval_cases i <;> ring
  linear_combination -a - b - t * e

theorem foldl_min_mem (f : Nat → ℝ) (l : List Nat) (b c : ℝ) (hb : c ≤ b) (h : ∀ m ∈ l, c ≤ f m) : c ≤ l.foldl (fun acc m => min acc (f m)) b := by
  induction l generalizing b with
  | nil => exact hb
  | cons a l ih => exact ih _ (le_min hb (h a (by simp))) fun m hm => h m (by simp [hm])

theorem foldl_max_mem (f : Nat → ℝ) (l : List Nat) (b c : ℝ) (hb : b ≤ c) (h : ∀ m ∈ l, f m ≤ c) : l.foldl (fun acc m => max acc (f m)) b ≤ c := by
  induction l generalizing b with
  | nil => exact hb
  | cons a l ih => exact ih _ (max_le hb (h a (by simp))) fun m hm => h m (by simp [hm])

/-- The first guess. -/
theorem guess_eq {big low : ℝ} (hbl : ∀ m < pad.kind.nnode, ∀ j < pad.spaceNdim, low ≤ pad.X m j ∧ pad.X m j ≤ big) (h : IsGuess pad x η) {j : Nat} (hj : j < pad.spaceNdim) :
    guessKsi big low pad x j = η j := by
  obtain ⟨m, hm, n, hn, h1, h2, h3⟩ := h j hj
  have a : nodeMin big pad j = pad.X m j := le_antisymm ((foldl_min_le (fun m => pad.xxt j m) _ big).2 m (List.mem_range.2 hm))
    (foldl_min_mem (fun m => pad.xxt j m) _ big _ (hbl m hm j hj).2 fun l hl => (h1 l (List.mem_range.1 hl)).1)
  have b : nodeMax low pad j = pad.X n j := le_antisymm (foldl_max_mem (fun m => pad.xxt j m) _ low _ (hbl n hn j hj).1 fun l hl => (h1 l (List.mem_range.1 hl)).2)
    ((le_foldl_max (fun m => pad.xxt j m) _ low).2 n (List.mem_range.2 hn))
  unfold guessKsi
  rw [a, b]
  have hne : pad.X n j - pad.X m j ≠ 0 := by linarith
  unfold ksiMin ksiMax at h3
  by_cases ht : pad.kind.isTriOrTet = true
  · simp only [ht, if_true] at h3 ⊢
    field_simp
    linarith
  · simp only [ht, Bool.false_eq_true, if_false] at h3 ⊢
    field_simp
    linarith

end
end Gemlab.InverseMap
