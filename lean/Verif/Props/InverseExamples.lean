import Verif.Props.InverseQua4

/-!
# C97: a quadrilateral where the wrong coordinates are found, and examples
-/
namespace Gemlab.InverseMap
noncomputable section
open Gemlab.Spec.Integ Gemlab.Spec.InverseMap Gemlab.Shapes Gemlab.Scratchpad Gemlab.Spec.Analytical

variable {inv : MatInverse} {pad : Scratchpad} {x ξ η : Nat → ℝ} {tol : ℝ}

theorem qua4_jac_eq (hk : pad.kind = .qua4) (η : Nat → ℝ) (i : Nat) :
    jac pad η i 0 = (-(1 - η 1) * pad.X 0 i + (1 - η 1) * pad.X 1 i + (1 + η 1) * pad.X 2 i - (1 + η 1) * pad.X 3 i) / 4 ∧
    jac pad η i 1 = (-(1 - η 0) * pad.X 0 i - (1 + η 0) * pad.X 1 i + (1 + η 0) * pad.X 2 i + (1 - η 0) * pad.X 3 i) / 4 := by
  unfold jac
  rw [hk]
  simp only [GeoKind.nnode, Finset.sum_range_succ, Finset.sum_range_zero, zero_add]
  simp [Shapes.calcDeriv, Shapes.deriv, qua4Deriv, eval_lit]
  constructor <;> ring

theorem qua4_coords_eq (hk : pad.kind = .qua4) (η : Nat → ℝ) (i : Nat) : ∑ m ∈ Finset.range pad.kind.nnode, pad.X m i * Shapes.calcInterp pad.kind η m =
    ((1 - η 0) * (1 - η 1) * pad.X 0 i + (1 + η 0) * (1 - η 1) * pad.X 1 i + (1 + η 0) * (1 + η 1) * pad.X 2 i + (1 - η 0) * (1 + η 1) * pad.X 3 i) / 4 := by
  rw [hk]
  simp only [GeoKind.nnode, Finset.sum_range_succ, Finset.sum_range_zero, zero_add]
  simp [Shapes.calcInterp, Shapes.interp, qua4Interp, eval_lit]
  ring

/-- **C97 (wrong coordinates).** In the convex quadrilateral with the corners (3,8), (0,8), (4,3), (8,7), the Jacobian is positive everywhere, but for the second corner
(whose local coordinates are 1, -1) `approximate_ksi` returns coordinates near (-3/2, -17/7), outside the reference square, with every tolerance up to 1/5. -/
theorem C97_wrong (hinv : InverseSpec inv) (hall : ∀ n a, detN n a ≠ 0 → ∃ r, inv n a = .ok r) {big low : ℝ} (hb : 8 ≤ big) (hl : low ≤ 0) (hok : pad.okXxt = true)
    (hk : pad.kind = .qua4) (h2 : pad.spaceNdim = 2) (hX : ∀ m < 4, (pad.X m 0, pad.X m 1) = ([(3, 8), (0, 8), (4, 3), (8, 7)] : List (ℝ × ℝ)).getD m (0, 0)) :
    (∀ r s t, GaussSpec.InReference .qua r s t → ∃ d p, calcJacobian inv pad (point r s t) = .ok (d, p) ∧ 0 < d) ∧
    MapsTo pad (point 1 (-1) 0) (pad.X 1) ∧
    ∀ tol, 0 < tol → tol ≤ 1 / 5 → ∃ n, ∀ nitMax > n, ∃ it η pad', approximateKsi inv big low pad 2 2 (pad.X 1) nitMax tol = .ok (it, η, pad') ∧ η 0 < -1 ∧ η 1 < -2 := by
  have x0 : pad.X 0 0 = 3 ∧ pad.X 0 1 = 8 := by simpa using hX 0 (by decide)
  have x1 : pad.X 1 0 = 0 ∧ pad.X 1 1 = 8 := by simpa using hX 1 (by decide)
  have x2 : pad.X 2 0 = 4 ∧ pad.X 2 1 = 3 := by simpa using hX 2 (by decide)
  have x3 : pad.X 3 0 = 8 ∧ pad.X 3 1 = 7 := by simpa using hX 3 (by decide)
  obtain ⟨x00, x01⟩ := x0
  obtain ⟨x10, x11⟩ := x1
  obtain ⟨x20, x21⟩ := x2
  obtain ⟨x30, x31⟩ := x3
  have hj00 (η : Nat → ℝ) : jac pad η 0 0 = (-(1 - η 1) * 3 + (1 + η 1) * 4 - (1 + η 1) * 8) / 4 := by rw [(qua4_jac_eq hk η 0).1, x00, x10, x20, x30]; ring
  have hj01 (η : Nat → ℝ) : jac pad η 0 1 = (-(1 - η 0) * 3 + (1 + η 0) * 4 + (1 - η 0) * 8) / 4 := by rw [(qua4_jac_eq hk η 0).2, x00, x10, x20, x30]; ring
  have hj10 (η : Nat → ℝ) : jac pad η 1 0 = ((1 + η 1) * 3 - (1 + η 1) * 7) / 4 := by rw [(qua4_jac_eq hk η 1).1, x01, x11, x21, x31]; ring
  have hj11 (η : Nat → ℝ) : jac pad η 1 1 = (-(1 - η 0) * 8 - (1 + η 0) * 8 + (1 + η 0) * 3 + (1 - η 0) * 7) / 4 := by rw [(qua4_jac_eq hk η 1).2, x01, x11, x21, x31]
  have p0 (r s t : ℝ) : point r s t 0 = r := rfl
  have p1 (r s t : ℝ) : point r s t 1 = s := rfl
  have hmap : MapsTo pad (point (-3 / 2) (-17 / 7) 0) (pad.X 1) := by
    intro i hi
    rw [h2] at hi
    rw [qua4_coords_eq hk, p0, p1]
    interval_cases i
    · rw [x00, x10, x20, x30]; norm_num
    · rw [x01, x11, x21, x31]; norm_num
  refine ⟨(C79_qua4_valid hinv hall hk h2 hok).2 ?_, ?_, fun tol ht ht5 => ?_⟩
  · unfold corner
    rw [x00, x01, x10, x11, x20, x21, x30, x31]
    exact convex_of_four (by norm_num [Mesh.sideOf]) (by norm_num [Mesh.sideOf]) (by norm_num [Mesh.sideOf]) (by norm_num [Mesh.sideOf])
  · intro i hi
    rw [qua4_coords_eq hk, p0, p1]
    ring
  · have hguess : IsGuess pad (pad.X 1) (point (-1) 1 0) := by
      intro j hj
      rw [h2] at hj
      have hmin : ksiMin pad.kind = -1 := by unfold ksiMin; rw [hk]; rfl
      rw [hmin, hk]
      unfold ksiMax
      interval_cases j
      · refine ⟨1, by decide, 3, by decide, fun l hl => ?_, by rw [x10, x30]; norm_num, by rw [p0]; ring⟩
        have hl : l < 4 := hl
        interval_cases l <;> simp only [x00, x10, x20, x30] <;> norm_num
      · refine ⟨2, by decide, 1, by decide, fun l hl => ?_, by rw [x11, x21]; norm_num, by rw [p1]⟩
        have hl : l < 4 := hl
        interval_cases l <;> simp only [x01, x11, x21, x31] <;> norm_num
    have hD : detJ pad (point (-3 / 2) (-17 / 7) 0) = -15 / 4 := by rw [detJ_two h2, hj00, hj01, hj10, hj11, p0, p1]; norm_num
    have hD0 : detJ pad (point (-1) 1 0) = 6 := by rw [detJ_two h2, hj00, hj01, hj10, hj11, p0, p1]; norm_num
    have hD1 : detJ pad (point (-3 / 4) (-2) 0) = -3 / 2 := by rw [detJ_two h2, hj00, hj01, hj10, hj11, p0, p1]; norm_num
    obtain ⟨n, hn⟩ := C97_qua4 (big := big) (low := low) hinv (hall 2) hok hk h2 (fun m hm j hj => by
        interval_cases m <;> interval_cases j <;> simp only [x00, x01, x10, x11, x20, x21, x30, x31] <;> constructor <;> linarith)
      hmap (by rw [hD]; norm_num) hguess (by rw [hD0]; norm_num) (ξ₁ := point (-3 / 4) (-2) 0) (by
        intro i hi
        rw [h2] at hi ⊢
        rw [qua4_coords_eq hk, p0, p1]
        simp only [Finset.sum_range_succ, Finset.sum_range_zero, zero_add, p0, p1]
        interval_cases i
        · rw [hj00, hj01, p0, p1, x00, x10, x20, x30]; norm_num
        · rw [hj10, hj11, p0, p1, x01, x11, x21, x31]; norm_num) (by rw [hD, hD1]; norm_num) ht
    refine ⟨n, fun nitMax hnit => ?_⟩
    obtain ⟨it, η, pad', r1, -, r3⟩ := hn nitMax hnit
    refine ⟨it, η, pad', r1, ?_⟩
    rcases r3 with ⟨-, r3⟩ | ⟨-, r3, r4⟩
    · exfalso
      have := (C33_sound r1).2.1
      have h7 := le_norm2 (d := pad.spaceNdim) (v := fun i => pad.X 1 i - Shapes.calcCoords pad.kind pad.X η i) (i := 1) (by omega)
      have e : Shapes.calcCoords pad.kind pad.X η 1 = 7 := by
        change ∑ m ∈ Finset.range pad.kind.nnode, pad.X m 1 * Shapes.calcInterp pad.kind η m = 7
        rw [qua4_coords_eq hk, r3 0 (by omega), r3 1 (by omega), p0, p1, x01, x11, x21, x31]; norm_num
      rw [e, x11] at h7
      unfold norm2 at h7
      have h8 := h7.trans this
      norm_num at h8
      linarith
    · rw [hD, hj01, hj11, p0, abs_of_neg (by norm_num : (-15 / 4 : ℝ) < 0)] at r3
      rw [hD, hj00, hj10, p1, abs_of_neg (by norm_num : (-15 / 4 : ℝ) < 0)] at r4
      norm_num [abs_of_pos, abs_of_neg] at r3 r4
      have h3 := le_abs_self (η 0 + 3 / 2)
      have h4 := le_abs_self (η 1 + 17 / 7)
      constructor <;> linarith

/-- A quadrilateral in the plane. -/
def quad (X : Nat → Nat → ℝ) : Scratchpad := { referencePad .qua4 with xxt := fun i m => X m i, okXxt := true }

/-- The reference square with one corner moved outwards. -/
def bulge (m i : Nat) : ℝ := (([[-1, -1], [1, -1], [21 / 20, 21 / 20], [-1, 1]] : List (List ℝ)).getD m []).getD i 0

/-- A trapezoid. -/
def trapezoid (m i : Nat) : ℝ := (([[-1, -1], [1, -1], [0, 1], [-1, 1]] : List (List ℝ)).getD m []).getD i 0

/-- The hypotheses of `C97_converges` are met at all points of an element that is not affine. -/
theorem C97_example : ∃ pad : Scratchpad, pad.kind = .qua4 ∧ pad.spaceNdim = 2 ∧ pad.okXxt = true ∧ pad.X 0 0 - pad.X 1 0 + pad.X 2 0 - pad.X 3 0 ≠ 0 ∧
    ∀ r s : ℝ, -1 ≤ r → r ≤ 1 → -1 ≤ s → s ≤ 1 → NearAffine pad (fun i j => if i = j then 1 else 0) (point r s 0) (ksiMax - ksiMin pad.kind) (1 / 10) ∧
      InNodeBox pad fun i => ∑ m ∈ Finset.range pad.kind.nnode, pad.X m i * Shapes.calcInterp pad.kind (point r s 0) m := by
  have hX (m i : Nat) : (quad bulge).X m i = bulge m i := rfl
  refine ⟨quad bulge, rfl, rfl, rfl, by simp only [hX]; norm_num [bulge], fun r s hr1 hr2 hs1 hs2 => ⟨fun η hη i hi => ?_, fun j hj => ?_⟩⟩
  · have hi : i < 2 := hi
    have hR : ksiMax - ksiMin (quad bulge).kind = 2 := by unfold ksiMax ksiMin; simp [quad, referencePad, GeoKind.isTriOrTet]; norm_num
    rw [hR] at hη
    have a0 := abs_le.1 (hη 0 (by decide))
    have a1 := abs_le.1 (hη 1 (by decide))
    have p0 : point r s 0 0 = r := rfl
    have p1 : point r s 0 1 = s := rfl
    rw [p0] at a0
    rw [p1] at a1
    change ∑ j ∈ Finset.range 2, |∑ k ∈ Finset.range 2, (if i = k then 1 else 0) * jac (quad bulge) η k j - if i = j then 1 else 0| ≤ 1 / 10
    have e0 := qua4_jac_eq (pad := quad bulge) rfl η 0
    have e1 := qua4_jac_eq (pad := quad bulge) rfl η 1
    simp only [hX, bulge] at e0 e1
    norm_num at e0 e1
    have b1 : |(1 + η 1) / 80| ≤ 1 / 20 := by rw [abs_le]; constructor <;> linarith
    have b0 : |(1 + η 0) / 80| ≤ 1 / 20 := by rw [abs_le]; constructor <;> linarith
    simp only [Finset.sum_range_succ, Finset.sum_range_zero, zero_add]
    interval_cases i
    · simp only [e0.1, e0.2]
      norm_num
      refine le_trans (le_of_eq ?_) (add_le_add b1 b0 |>.trans (by norm_num))
      congr 2 <;> ring
    · simp only [e1.1, e1.2]
      norm_num
      refine le_trans (le_of_eq ?_) (add_le_add b1 b0 |>.trans (by norm_num))
      congr 2 <;> ring
  · have hj : j < 2 := hj
    beta_reduce
    rw [qua4_coords_eq (pad := quad bulge) rfl]
    have p0 : point r s 0 0 = r := rfl
    have p1 : point r s 0 1 = s := rfl
    rw [p0, p1]
    simp only [hX]
    have n1 : 0 ≤ (1 + r) * (1 - s) := mul_nonneg (by linarith) (by linarith)
    have n2 : 0 ≤ (1 + r) * (1 + s) := mul_nonneg (by linarith) (by linarith)
    have n3 : 0 ≤ (1 - r) * (1 + s) := mul_nonneg (by linarith) (by linarith)
    have n0 : 0 ≤ (1 - r) * (1 - s) := mul_nonneg (by linarith) (by linarith)
    refine ⟨⟨0, by decide, ?_⟩, 2, by decide, ?_⟩ <;> interval_cases j <;> norm_num [bulge] <;> nlinarith

/-- The hypotheses of `C97_trapezoid` are met at the centre of a trapezoid. -/
theorem C97_example_trapezoid : ∃ (pad : Scratchpad) (ξ₀ x : Nat → ℝ), pad.kind = .qua4 ∧ pad.spaceNdim = 2 ∧ pad.okXxt = true ∧
    (pad.X 1 0 - pad.X 0 0) * (pad.X 2 1 - pad.X 3 1) = (pad.X 1 1 - pad.X 0 1) * (pad.X 2 0 - pad.X 3 0) ∧
    pad.X 0 0 - pad.X 1 0 + pad.X 2 0 - pad.X 3 0 ≠ 0 ∧ MapsTo pad (point 0 0 0) x ∧ detJ pad (point 0 0 0) ≠ 0 ∧ IsGuess pad x ξ₀ ∧ detJ pad ξ₀ ≠ 0 ∧ ξ₀ 0 ≠ 0 := by
  have hX (m i : Nat) : (quad trapezoid).X m i = trapezoid m i := rfl
  have p0 (r : ℝ) : point r 0 0 0 = r := rfl
  have p1 (r : ℝ) : point r 0 0 1 = 0 := rfl
  refine ⟨quad trapezoid, point (-1 / 4) 0 0, point (-1 / 4) 0 0, rfl, rfl, rfl, by simp only [hX]; norm_num [trapezoid], by simp only [hX]; norm_num [trapezoid], fun i hi => ?_, ?_, fun j hj => ?_, ?_, by rw [p0]; norm_num⟩
  · have hi : i < 2 := hi
    rw [qua4_coords_eq (pad := quad trapezoid) rfl, p0, p1]
    simp only [hX]
    interval_cases i <;> norm_num [trapezoid, point]
  · rw [detJ_two rfl, (qua4_jac_eq (pad := quad trapezoid) rfl _ 0).1, (qua4_jac_eq (pad := quad trapezoid) rfl _ 0).2, (qua4_jac_eq (pad := quad trapezoid) rfl _ 1).1, (qua4_jac_eq (pad := quad trapezoid) rfl _ 1).2, p0, p1]
    simp only [hX]
    norm_num [trapezoid]
  · have hj : j < 2 := hj
    have hR : ksiMin (quad trapezoid).kind = -1 := by unfold ksiMin; simp [quad, referencePad, GeoKind.isTriOrTet]
    rw [hR]
    refine ⟨0, by decide, if j = 0 then 1 else 2, ?_, fun l hl => ?_, ?_, ?_⟩
    · split <;> decide
    · have hl : l < 4 := hl
      simp only [hX]
      interval_cases l <;> interval_cases j <;> norm_num [trapezoid]
    · simp only [hX]; interval_cases j <;> norm_num [trapezoid]
    · simp only [hX, ksiMax]; interval_cases j <;> norm_num [trapezoid, point]
  · rw [detJ_two rfl, (qua4_jac_eq (pad := quad trapezoid) rfl _ 0).1, (qua4_jac_eq (pad := quad trapezoid) rfl _ 0).2, (qua4_jac_eq (pad := quad trapezoid) rfl _ 1).1, (qua4_jac_eq (pad := quad trapezoid) rfl _ 1).2, p0, p1]
    simp only [hX]
    norm_num [trapezoid]

end
end Gemlab.InverseMap
