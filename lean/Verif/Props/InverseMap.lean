import Verif.Proofs.InverseMap

/-!
# C97: the inverse of the isoparametric map is found
-/
namespace Gemlab.InverseMap
noncomputable section
open Gemlab.Spec.Integ Gemlab.Spec.InverseMap Gemlab.Shapes Gemlab.Scratchpad

variable {inv : MatInverse} {pad : Scratchpad} {x ξ η : Nat → ℝ} {tol : ℝ}

theorem le_norm2 {d : Nat} {v : Nat → ℝ} {i : Nat} (hi : i < d) : |v i| ≤ norm2 d v := by
  unfold norm2
  rw [← Real.sqrt_sq_eq_abs]
  exact Real.sqrt_le_sqrt (Finset.single_le_sum (f := fun i => v i ^ 2) (fun i _ => sq_nonneg _) (Finset.mem_range.2 hi))

theorem norm2_le {d : Nat} {v w : Nat → ℝ} {s : ℝ} (hs : 0 ≤ s) (h : ∀ i < d, |v i| ≤ w i * s) : norm2 d v ≤ norm2 d w * s := by
  unfold norm2
  rw [← Real.sqrt_sq hs, ← Real.sqrt_mul' _ (sq_nonneg s), Finset.sum_mul]
  refine Real.sqrt_le_sqrt (Finset.sum_le_sum fun i hi => ?_)
  rw [← mul_pow, ← sq_abs (v i)]
  have := h i (Finset.mem_range.1 hi)
  exact pow_le_pow_left₀ (abs_nonneg _) this 2

theorem near_nonneg {d : Nat} (hd : 0 < d) {a : Nat → Nat → ℝ} {ε : ℝ} (h : ∀ i < d, ∑ j ∈ Finset.range d, |a i j| ≤ ε) : 0 ≤ ε :=
  (Finset.sum_nonneg fun _ _ => abs_nonneg _).trans (h 0 hd)

/-- **C97 (one solution).** If the Jacobian matrix varies by less than 100 %, no other local coordinates in the neighbourhood give the same point. -/
theorem C97_unique (hk : pad.kind.ndim = pad.spaceNdim) (hd : 0 < pad.spaceNdim) {C : Nat → Nat → ℝ} {R ε : ℝ} (hε : ε < 1) (hA : NearAffine pad C ξ R ε)
    (hx : MapsTo pad ξ x) (hy : MapsTo pad η x) (h : ∀ j < pad.spaceNdim, |η j - ξ j| ≤ R) : ∀ j < pad.spaceNdim, η j = ξ j := by
  obtain ⟨m, hm, hmax⟩ := exists_max pad.spaceNdim hd fun j => η j - ξ j
  have := coords_bound hk hA (h m hm) (abs_nonneg _) hmax hm
  rw [Finset.sum_eq_zero fun k hk => by
    have a := hx k (Finset.mem_range.1 hk)
    have b := hy k (Finset.mem_range.1 hk)
    change Shapes.calcCoords pad.kind pad.X ξ k = _ at a
    change Shapes.calcCoords pad.kind pad.X η k = _ at b
    rw [a, b, sub_self, mul_zero], zero_sub, abs_neg] at this
  have h0 : |η m - ξ m| = 0 := le_antisymm (by nlinarith [abs_nonneg (η m - ξ m)]) (abs_nonneg _)
  intro j hj
  have := hmax j hj
  rw [h0] at this
  exact sub_eq_zero.1 (abs_eq_zero.1 (le_antisymm this (abs_nonneg _)))

/-- **C97 (convergence).** If `x` is the image of the local coordinates `ξ` and the Jacobian matrix varies by `ε < 1/3` relative to a fixed matrix `M`, then
`approximate_ksi` succeeds if `nit_max` is greater than a number `n` of iterations that follows from the tolerance. The distance to `ξ` is reduced by the factor
`2ε/(1-ε)` in each iteration, and the distance of the result is at most the tolerance times a constant. -/
theorem C97_converges (hinv : InverseSpec inv) (hall : ∀ a, detN pad.spaceNdim a ≠ 0 → ∃ r, inv pad.spaceNdim a = .ok r) (big low : ℝ) (hok : pad.okXxt = true)
    (hk : pad.kind.ndim = pad.spaceNdim) (hd : 0 < pad.spaceNdim) (hx : MapsTo pad ξ x) (hξ : ∀ j < pad.spaceNdim, ksiMin pad.kind ≤ ξ j ∧ ξ j ≤ ksiMax) (hb : InNodeBox pad x)
    {M C : Nat → Nat → ℝ} (hMC : ∀ i < pad.spaceNdim, ∀ l < pad.spaceNdim, ∑ k ∈ Finset.range pad.spaceNdim, M i k * C k l = if i = l then 1 else 0)
    {ε γ : ℝ} (hε : ε < 1 / 3) (hA : NearAffine pad C ξ (ksiMax - ksiMin pad.kind) ε) (hγ : ∀ i < pad.spaceNdim, ∑ k ∈ Finset.range pad.spaceNdim, |C i k| ≤ γ)
    {n nitMax : Nat} (hn : n < nitMax)
    (htol : norm2 pad.spaceNdim (fun i => ∑ k ∈ Finset.range pad.spaceNdim, |M i k|) * ((1 + ε) * ((2 * ε / (1 - ε)) ^ n * (ksiMax - ksiMin pad.kind))) ≤ tol) :
    ∃ it η pad', approximateKsi inv big low pad pad.spaceNdim pad.spaceNdim x nitMax tol = .ok (it, η, pad') ∧ it ≤ n ∧
      ∀ j < pad.spaceNdim, |η j - ξ j| ≤ (2 * ε / (1 - ε)) ^ it * (ksiMax - ksiMin pad.kind) ∧ (1 - ε) * |η j - ξ j| ≤ γ * tol := by
  set R := ksiMax - ksiMin pad.kind with hR
  have hR0 : 0 ≤ R := by rw [hR]; unfold ksiMax ksiMin; split <;> norm_num
  have hε0 : 0 ≤ ε := near_nonneg hd (hA ξ fun j _ => by rw [sub_self, abs_zero]; exact hR0)
  set ρ := 2 * ε / (1 - ε) with hρ
  have hρ0 : 0 ≤ ρ := div_nonneg (by linarith) (by linarith)
  have hρ1 : ρ ≤ 1 := by rw [hρ, div_le_one (by linarith)]; linarith
  have hρn (k : Nat) : ρ ^ k * R ≤ R := mul_le_of_le_one_left hR0 (pow_le_one₀ hρ0 hρ1)
  have hρp (k : Nat) : 0 ≤ ρ ^ k * R := mul_nonneg (pow_nonneg hρ0 k) hR0
  have hc (η : Nat → ℝ) (k : Nat) (hk : k < pad.spaceNdim) : x k - Shapes.calcCoords pad.kind pad.X η k = -(Shapes.calcCoords pad.kind pad.X η k - Shapes.calcCoords pad.kind pad.X ξ k) := by
    have a := hx k hk
    change Shapes.calcCoords pad.kind pad.X ξ k = _ at a
    rw [a]; ring
  unfold approximateKsi
  rw [if_neg (not_not.2 hk), if_neg (by simp), if_neg (by rw [hk]; simp)]
  obtain ⟨it, η, pad', h1, h2, h3, h4⟩ := loop_run hinv hok hk (x := x) (tol := tol) (fun k η => ∀ j < pad.spaceNdim, |η j - ξ j| ≤ ρ ^ k * R)
    (fun k η hP _ => hall _ (det_ne hd (by linarith) (hA η fun j hj => (hP j hj).trans (hρn k))))
    (fun k η ζ hP _ hs j hj => by
      have := step_bound hk hd hA (hρn k) (hρp k) hx hP hs j hj
      have e : ρ ^ (k + 1) * R = (2 * ε * (ρ ^ k * R)) / (1 - ε) := by rw [pow_succ, hρ]; ring
      rw [e, le_div_iff₀ (by linarith)]
      linarith)
    n (fun η hP => by
      refine le_trans ?_ htol
      change norm2 pad.spaceNdim (fun i => x i - Shapes.calcCoords pad.kind pad.X η i) ≤ _
      refine norm2_le (mul_nonneg (by linarith) (hρp n)) fun i hi => ?_
      rw [hc η i hi, abs_neg, ← delta_sum hi (fun k => Shapes.calcCoords pad.kind pad.X η k - Shapes.calcCoords pad.kind pad.X ξ k),
        Finset.sum_congr rfl fun l hl => by rw [← hMC i hi l (Finset.mem_range.1 hl), Finset.sum_mul], Finset.sum_comm,
        Finset.sum_congr rfl fun k _ => by rw [Finset.sum_congr rfl fun l _ => mul_assoc _ _ _, ← Finset.mul_sum]]
      refine row_bound (mul_nonneg (by linarith) (hρp n)) (le_refl _) fun k hk' => ?_
      have a := coords_bound hk hA (hρn n) (hρp n) hP hk'
      have b := hP k hk'
      rw [abs_le] at a b ⊢
      constructor <;> linarith)
    0 (Nat.zero_le _) pad ⟨rfl, rfl, rfl, rfl⟩ (guessKsi big low pad x) (fun j hj => by
      have a := guess_mem big low hb hj
      have b := hξ j hj
      rw [pow_zero, one_mul, abs_le, hR]
      constructor <;> linarith) nitMax (by omega)
  refine ⟨it, η, pad', h1, h2, fun j hj => ⟨h3 j hj, ?_⟩⟩
  -- accuracy
  obtain ⟨m, hm, hmax⟩ := exists_max pad.spaceNdim hd fun j => η j - ξ j
  have a := coords_bound hk hA ((h3 m hm).trans (hρn it)) (abs_nonneg _) hmax hm
  have ht : ∀ k < pad.spaceNdim, |Shapes.calcCoords pad.kind pad.X η k - Shapes.calcCoords pad.kind pad.X ξ k| ≤ tol := by
    intro k hk
    have := le_norm2 (v := fun i => x i - Shapes.calcCoords pad.kind pad.X η i) hk
    rw [hc η k hk, abs_neg] at this
    exact this.trans h4
  have ht0 : 0 ≤ tol := (abs_nonneg _).trans (ht 0 hd)
  have b := row_bound ht0 (hγ m hm) ht
  have hm2 := hmax j hj
  have hm3 : (1 - ε) * |η m - ξ m| ≤ γ * tol := by
    have := abs_le_of (a := η m - ξ m) (b := ∑ k ∈ Finset.range pad.spaceNdim, C m k * (Shapes.calcCoords pad.kind pad.X η k - Shapes.calcCoords pad.kind pad.X ξ k))
      (c := (∑ k ∈ Finset.range pad.spaceNdim, C m k * (Shapes.calcCoords pad.kind pad.X η k - Shapes.calcCoords pad.kind pad.X ξ k)) - (η m - ξ m)) (by ring)
    linarith
  exact le_trans (mul_le_mul_of_nonneg_left hm2 (by linarith)) hm3

end
end Gemlab.InverseMap
