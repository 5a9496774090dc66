import Verif.Spec.Scaling
import Verif.Props.RigidMotion2

set_option linter.unusedSimpArgs false
namespace Gemlab.Props.Integ
open Gemlab Gemlab.Integ Gemlab.Spec.Integ Gemlab.Scratchpad
noncomputable section

variable {c : ℝ} {pad pad' : Scratchpad}

theorem jac_scaled (h : Scaled c pad pad') (ξ : Nat → ℝ) {i : Nat} (hi : i < pad.spaceNdim) (j : Nat) : jac pad' ξ i j = c * jac pad ξ i j := by
  unfold jac
  rw [h.kind, Finset.mul_sum]
  exact Finset.sum_congr rfl fun m hm => by rw [h.coords m (Finset.mem_range.1 hm) i hi]; ring

theorem detJ_scaled (h : Scaled c pad pad') (ξ : Nat → ℝ) : detJ pad' ξ = c ^ pad.spaceNdim * detJ pad ξ := by
  unfold detJ detN
  rw [h.ndim]
  have e : (Matrix.of fun i j : Fin pad.spaceNdim => jac pad' ξ i j) = c • Matrix.of fun i j : Fin pad.spaceNdim => jac pad ξ i j := by
    ext i j
    rw [Matrix.smul_apply, smul_eq_mul]
    exact jac_scaled h ξ i.2 _
  rw [e, Matrix.det_smul, Fintype.card_fin]

theorem measure_scaled (h : Scaled c pad pad') (hs : pad.kind.ndim = pad.spaceNdim ∨ pad.kind.ndim = 1) (ξ : Nat → ℝ) :
    jacMeasure pad' ξ = c ^ pad.kind.ndim * jacMeasure pad ξ := by
  unfold jacMeasure
  rw [h.kind, h.ndim]
  split
  · rename_i hk
    rw [detJ_scaled h, hk]
  · rename_i hk
    have h1 : pad.kind.ndim = 1 := by tauto
    rw [if_pos h1, if_pos h1, h1, pow_one]
    have e : ∑ i ∈ Finset.range pad.spaceNdim, jac pad' ξ i 0 ^ 2 = c ^ 2 * ∑ i ∈ Finset.range pad.spaceNdim, jac pad ξ i 0 ^ 2 := by
      rw [Finset.mul_sum]
      exact Finset.sum_congr rfl fun i hi => by rw [jac_scaled h ξ (Finset.mem_range.1 hi)]; ring
    rw [e, Real.sqrt_mul (sq_nonneg c), Real.sqrt_sq h.pos.le]

theorem grad_scaled (h : Scaled c pad pad') {ξ : Nat → ℝ} {B : Nat → Nat → ℝ} (hB : IsGradient pad ξ B) : IsGradient pad' ξ (fun m i => c⁻¹ * B m i) := by
  intro m hm j hj
  rw [h.kind] at hm ⊢
  rw [h.ndim] at hj ⊢
  rw [← hB m hm j hj]
  refine Finset.sum_congr rfl fun i hi => ?_
  rw [jac_scaled h ξ (Finset.mem_range.1 hi)]
  have := h.pos.ne'
  field_simp

/-! ## Normal vectors -/

theorem raw_scaled {d : Nat} (hd : d = 2 ∨ d = 3) {jj jj' : Nat → Nat → ℝ} (h : ∀ i < d, ∀ j, jj' i j = c * jj i j) (i : Nat) :
    nrmRaw d jj' i = c ^ (d - 1) * nrmRaw d jj i := by
  unfold nrmRaw
  rcases hd with rfl | rfl
  · rw [if_pos rfl, if_pos rfl, h 1 (by norm_num), h 0 (by norm_num)]
    split <;> ring
  · have h32 : ¬ (3 : Nat) = 2 := by norm_num
    simp only [if_neg h32]
    simp only [h 0 (by norm_num), h 1 (by norm_num), h 2 (by norm_num)]
    split
    · ring
    split <;> ring

theorem nrmOut_scaled (hc : 0 < c) {d : Nat} (hd : d = 2 ∨ d = 3) {jj jj' : Nat → Nat → ℝ} (h : ∀ i < d, ∀ j, jj' i j = c * jj i j) :
    (nrmOut d jj').1 = c ^ (d - 1) * (nrmOut d jj).1 ∧ ∀ i < d, (nrmOut d jj').2 i = (nrmOut d jj).2 i := by
  obtain ⟨a1, a2⟩ := nrmOut_raw hd jj
  obtain ⟨b1, b2⟩ := nrmOut_raw hd jj'
  have hp : 0 < c ^ (d - 1) := pow_pos hc _
  have e : (nrmOut d jj').1 = c ^ (d - 1) * (nrmOut d jj).1 := by
    rw [a1, b1]
    have e : ∑ i ∈ Finset.range d, nrmRaw d jj' i * nrmRaw d jj' i = (c ^ (d - 1)) ^ 2 * ∑ i ∈ Finset.range d, nrmRaw d jj i * nrmRaw d jj i := by
      rw [Finset.mul_sum]
      exact Finset.sum_congr rfl fun i _ => by rw [raw_scaled hd h]; ring
    rw [e, Real.sqrt_mul (sq_nonneg _), Real.sqrt_sq hp.le]
  refine ⟨e, fun i hi => ?_⟩
  rw [a2 i hi, b2 i hi, e, raw_scaled hd h]
  by_cases h0 : 0 < (nrmOut d jj).1
  · rw [if_pos h0, if_pos (mul_pos hp h0), mul_div_mul_left _ _ hp.ne']
  · have hz : (nrmOut d jj).1 = 0 := le_antisymm (not_lt.1 h0) (by rw [a1]; exact Real.sqrt_nonneg _)
    rw [if_neg h0, hz, mul_zero, if_neg (lt_irrefl _)]
    have : ∑ i ∈ Finset.range d, nrmRaw d jj i * nrmRaw d jj i = 0 := by
      have h1 := a1.symm.trans hz
      exact (Real.sqrt_eq_zero (Finset.sum_nonneg fun i _ => mul_self_nonneg _)).1 h1
    have h2 := (Finset.sum_eq_zero_iff_of_nonneg fun i _ => mul_self_nonneg (nrmRaw d jj i)).1 this i (Finset.mem_range.2 hi)
    rw [mul_self_eq_zero.1 h2, mul_zero]

/-! ## Quadratures -/

variable {args : CommonArgs}

theorem radius_scaled (h : Scaled c args.pad pad') (hd : SpaceOk args.pad) (p : Nat) : radiusAt (withPad args pad') p = c * radiusAt args p := by
  unfold radiusAt
  rw [Finset.mul_sum]
  change ∑ m ∈ Finset.range pad'.kind.nnode, Shapes.calcInterp pad'.kind (args.gauss.coords p) m * pad'.X m 0 = _
  rw [h.kind]
  refine Finset.sum_congr rfl fun m hm => ?_
  rw [h.coords m (Finset.mem_range.1 hm) 0 (by rcases hd with hd | hd <;> omega)]
  unfold shapeN
  ring

theorem quad_scaled (h : Scaled c args.pad pad') (hd : SpaceOk args.pad) (k : Nat) {μ μ' : (Nat → ℝ) → ℝ} {f f' : Nat → ℝ}
    (hμ : ∀ p < args.gauss.npoint, μ' (args.gauss.coords p) = c ^ args.pad.kind.ndim * μ (args.gauss.coords p)) (hk : k ≤ order args)
    (hf : ∀ p < args.gauss.npoint, c ^ k * f' p = f p) :
    quadrature (withPad args pad') μ' f' = c ^ (order args - k) * quadrature args μ f := by
  unfold quadrature
  rw [Finset.mul_sum]
  refine Finset.sum_congr rfl fun p hp => ?_
  have hp' := Finset.mem_range.1 hp
  rw [← hf p hp']
  unfold factor
  rw [radius_scaled h hd]
  change args.alpha * args.gauss.weight p * μ' (args.gauss.coords p) * (if args.axisymmetric = true then _ else _) * _ = _
  rw [hμ p hp']
  have e : c ^ (order args - k) * c ^ k = c ^ order args := by rw [← pow_add]; congr 1; omega
  have e2 : c ^ order args = c ^ args.pad.kind.ndim * if args.axisymmetric then c else 1 := by
    unfold order
    split
    · rw [pow_succ]
    · rw [add_zero, mul_one]
  rw [show c ^ (order args - k) * (args.alpha * args.gauss.weight p * μ (args.gauss.coords p) * (if args.axisymmetric = true then radiusAt args p else 1) *
    (c ^ k * f' p)) = (c ^ (order args - k) * c ^ k) * (args.alpha * args.gauss.weight p * μ (args.gauss.coords p) * (if args.axisymmetric = true then radiusAt args p else 1) * f' p) from by ring, e, e2]
  split <;> ring

theorem strain_scaled (h : Scaled c args.pad pad') (hd : SpaceOk args.pad) (B : Nat → Nat → ℝ) (p m i k l : Nat) :
    strainOp (withPad args pad') (fun m i => c⁻¹ * B m i) p m i k l = c⁻¹ * strainOp args B p m i k l := by
  unfold strainOp
  rw [radius_scaled h hd, show (withPad args pad').pad.spaceNdim = args.pad.spaceNdim from h.ndim,
    show shapeN (withPad args pad') p m = shapeN args p m from by unfold shapeN withPad; dsimp only; rw [h.kind]]
  by_cases hx : k = i ∧ l < args.pad.spaceNdim
  · rw [if_pos hx, if_pos hx]
  rw [if_neg hx, if_neg hx]
  by_cases hy : args.axisymmetric = true ∧ i = 0 ∧ k = 2 ∧ l = 2
  · have hy' : (withPad args pad').axisymmetric = true ∧ i = 0 ∧ k = 2 ∧ l = 2 := hy
    rw [if_pos hy, if_pos hy', div_eq_mul_inv, mul_inv, div_eq_mul_inv]
    ring
  · have hy' : ¬ ((withPad args pad').axisymmetric = true ∧ i = 0 ∧ k = 2 ∧ l = 2) := hy
    rw [if_neg hy, if_neg hy', mul_zero]

theorem shapeN_scaled (h : Scaled c args.pad pad') : shapeN (withPad args pad') = shapeN args := by
  funext p m
  unfold shapeN withPad
  rw [h.kind]

/-- The gradients in the other unit. -/
def divB (c : ℝ) (B : Nat → Nat → Nat → ℝ) : Nat → Nat → Nat → ℝ := fun p m i => c⁻¹ * B p m i

theorem gradRegular_scaled {inv : MatInverse} (h : Scaled c pad pad') {g : Gauss} {B : Nat → Nat → Nat → ℝ} (hreg : GradRegular inv pad g B)
    (hreg' : ∀ p < g.npoint, ∃ r, pad'.calcGradient inv (g.coords p) = .ok r) :
    GradRegular inv pad' g (divB c B) :=
  fun p hp => ⟨hreg' p hp, grad_scaled h (hreg p hp).2⟩

theorem detMeasure_scaled {inv : MatInverse} (h : Scaled c pad pad') {g : Gauss} {B : Nat → Nat → Nat → ℝ} (hreg : GradRegular inv pad g B) :
    ∀ p < g.npoint, detJ pad' (g.coords p) = c ^ pad.kind.ndim * detJ pad (g.coords p) := fun p hp => by
  rw [detJ_scaled h, gradReg_ndim (hreg p hp).1]

end
end Gemlab.Props.Integ
