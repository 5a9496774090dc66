import Verif.Model.Scratchpad
import Verif.Props.Shapes
import Verif.Spec.Features
import Verif.Lib.ResList
import Mathlib.LinearAlgebra.Matrix.NonsingularInverse
import Mathlib.Analysis.Calculus.FDeriv.Comp
import Mathlib.Analysis.Calculus.Deriv.Prod
import Mathlib.Analysis.Calculus.Deriv.Comp
import Mathlib.Analysis.Calculus.Deriv.Add
import Mathlib.Analysis.Calculus.Deriv.Mul

/-!
# C31–C33: Jacobian, gradients, normal vectors and the inverse isoparametric map

`inv` is `russell_lab::mat_inverse` (external); the theorems assume its contract `InverseSpec`, which `exactInverse` meets.
`X m i` (node `m`, coordinate `i`) are the coordinates of the nodes stored in the pad.
-/
namespace Gemlab
open Gemlab.Shapes
noncomputable section
open Classical

/-- The contract of `mat_inverse` is met by the exact inverse. -/
def exactInverse : MatInverse := fun n a =>
  if detN n a = 0 then .err "cannot compute inverse due to zero determinant"
  else .ok (detN n a, fun i j => if h : i < n ∧ j < n then (Matrix.of fun i j : Fin n => a i j)⁻¹ ⟨i, h.1⟩ ⟨j, h.2⟩ else 0)

theorem exactInverse_spec : InverseSpec exactInverse := by
  intro n a d b h
  unfold exactInverse at h
  split at h
  · simp at h
  rename_i hd
  simp only [Res.ok.injEq, Prod.mk.injEq] at h
  obtain ⟨rfl, rfl⟩ := h
  refine ⟨rfl, ?_⟩
  intro i hi j hj
  have hm : (Matrix.of fun i j : Fin n => a i j) * (Matrix.of fun i j : Fin n => a i j)⁻¹ = 1 :=
    Matrix.mul_nonsing_inv _ (isUnit_iff_ne_zero.2 hd)
  have := congrFun (congrFun hm ⟨i, hi⟩) ⟨j, hj⟩
  rw [Matrix.mul_apply, Matrix.one_apply] at this
  simp only [Fin.mk.injEq] at this
  rw [← this, Finset.sum_range]
  apply Finset.sum_congr rfl
  intro k _
  simp [hj]

/-- A right inverse is a left inverse. -/
theorem left_of_right {n : Nat} {a b : Nat → Nat → ℝ}
    (h : ∀ i < n, ∀ j < n, ∑ k ∈ Finset.range n, a i k * b k j = if i = j then 1 else 0) :
    ∀ i < n, ∀ j < n, ∑ k ∈ Finset.range n, b i k * a k j = if i = j then 1 else 0 := by
  have h1 : (Matrix.of fun i j : Fin n => a i j) * (Matrix.of fun i j : Fin n => b i j) = 1 := by
    ext i j
    rw [Matrix.mul_apply, Matrix.one_apply]
    have := h i i.2 j j.2
    rw [Finset.sum_range] at this
    simp only [Fin.ext_iff]
    exact this
  have h2 := mul_eq_one_comm.1 h1
  intro i hi j hj
  have := congrFun (congrFun h2 ⟨i, hi⟩) ⟨j, hj⟩
  rw [Matrix.mul_apply, Matrix.one_apply] at this
  simp only [Fin.mk.injEq] at this
  rw [← this, Finset.sum_range]
  rfl

theorem det_ne_zero_of_right {n : Nat} {a b : Nat → Nat → ℝ}
    (h : ∀ i < n, ∀ j < n, ∑ k ∈ Finset.range n, a i k * b k j = if i = j then 1 else 0) : detN n a ≠ 0 := by
  have h1 : (Matrix.of fun i j : Fin n => a i j) * (Matrix.of fun i j : Fin n => b i j) = 1 := by
    ext i j
    rw [Matrix.mul_apply, Matrix.one_apply]
    have := h i i.2 j j.2
    rw [Finset.sum_range] at this
    simp only [Fin.ext_iff]
    exact this
  intro h0
  have := congrArg Matrix.det h1
  rw [Matrix.det_mul] at this
  unfold detN at h0
  rw [h0] at this
  simp at this

namespace Scratchpad

/-- The coordinates of the nodes stored in the pad. -/
def X (pad : Scratchpad) (m i : Nat) : ℝ := pad.xxt i m

/-- Pads obtained through the API. `Reached pad`: `new` followed by any successful calls. -/
inductive Reached (inv : MatInverse) : Scratchpad → Prop
  | new {n k pad} : Scratchpad.new n k = .ok pad → Reached inv pad
  | setXx {pad m j v pad'} : Reached inv pad → setXx pad m j v = .ok pad' → Reached inv pad'
  | calcInterp {pad ksi} : Reached inv pad → Reached inv (calcInterp pad ksi)
  | calcCoords {pad n ksi x pad'} : Reached inv pad → calcCoords pad n ksi = .ok (x, pad') → Reached inv pad'
  | calcJacobian {pad ksi d pad'} : Reached inv pad → calcJacobian inv pad ksi = .ok (d, pad') → Reached inv pad'
  | calcGradient {pad ksi d pad'} : Reached inv pad → calcGradient inv pad ksi = .ok (d, pad') → Reached inv pad'
  | calcNormalVector {pad n ksi d un pad'} : Reached inv pad → calcNormalVector pad n ksi = .ok (d, un, pad') → Reached inv pad'

/-- What `calc_jacobian` returns. -/
theorem calcJacobian_ok {inv : MatInverse} {pad pad' : Scratchpad} {ksi : Nat → ℝ} {d : ℝ} (h : calcJacobian inv pad ksi = .ok (d, pad')) :
    pad.okXxt = true ∧
    ((pad.kind.ndim = pad.spaceNdim ∧ ∃ ji, inv pad.spaceNdim (pad.fillJacobian ksi).jacobian = .ok (d, ji) ∧
        pad' = { pad.fillJacobian ksi with invJacobian := ji }) ∨
     (pad.kind.ndim ≠ pad.spaceNdim ∧ pad' = pad.fillJacobian ksi ∧
        ((pad.kind.ndim = 1 ∧ d = Real.sqrt (∑ i ∈ Finset.range pad.spaceNdim, pad'.jacobian i 0 * pad'.jacobian i 0)) ∨
         (pad.kind.ndim ≠ 1 ∧ d = -1)))) := by
  unfold calcJacobian at h
  split at h
  · simp at h
  rename_i hok
  refine ⟨by simpa using hok, ?_⟩
  dsimp only at h
  split at h
  · rename_i hs
    obtain ⟨⟨d', ji⟩, h1, h2⟩ := Res.bind_eq_ok.1 h
    simp only [Res.ok.injEq, Prod.mk.injEq] at h2
    obtain ⟨rfl, rfl⟩ := h2
    exact Or.inl ⟨hs, ji, h1, rfl⟩
  · rename_i hs
    right
    refine ⟨hs, ?_⟩
    split at h
    · rename_i h1
      simp only [Res.ok.injEq, Prod.mk.injEq] at h
      obtain ⟨rfl, rfl⟩ := h
      exact ⟨rfl, Or.inl ⟨h1, rfl⟩⟩
    · rename_i h1
      simp only [Res.ok.injEq, Prod.mk.injEq] at h
      obtain ⟨rfl, rfl⟩ := h
      exact ⟨rfl, Or.inr ⟨h1, rfl⟩⟩

theorem calcGradient_ok {inv : MatInverse} {pad pad' : Scratchpad} {ksi : Nat → ℝ} {d : ℝ} (h : calcGradient inv pad ksi = .ok (d, pad')) :
    pad.okXxt = true ∧ pad.kind.ndim = pad.spaceNdim ∧ ∃ ji, inv pad.spaceNdim (pad.fillJacobian ksi).jacobian = .ok (d, ji) ∧
      pad' = { pad.fillJacobian ksi with invJacobian := ji, gradient := (fun m j => ∑ k ∈ Finset.range pad.spaceNdim, Shapes.calcDeriv pad.kind ksi m k * ji k j) } := by
  unfold calcGradient at h
  split at h
  · simp at h
  rename_i hs
  obtain ⟨⟨d', p⟩, h1, h2⟩ := Res.bind_eq_ok.1 h
  simp only [Res.ok.injEq, Prod.mk.injEq] at h2
  obtain ⟨rfl, rfl⟩ := h2
  obtain ⟨hok, ⟨h3, ji, h4, rfl⟩ | ⟨h3, _⟩⟩ := calcJacobian_ok h1
  · exact ⟨hok, h3, ji, h4, rfl⟩
  · exact absurd h3 hs

/-- Kind, space dimension, coordinates and flag are only changed by `set_xx`. -/
theorem calcNormalVector_ok {pad pad' : Scratchpad} {n : Nat} {ksi un : Nat → ℝ} {d : ℝ} (h : calcNormalVector pad n ksi = .ok (d, un, pad')) :
    ¬ (pad.spaceNdim = 2 ∧ pad.kind.ndim ≠ 1) ∧ ¬ (pad.spaceNdim = 3 ∧ pad.kind.ndim ≠ 2) ∧ n = pad.spaceNdim ∧
      pad' = pad.fillJacobian ksi := by
  unfold calcNormalVector at h
  split at h
  · simp at h
  rename_i h1
  split at h
  · simp at h
  rename_i h2
  split at h
  · simp at h
  rename_i h3
  refine ⟨h1, h2, not_not.1 h3, ?_⟩
  dsimp only at h
  split at h <;> simp only [Res.ok.injEq, Prod.mk.injEq] at h <;> exact h.2.2.symm

theorem Reached.good {inv : MatInverse} {pad : Scratchpad} (h : Reached inv pad) :
    (pad.spaceNdim = 2 ∨ pad.spaceNdim = 3) ∧ pad.kind.ndim ≤ pad.spaceNdim := by
  induction h with
  | @new n k pad h =>
    unfold Scratchpad.new at h
    split at h
    · simp at h
    split at h
    · simp at h
    simp only [Res.ok.injEq] at h
    subst h
    dsimp only
    omega
  | setXx _ h ih =>
    unfold Scratchpad.setXx at h
    split at h
    · simp only [Res.ok.injEq] at h; subst h; exact ih
    · simp at h
  | calcInterp _ ih => exact ih
  | calcCoords _ h ih =>
    unfold Scratchpad.calcCoords at h
    split at h
    · simp at h
    split at h
    · simp at h
    simp only [Res.ok.injEq, Prod.mk.injEq] at h
    rw [← h.2]; exact ih
  | calcJacobian _ h ih =>
    obtain ⟨_, ⟨_, ji, _, rfl⟩ | ⟨_, rfl, _⟩⟩ := calcJacobian_ok h <;> exact ih
  | calcGradient _ h ih =>
    obtain ⟨_, _, ji, _, rfl⟩ := calcGradient_ok h; exact ih
  | calcNormalVector _ h ih =>
    obtain ⟨_, _, _, rfl⟩ := calcNormalVector_ok h; exact ih

/-! ## C31 -/

/-- C31: the matrix `jacobian` computed by `calc_jacobian` holds the partial derivatives of the coordinates
`x_i(ξ) = Σ_m N_m(ξ) X_mi` with respect to the reference coordinates. -/
theorem C31_jacobian {inv : MatInverse} {pad pad' : Scratchpad} {ksi : Nat → ℝ} {d : ℝ} (h : calcJacobian inv pad ksi = .ok (d, pad'))
    {i j : Nat} (hj : j < pad.kind.ndim) :
    HasDerivAt (fun v => Shapes.calcCoords pad.kind pad.X (Function.update ksi j v) i) (pad'.jacobian i j) (ksi j) := by
  have hpad : pad'.jacobian i j = ∑ m ∈ Finset.range pad.kind.nnode, pad.xxt i m * Shapes.calcDeriv pad.kind ksi m j := by
    obtain ⟨_, ⟨_, ji, _, rfl⟩ | ⟨_, rfl, _⟩⟩ := calcJacobian_ok h <;> rfl
  rw [hpad]
  unfold Shapes.calcCoords X
  apply HasDerivAt.fun_sum
  intro m hm
  exact (Props.Shapes.C27_derivatives pad.kind ksi m j (Finset.mem_range.1 hm) hj).const_mul _

/-- C31: the returned value: the determinant of the Jacobian for solids, the length of the tangent vector for cables, `-1` for shells. -/
theorem C31_det {inv : MatInverse} (hinv : InverseSpec inv) {pad pad' : Scratchpad} {ksi : Nat → ℝ} {d : ℝ}
    (h : calcJacobian inv pad ksi = .ok (d, pad')) :
    (pad.kind.ndim = pad.spaceNdim → d = detN pad.spaceNdim pad'.jacobian ∧ d ≠ 0) ∧
    (pad.kind.ndim ≠ pad.spaceNdim → pad.kind.ndim = 1 → d = Real.sqrt (∑ i ∈ Finset.range pad.spaceNdim, pad'.jacobian i 0 ^ 2)) ∧
    (pad.kind.ndim ≠ pad.spaceNdim → pad.kind.ndim ≠ 1 → d = -1) := by
  obtain ⟨_, ⟨h1, ji, h2, rfl⟩ | ⟨h1, rfl, h2⟩⟩ := calcJacobian_ok h
  · refine ⟨fun _ => ?_, fun hn => absurd h1 hn, fun hn => absurd h1 hn⟩
    obtain ⟨e, hr⟩ := hinv _ _ _ _ h2
    exact ⟨e, e ▸ det_ne_zero_of_right hr⟩
  · refine ⟨fun hn => absurd hn h1, fun _ hc => ?_, fun _ hc => ?_⟩
    · rcases h2 with ⟨_, rfl⟩ | ⟨hn, _⟩
      · simp only [sq]
      · exact absurd hc hn
    · rcases h2 with ⟨hn, _⟩ | ⟨_, rfl⟩
      · exact absurd hn hc
      · rfl

/-- Facts about the gradient matrix. -/
theorem gradient_facts {inv : MatInverse} (hinv : InverseSpec inv) {pad pad' : Scratchpad} {ksi : Nat → ℝ} {d : ℝ}
    (h : calcGradient inv pad ksi = .ok (d, pad')) :
    d = detN pad.spaceNdim pad'.jacobian ∧ d ≠ 0 ∧
    (∀ i j, pad'.jacobian i j = ∑ m ∈ Finset.range pad.kind.nnode, pad.X m i * Shapes.calcDeriv pad.kind ksi m j) ∧
    (∀ i < pad.spaceNdim, ∀ j < pad.spaceNdim,
      ∑ k ∈ Finset.range pad.spaceNdim, pad'.jacobian i k * pad'.invJacobian k j = if i = j then 1 else 0) ∧
    (∀ m j, pad'.gradient m j = ∑ k ∈ Finset.range pad.spaceNdim, Shapes.calcDeriv pad.kind ksi m k * pad'.invJacobian k j) := by
  obtain ⟨_, hs, ji, h1, rfl⟩ := calcGradient_ok h
  obtain ⟨e, hr⟩ := hinv _ _ _ _ h1
  exact ⟨e, e ▸ det_ne_zero_of_right hr, fun _ _ => rfl, hr, fun _ _ => rfl⟩

/-- Contraction of nodal values with the gradient matrix. -/
theorem contract {inv : MatInverse} (hinv : InverseSpec inv) {pad pad' : Scratchpad} {ksi : Nat → ℝ} {d : ℝ}
    (h : calcGradient inv pad ksi = .ok (d, pad')) (u : Nat → ℝ) (j : Nat) :
    ∑ m ∈ Finset.range pad.kind.nnode, u m * pad'.gradient m j =
      ∑ k ∈ Finset.range pad.spaceNdim, (∑ m ∈ Finset.range pad.kind.nnode, u m * Shapes.calcDeriv pad.kind ksi m k) * pad'.invJacobian k j := by
  obtain ⟨_, _, _, _, hB⟩ := gradient_facts hinv h
  simp only [hB, Finset.mul_sum, Finset.sum_mul]
  rw [Finset.sum_comm]
  exact Finset.sum_congr rfl fun k _ => Finset.sum_congr rfl fun m _ => by ring

/-- C31: if `calc_gradient` succeeds, it returns the determinant of the Jacobian, which is not zero, and the gradient matrix
`B` satisfies `Σ_m X_mi B_mj = δ_ij` and `Σ_m B_mj = 0`. -/
theorem C31_gradient {inv : MatInverse} (hinv : InverseSpec inv) {pad pad' : Scratchpad} {ksi : Nat → ℝ} {d : ℝ}
    (h : calcGradient inv pad ksi = .ok (d, pad')) :
    d = detN pad.spaceNdim pad'.jacobian ∧ d ≠ 0 ∧
    (∀ i < pad.spaceNdim, ∀ j < pad.spaceNdim,
      ∑ m ∈ Finset.range pad.kind.nnode, pad.X m i * pad'.gradient m j = if i = j then 1 else 0) ∧
    (∀ j < pad.spaceNdim, ∑ m ∈ Finset.range pad.kind.nnode, pad'.gradient m j = 0) := by
  obtain ⟨h1, h2, hJ, hr, hB⟩ := gradient_facts hinv h
  have hs : pad.kind.ndim = pad.spaceNdim := (calcGradient_ok h).2.1
  refine ⟨h1, h2, ?_, ?_⟩
  · intro i hi j hj
    rw [contract hinv h (fun m => pad.X m i) j, ← hr i hi j hj]
    exact Finset.sum_congr rfl fun k _ => by rw [hJ]
  · intro j _
    have := contract hinv h (fun _ => 1) j
    simp only [one_mul] at this
    rw [this]
    apply Finset.sum_eq_zero
    intro k hk
    rw [Props.Shapes.C25_derivatives_sum_to_zero pad.kind ksi k (by rw [hs]; exact Finset.mem_range.1 hk), zero_mul]

/-- C31: the gradient of an affine field `f(x) = a + Σ_i c_i x_i`, interpolated from its nodal values, is exact. -/
theorem C31_affine_field {inv : MatInverse} (hinv : InverseSpec inv) {pad pad' : Scratchpad} {ksi : Nat → ℝ} {d : ℝ}
    (h : calcGradient inv pad ksi = .ok (d, pad')) (a : ℝ) (c : Nat → ℝ) {j : Nat} (hj : j < pad.spaceNdim) :
    ∑ m ∈ Finset.range pad.kind.nnode, (a + ∑ i ∈ Finset.range pad.spaceNdim, c i * pad.X m i) * pad'.gradient m j = c j := by
  obtain ⟨_, _, h3, h4⟩ := C31_gradient hinv h
  have : ∑ m ∈ Finset.range pad.kind.nnode, (a + ∑ i ∈ Finset.range pad.spaceNdim, c i * pad.X m i) * pad'.gradient m j =
      a * (∑ m ∈ Finset.range pad.kind.nnode, pad'.gradient m j) +
      ∑ i ∈ Finset.range pad.spaceNdim, c i * ∑ m ∈ Finset.range pad.kind.nnode, pad.X m i * pad'.gradient m j := by
    simp only [add_mul, Finset.sum_add_distrib, Finset.mul_sum, Finset.sum_mul]
    congr 1
    rw [Finset.sum_comm]
    exact Finset.sum_congr rfl fun k _ => Finset.sum_congr rfl fun m _ => by ring
  rw [this, h4 j hj, mul_zero, zero_add, Finset.sum_eq_single j]
  · rw [h3 j hj j hj]; simp
  · intro i hi hne; rw [h3 i (Finset.mem_range.1 hi) j hj]; simp [hne]
  · intro hn; exact absurd (Finset.mem_range.2 hj) hn

/-- C31: the gradient matrix gives spatial derivatives. If the field `U(x)` coincides on the element with the field interpolated from
the nodal values `u`, that is `U(x(ξ)) = Σ_m N_m(ξ) u_m`, and is differentiable at `x(ksi)`, then its partial derivative along
`x_j` there is `Σ_m u_m B_mj`. -/
theorem C31_spatial_derivative {inv : MatInverse} (hinv : InverseSpec inv) {pad pad' : Scratchpad} {ksi : Nat → ℝ} {d : ℝ}
    (h : calcGradient inv pad ksi = .ok (d, pad')) (u : Nat → ℝ) (U : (Fin pad.spaceNdim → ℝ) → ℝ) (U' : (Fin pad.spaceNdim → ℝ) →L[ℝ] ℝ)
    (hU : ∀ ξ : Nat → ℝ, U (fun i => Shapes.calcCoords pad.kind pad.X ξ i) = ∑ m ∈ Finset.range pad.kind.nnode, Shapes.calcInterp pad.kind ξ m * u m)
    (hd : HasFDerivAt U U' (fun i => Shapes.calcCoords pad.kind pad.X ksi i)) (j : Fin pad.spaceNdim) :
    U' (Pi.single j 1) = ∑ m ∈ Finset.range pad.kind.nnode, u m * pad'.gradient m j := by
  obtain ⟨_, _, hJ, hr, hB⟩ := gradient_facts hinv h
  have hs : pad.kind.ndim = pad.spaceNdim := (calcGradient_ok h).2.1
  have hok := (calcGradient_ok h).1
  -- derivative along each reference direction
  have key : ∀ k < pad.spaceNdim, U' (fun i => pad'.jacobian i k) = ∑ m ∈ Finset.range pad.kind.nnode, u m * Shapes.calcDeriv pad.kind ksi m k := by
    intro k hk
    have hcurve : HasDerivAt (fun v => (fun i : Fin pad.spaceNdim => Shapes.calcCoords pad.kind pad.X (Function.update ksi k v) i))
        (fun i => pad'.jacobian i k) (ksi k) := by
      rw [hasDerivAt_pi]
      intro i
      rw [hJ]
      unfold Shapes.calcCoords
      apply HasDerivAt.fun_sum
      intro m hm
      exact (Props.Shapes.C27_derivatives pad.kind ksi m k (Finset.mem_range.1 hm) (by rw [hs]; exact hk)).const_mul _
    have e : Function.update ksi k (ksi k) = ksi := Function.update_eq_self _ _
    have h1 := HasFDerivAt.comp_hasDerivAt (f := fun v => (fun i : Fin pad.spaceNdim => Shapes.calcCoords pad.kind pad.X (Function.update ksi k v) i))
      (ksi k) (by rw [e]; exact hd) hcurve
    have h2 : HasDerivAt (fun v => ∑ m ∈ Finset.range pad.kind.nnode, Shapes.calcInterp pad.kind (Function.update ksi k v) m * u m)
        (∑ m ∈ Finset.range pad.kind.nnode, Shapes.calcDeriv pad.kind ksi m k * u m) (ksi k) := by
      apply HasDerivAt.fun_sum
      intro m hm
      exact (Props.Shapes.C27_derivatives pad.kind ksi m k (Finset.mem_range.1 hm) (by rw [hs]; exact hk)).mul_const _
    have h3 : (U ∘ fun v => (fun i : Fin pad.spaceNdim => Shapes.calcCoords pad.kind pad.X (Function.update ksi k v) i)) =
        fun v => ∑ m ∈ Finset.range pad.kind.nnode, Shapes.calcInterp pad.kind (Function.update ksi k v) m * u m := by
      funext v; exact hU _
    rw [h3] at h1
    rw [h1.unique h2]
    exact Finset.sum_congr rfl fun m _ => mul_comm _ _
  rw [contract hinv h u j]
  have : (Pi.single j 1 : Fin pad.spaceNdim → ℝ) = ∑ k ∈ Finset.range pad.spaceNdim, pad'.invJacobian k j • (fun i : Fin pad.spaceNdim => pad'.jacobian i k) := by
    funext i
    rw [Finset.sum_apply]
    simp only [Pi.smul_apply, smul_eq_mul]
    have := hr i i.2 j j.2
    rw [show (∑ k ∈ Finset.range pad.spaceNdim, pad'.invJacobian k j * pad'.jacobian i k) = ∑ k ∈ Finset.range pad.spaceNdim, pad'.jacobian i k * pad'.invJacobian k j from
      Finset.sum_congr rfl fun k _ => mul_comm _ _, this]
    simp only [Pi.single_apply, Fin.ext_iff]
  rw [this, map_sum]
  apply Finset.sum_congr rfl
  intro k hk
  rw [map_smul, key k (Finset.mem_range.1 hk), smul_eq_mul, mul_comm]

/-- C31: when `calc_gradient` fails. It never panics (if `mat_inverse` does not); it is an error for cables and shells, before all
coordinates are set, and when the determinant is zero (or `mat_inverse` fails). -/
theorem C31_gradient_errors {inv : MatInverse} (hinv : InverseSpec inv) (hp : ∀ n a, inv n a ≠ .panic) (pad : Scratchpad) (ksi : Nat → ℝ) :
    calcGradient inv pad ksi ≠ .panic ∧
    (pad.kind.ndim ≠ pad.spaceNdim → ∃ e, calcGradient inv pad ksi = .err e) ∧
    (pad.okXxt = false → ∃ e, calcGradient inv pad ksi = .err e) ∧
    (detN pad.spaceNdim (fun i j => ∑ m ∈ Finset.range pad.kind.nnode, pad.X m i * Shapes.calcDeriv pad.kind ksi m j) = 0 →
      ∃ e, calcGradient inv pad ksi = .err e) := by
  have np : calcGradient inv pad ksi ≠ .panic := by
    unfold calcGradient calcJacobian
    split
    · simp
    split
    · simp
    dsimp only
    split
    · cases hv : inv (pad.fillJacobian ksi).spaceNdim (pad.fillJacobian ksi).jacobian with
      | ok v => simp
      | err e => simp
      | panic => exact absurd hv (hp _ _)
    · split <;> simp
  have er : ∀ (P : Prop), (∀ d pad', calcGradient inv pad ksi = .ok (d, pad') → ¬ P) → P → ∃ e, calcGradient inv pad ksi = .err e := by
    intro P h hP
    cases hc : calcGradient inv pad ksi with
    | ok v => exact absurd hP (h v.1 v.2 hc)
    | err e => exact ⟨e, rfl⟩
    | panic => exact absurd hc np
  refine ⟨np, er _ ?_, er _ ?_, er _ ?_⟩
  · intro d pad' h; exact fun hn => hn (calcGradient_ok h).2.1
  · intro d pad' h; rw [(calcGradient_ok h).1]; simp
  · intro d pad' h
    obtain ⟨h1, h2, hJ, _⟩ := gradient_facts hinv h
    have : pad'.jacobian = fun i j => ∑ m ∈ Finset.range pad.kind.nnode, pad.X m i * Shapes.calcDeriv pad.kind ksi m j := by
      funext i j; exact hJ i j
    rw [← this, ← h1]; exact h2

/-! ## C32 -/

/-- Tangent vector along the reference direction `a` at `ksi`. -/
def tangent (pad : Scratchpad) (ksi : Nat → ℝ) (a i : Nat) : ℝ :=
  ∑ m ∈ Finset.range pad.kind.nnode, pad.X m i * Shapes.calcDeriv pad.kind ksi m a

/-- It is the derivative of the coordinates with respect to the reference coordinate `a`. -/
theorem C32_tangent (pad : Scratchpad) (ksi : Nat → ℝ) {a : Nat} (ha : a < pad.kind.ndim) (i : Nat) :
    HasDerivAt (fun v => Shapes.calcCoords pad.kind pad.X (Function.update ksi a v) i) (tangent pad ksi a i) (ksi a) := by
  unfold Shapes.calcCoords tangent
  apply HasDerivAt.fun_sum
  intro m hm
  exact (Props.Shapes.C27_derivatives pad.kind ksi m a (Finset.mem_range.1 hm) ha).const_mul _

/-- Scalar product of the first `n` components. -/
def dotN (n : Nat) (a b : Nat → ℝ) : ℝ := ∑ i ∈ Finset.range n, a i * b i

/-- C32: errors of `calc_normal_vector`; it never panics. -/
theorem C32_errors (pad : Scratchpad) (hp : pad.spaceNdim = 2 ∨ pad.spaceNdim = 3) (n : Nat) (ksi : Nat → ℝ) :
    (pad.kind.ndim + 1 = pad.spaceNdim ∧ n = pad.spaceNdim → ∃ r, calcNormalVector pad n ksi = .ok r) ∧
    (¬ (pad.kind.ndim + 1 = pad.spaceNdim ∧ n = pad.spaceNdim) → ∃ e, calcNormalVector pad n ksi = .err e) := by
  constructor
  · rintro ⟨h1, h2⟩
    unfold calcNormalVector
    rw [if_neg (by omega), if_neg (by omega), if_neg (by omega)]
    dsimp only
    split <;> exact ⟨_, rfl⟩
  · intro hn
    unfold calcNormalVector
    split
    · exact ⟨_, rfl⟩
    split
    · exact ⟨_, rfl⟩
    split
    · exact ⟨_, rfl⟩
    · omega

theorem jacobian_tangent (pad : Scratchpad) (ksi : Nat → ℝ) (i a : Nat) : (pad.fillJacobian ksi).jacobian i a = tangent pad ksi a i := rfl

/-- C32 (line in 2D): the returned magnitude is the length of the tangent vector (which `calc_jacobian` returns too); the
vector is orthogonal to the tangent; it is a unit vector if the magnitude is not zero; and magnitude times vector is the tangent
rotated by +90 degrees. -/
theorem C32_line_2d {pad pad' : Scratchpad} {n : Nat} {ksi un : Nat → ℝ} {mag : ℝ} (h2 : pad.spaceNdim = 2)
    (h : calcNormalVector pad n ksi = .ok (mag, un, pad')) :
    mag = Real.sqrt (dotN 2 (tangent pad ksi 0) (tangent pad ksi 0)) ∧
    (∀ inv, pad.okXxt = true → ∃ p, calcJacobian inv pad ksi = .ok (mag, p)) ∧
    dotN 2 un (tangent pad ksi 0) = 0 ∧ (mag ≠ 0 → dotN 2 un un = 1) ∧
    mag * un 0 = - tangent pad ksi 0 1 ∧ mag * un 1 = tangent pad ksi 0 0 := by
  have hk : pad.kind.ndim = 1 := by have := (calcNormalVector_ok h).1; omega
  have hn := (calcNormalVector_ok h).2.2.1
  unfold calcNormalVector at h
  rw [if_neg (by omega), if_neg (by omega), if_neg (by omega)] at h
  dsimp only at h
  rw [if_pos (show (pad.fillJacobian ksi).spaceNdim = 2 from h2)] at h
  simp only [Res.ok.injEq, Prod.mk.injEq, jacobian_tangent] at h
  obtain ⟨hm, hu, rfl⟩ := h
  simp only [hm] at hu
  set t0 := tangent pad ksi 0 0 with ht0
  set t1 := tangent pad ksi 0 1 with ht1
  have e2 : dotN 2 (tangent pad ksi 0) (tangent pad ksi 0) = t0 * t0 + t1 * t1 := by
    simp [dotN, Finset.sum_range_succ, ht0, ht1]
  have hm' : mag = Real.sqrt (t0 * t0 + t1 * t1) := by rw [← hm]; congr 1; ring
  have hsq : mag * mag = t0 * t0 + t1 * t1 := by
    rw [hm']; exact Real.mul_self_sqrt (by nlinarith [mul_self_nonneg t0, mul_self_nonneg t1])
  have hnn : 0 ≤ mag := by rw [hm']; exact Real.sqrt_nonneg _
  have u0 : un 0 = if mag > 0 then - t1 / mag else - t1 := by
    rw [← hu]; simp [*]
  have u1 : un 1 = if mag > 0 then t0 / mag else t0 := by
    rw [← hu]; simp [*]
  have hz : ¬ mag > 0 → t0 = 0 ∧ t1 = 0 := by
    intro hn
    have : mag = 0 := le_antisymm (not_lt.1 hn) hnn
    rw [this] at hsq
    constructor <;> nlinarith [mul_self_nonneg t0, mul_self_nonneg t1]
  refine ⟨by rw [e2]; exact hm', ?_, ?_, ?_, ?_, ?_⟩
  · intro inv hok
    unfold calcJacobian
    rw [hok]
    have hk' : (pad.fillJacobian ksi).kind.ndim = 1 := hk
    have hs' : (pad.fillJacobian ksi).spaceNdim = 2 := h2
    simp only [Bool.not_true, Bool.false_eq_true, if_false, hk', hs', if_true]
    rw [if_neg (by norm_num)]
    refine ⟨pad.fillJacobian ksi, ?_⟩
    simp only [Res.ok.injEq, Prod.mk.injEq, and_true, jacobian_tangent]
    rw [hm']
    simp [Finset.sum_range_succ, ht0, ht1]
  · simp only [dotN, Finset.sum_range_succ, Finset.sum_range_zero, zero_add, u0, u1, ← ht0, ← ht1]
    split
    · ring
    · ring
  · intro hne
    have hpos : mag > 0 := lt_of_le_of_ne hnn (Ne.symm hne)
    simp only [dotN, Finset.sum_range_succ, Finset.sum_range_zero, zero_add, u0, u1, if_pos hpos]
    field_simp
    nlinarith
  · rw [u0]
    split
    · field_simp
    · rename_i hn; obtain ⟨a, b⟩ := hz hn; rw [b]; simp
  · rw [u1]
    split
    · field_simp
    · rename_i hn; obtain ⟨a, b⟩ := hz hn; rw [a]; simp

/-- C32 (surface in 3D): the squared magnitude is the Gram determinant of the two tangents (the area scaling); the vector is orthogonal
to both tangents; it is a unit vector if the magnitude is not zero; and magnitude times vector is the cross product of the tangents. -/
theorem C32_surface_3d {pad pad' : Scratchpad} {n : Nat} {ksi un : Nat → ℝ} {mag : ℝ} (h3 : pad.spaceNdim = 3)
    (h : calcNormalVector pad n ksi = .ok (mag, un, pad')) :
    0 ≤ mag ∧ mag ^ 2 = dotN 3 (tangent pad ksi 0) (tangent pad ksi 0) * dotN 3 (tangent pad ksi 1) (tangent pad ksi 1)
      - dotN 3 (tangent pad ksi 0) (tangent pad ksi 1) ^ 2 ∧
    dotN 3 un (tangent pad ksi 0) = 0 ∧ dotN 3 un (tangent pad ksi 1) = 0 ∧ (mag ≠ 0 → dotN 3 un un = 1) ∧
    mag * un 0 = tangent pad ksi 0 1 * tangent pad ksi 1 2 - tangent pad ksi 0 2 * tangent pad ksi 1 1 ∧
    mag * un 1 = tangent pad ksi 0 2 * tangent pad ksi 1 0 - tangent pad ksi 0 0 * tangent pad ksi 1 2 ∧
    mag * un 2 = tangent pad ksi 0 0 * tangent pad ksi 1 1 - tangent pad ksi 0 1 * tangent pad ksi 1 0 := by
  have hk : pad.kind.ndim = 2 := by have := (calcNormalVector_ok h).2.1; omega
  have hn := (calcNormalVector_ok h).2.2.1
  unfold calcNormalVector at h
  rw [if_neg (by omega), if_neg (by omega), if_neg (by omega)] at h
  dsimp only at h
  rw [if_neg (by change ¬ pad.spaceNdim = 2; omega)] at h
  simp only [Res.ok.injEq, Prod.mk.injEq, jacobian_tangent] at h
  obtain ⟨hm, hu, rfl⟩ := h
  simp only [hm] at hu
  set a0 := tangent pad ksi 0 0 with ha0
  set a1 := tangent pad ksi 0 1 with ha1
  set a2 := tangent pad ksi 0 2 with ha2
  set b0 := tangent pad ksi 1 0 with hb0
  set b1 := tangent pad ksi 1 1 with hb1
  set b2 := tangent pad ksi 1 2 with hb2
  set c0 := a1 * b2 - a2 * b1 with hc0
  set c1 := a2 * b0 - a0 * b2 with hc1
  set c2 := a0 * b1 - a1 * b0 with hc2
  have hsq : mag * mag = c0 * c0 + c1 * c1 + c2 * c2 := by
    rw [← hm]; exact Real.mul_self_sqrt (by nlinarith [mul_self_nonneg c0, mul_self_nonneg c1, mul_self_nonneg c2])
  have hnn : 0 ≤ mag := by rw [← hm]; exact Real.sqrt_nonneg _
  have u0 : un 0 = if mag > 0 then c0 / mag else c0 := by
    rw [← hu]; simp [*]
  have u1 : un 1 = if mag > 0 then c1 / mag else c1 := by
    rw [← hu]; simp [*]
  have u2 : un 2 = if mag > 0 then c2 / mag else c2 := by
    rw [← hu]; simp [*]
  have hz : ¬ mag > 0 → c0 = 0 ∧ c1 = 0 ∧ c2 = 0 := by
    intro hn
    have : mag = 0 := le_antisymm (not_lt.1 hn) hnn
    rw [this] at hsq
    refine ⟨?_, ?_, ?_⟩ <;> nlinarith [mul_self_nonneg c0, mul_self_nonneg c1, mul_self_nonneg c2]
  refine ⟨hnn, ?_, ?_, ?_, ?_, ?_, ?_, ?_⟩
  · rw [sq, hsq]
    simp only [dotN, Finset.sum_range_succ, Finset.sum_range_zero, zero_add, ← ha0, ← ha1, ← ha2, ← hb0, ← hb1, ← hb2]
    rw [hc0, hc1, hc2]; ring
  · simp only [dotN, Finset.sum_range_succ, Finset.sum_range_zero, zero_add, u0, u1, u2, ← ha0, ← ha1, ← ha2]
    split
    · rename_i hp; rw [hc0, hc1, hc2]; field_simp; ring
    · rw [hc0, hc1, hc2]; ring
  · simp only [dotN, Finset.sum_range_succ, Finset.sum_range_zero, zero_add, u0, u1, u2, ← hb0, ← hb1, ← hb2]
    split
    · rename_i hp; rw [hc0, hc1, hc2]; field_simp; ring
    · rw [hc0, hc1, hc2]; ring
  · intro hne
    have hpos : mag > 0 := lt_of_le_of_ne hnn (Ne.symm hne)
    simp only [dotN, Finset.sum_range_succ, Finset.sum_range_zero, zero_add, u0, u1, u2, if_pos hpos]
    have : c0 / mag * (c0 / mag) + c1 / mag * (c1 / mag) + c2 / mag * (c2 / mag) = (c0 * c0 + c1 * c1 + c2 * c2) / (mag * mag) := by
      field_simp
    rw [this, ← hsq]
    exact div_self (by positivity)
  · rw [u0]
    split
    · field_simp
    · rename_i hn; obtain ⟨a, b, c⟩ := hz hn; rw [a]; simp
  · rw [u1]
    split
    · field_simp
    · rename_i hn; obtain ⟨a, b, c⟩ := hz hn; rw [b]; simp
  · rw [u2]
    split
    · field_simp
    · rename_i hn; obtain ⟨a, b, c⟩ := hz hn; rw [c]; simp

/-! ## C33 -/

theorem calcCoords_ok {pad : Scratchpad} (hok : pad.okXxt = true) (ksi : Nat → ℝ) :
    calcCoords pad pad.spaceNdim ksi = .ok (Shapes.calcCoords pad.kind pad.X ksi, pad.calcInterp ksi) := by
  unfold calcCoords
  rw [hok]
  simp
  rfl

/-- Distance between the point `x` and the image of `ksi`. -/
def residualNorm (pad : Scratchpad) (x ksi : Nat → ℝ) : ℝ :=
  Real.sqrt (∑ i ∈ Finset.range pad.spaceNdim, (x i - Shapes.calcCoords pad.kind pad.X ksi i) ^ 2)

theorem ksiLoop_sound {inv : MatInverse} {x : Nat → ℝ} {tol : ℝ} (fuel it : Nat) (pad : Scratchpad) (ksi : Nat → ℝ)
    (r : Nat × (Nat → ℝ) × Scratchpad) (h : ksiLoop inv x tol fuel it pad ksi = .ok r) :
    it ≤ r.1 ∧ r.1 < it + fuel ∧ residualNorm pad x r.2.1 ≤ tol ∧ r.2.2.X = pad.X ∧ r.2.2.kind = pad.kind ∧
      r.2.2.spaceNdim = pad.spaceNdim := by
  induction fuel generalizing it pad ksi with
  | zero => simp [ksiLoop] at h
  | succ fuel ih =>
    unfold ksiLoop at h
    obtain ⟨⟨xa, p1⟩, h1, h2⟩ := Res.bind_eq_ok.1 h
    have hok : pad.okXxt = true := by
      unfold calcCoords at h1
      split at h1
      · simp at h1
      · rename_i hn; simpa using hn
    rw [calcCoords_ok hok] at h1
    simp only [Res.ok.injEq, Prod.mk.injEq] at h1
    obtain ⟨rfl, rfl⟩ := h1
    dsimp only at h2
    split at h2
    · rename_i hle
      simp only [Res.ok.injEq] at h2
      subst h2
      refine ⟨le_refl _, by simp, ?_, rfl, rfl, rfl⟩
      unfold residualNorm
      simp only [sq]
      exact hle
    · obtain ⟨⟨d, p2⟩, h3, h4⟩ := Res.bind_eq_ok.1 h2
      dsimp only at h4
      have hp2 : p2.X = pad.X ∧ p2.kind = pad.kind ∧ p2.spaceNdim = pad.spaceNdim := by
        obtain ⟨_, ⟨_, ji, _, rfl⟩ | ⟨_, rfl, _⟩⟩ := calcJacobian_ok h3 <;> exact ⟨rfl, rfl, rfl⟩
      obtain ⟨a, b, c, e, f, g⟩ := ih (it + 1) p2 _ h4
      refine ⟨by omega, by omega, ?_, by rw [e, hp2.1], by rw [f, hp2.2.1], by rw [g, hp2.2.2]⟩
      unfold residualNorm at c ⊢
      rw [hp2.1, hp2.2.1, hp2.2.2] at c
      exact c

/-- C33: if `approximate_ksi` returns `Ok(it)` then fewer than `nit_max` iterations were made and the reference coordinates returned map
to a point within the tolerance of `x`. -/
theorem C33_sound {inv : MatInverse} {big low : ℝ} {pad pad' : Scratchpad} {kdim xdim : Nat} {x ksi : Nat → ℝ} {nitMax it : Nat} {tol : ℝ}
    (h : approximateKsi inv big low pad kdim xdim x nitMax tol = .ok (it, ksi, pad')) :
    it < nitMax ∧ Real.sqrt (∑ i ∈ Finset.range pad.spaceNdim, (x i - Shapes.calcCoords pad.kind pad.X ksi i) ^ 2) ≤ tol ∧
      pad'.X = pad.X := by
  unfold approximateKsi at h
  split at h
  · simp at h
  split at h
  · simp at h
  split at h
  · simp at h
  obtain ⟨_, a, b, c, _⟩ := ksiLoop_sound _ _ _ _ _ h
  exact ⟨by simpa using a, b, c⟩

/-- C33: `approximate_ksi` never panics (if `mat_inverse` does not); it is an error for cables and shells, for wrong lengths, and when
the coordinates were not all set. -/
theorem C33_errors {inv : MatInverse} (hp : ∀ n a, inv n a ≠ .panic) (big low : ℝ) (pad : Scratchpad) (kdim xdim : Nat) (x : Nat → ℝ)
    (nitMax : Nat) (tol : ℝ) : approximateKsi inv big low pad kdim xdim x nitMax tol ≠ .panic ∧
      (pad.kind.ndim ≠ pad.spaceNdim ∨ xdim ≠ pad.spaceNdim ∨ kdim ≠ pad.spaceNdim ∨ pad.okXxt = false →
        ∃ e, approximateKsi inv big low pad kdim xdim x nitMax tol = .err e) := by
  have np : ∀ (fuel it : Nat) (pad : Scratchpad) (ksi : Nat → ℝ), ksiLoop inv x tol fuel it pad ksi ≠ .panic := by
    intro fuel
    induction fuel with
    | zero => intro it pad ksi; simp [ksiLoop]
    | succ fuel ih =>
      intro it pad ksi
      unfold ksiLoop
      by_cases hok : pad.okXxt = true
      · rw [calcCoords_ok hok, Res.bind_ok]
        dsimp only
        split
        · simp
        · cases hc : calcJacobian inv (pad.calcInterp ksi) ksi with
          | ok v => exact ih _ _ _
          | err e => simp
          | panic =>
            exfalso
            unfold calcJacobian at hc
            split at hc
            · simp at hc
            dsimp only at hc
            split at hc
            · cases hv : inv ((pad.calcInterp ksi).fillJacobian ksi).spaceNdim ((pad.calcInterp ksi).fillJacobian ksi).jacobian with
              | ok v => rw [hv] at hc; simp at hc
              | err e => rw [hv] at hc; simp at hc
              | panic => exact absurd hv (hp _ _)
            · split at hc <;> simp at hc
      · have : calcCoords pad pad.spaceNdim ksi = .err "all components of the coordinates matrix must be set first" := by
          unfold calcCoords; rw [if_pos (by simpa using hok)]
        rw [this]; simp
  constructor
  · unfold approximateKsi
    split
    · simp
    split
    · simp
    split
    · simp
    · exact np _ _ _ _
  · intro h
    unfold approximateKsi
    split
    · exact ⟨_, rfl⟩
    split
    · exact ⟨_, rfl⟩
    split
    · exact ⟨_, rfl⟩
    rcases h with h | h | h | h
    · contradiction
    · contradiction
    · omega
    · cases nitMax with
      | zero => exact ⟨_, rfl⟩
      | succ n =>
        unfold ksiLoop
        have : ∀ ksi, calcCoords pad pad.spaceNdim ksi = .err "all components of the coordinates matrix must be set first" := by
          intro ksi; unfold calcCoords; rw [if_pos (by simp [h])]
        rw [this]
        exact ⟨_, rfl⟩

/-- C33 (convergence for affine elements): if the element is the image of the reference shape under an invertible affine map
`x = b + M ξ` and `mat_inverse` inverts its (regular) matrix, then for every point `x` at most one iteration is needed. -/
theorem C33_affine {inv : MatInverse} (hinv : InverseSpec inv) (big low : ℝ) (pad : Scratchpad) (hok : pad.okXxt = true)
    (hs : pad.kind.ndim = pad.spaceNdim) (b : Nat → ℝ) (M : Nat → Nat → ℝ)
    (hX : ∀ m < pad.kind.nnode, ∀ i, pad.X m i = b i + ∑ j ∈ Finset.range pad.kind.ndim, M i j * refCoord pad.kind m j)
    (hsolve : ∀ a, (∀ i < pad.spaceNdim, ∀ j < pad.spaceNdim, a i j = M i j) → ∃ r, inv pad.spaceNdim a = .ok r)
    (x : Nat → ℝ) (nitMax : Nat) (hn : 2 ≤ nitMax) (tol : ℝ) (ht : 0 ≤ tol) :
    ∃ it ksi pad', it ≤ 1 ∧ approximateKsi inv big low pad pad.spaceNdim pad.spaceNdim x nitMax tol = .ok (it, ksi, pad') := by
  unfold approximateKsi
  rw [if_neg (not_not.2 hs), if_neg (by simp), if_neg (by rw [hs]; simp)]
  generalize guessKsi big low pad x = ksi0
  obtain ⟨n, rfl⟩ : ∃ n, nitMax = n + 1 + 1 := ⟨nitMax - 2, by omega⟩
  unfold ksiLoop
  rw [calcCoords_ok hok, Res.bind_ok]
  dsimp only
  split
  · exact ⟨_, _, _, by norm_num, rfl⟩
  -- one Newton step
  set p1 := pad.calcInterp ksi0 with hp1
  have hJ : ∀ i, ∀ j < pad.spaceNdim, (p1.fillJacobian ksi0).jacobian i j = M i j := by
    intro i j hj
    exact Props.Shapes.C28_jacobian_affine pad.kind pad.X b M hX ksi0 i j (by rw [hs]; exact hj)
  obtain ⟨⟨d, ji⟩, hji⟩ := hsolve (p1.fillJacobian ksi0).jacobian (fun i _ j hj => hJ i j hj)
  have hcj : calcJacobian inv p1 ksi0 = .ok (d, { p1.fillJacobian ksi0 with invJacobian := ji }) := by
    unfold calcJacobian
    rw [if_neg (by simp [hp1, calcInterp, hok])]
    dsimp only
    rw [if_pos (show (p1.fillJacobian ksi0).kind.ndim = (p1.fillJacobian ksi0).spaceNdim from hs)]
    rw [show inv (p1.fillJacobian ksi0).spaceNdim (p1.fillJacobian ksi0).jacobian = .ok (d, ji) from hji]
    rfl
  rw [hcj, Res.bind_ok]
  dsimp only
  obtain ⟨_, hr⟩ := hinv _ _ _ _ hji
  unfold ksiLoop
  set p2 : Scratchpad := { p1.fillJacobian ksi0 with invJacobian := ji } with hp2
  have hk2 : p2.kind = pad.kind := rfl
  have hs2 : p2.spaceNdim = pad.spaceNdim := rfl
  have hX2 : p2.X = pad.X := rfl
  rw [calcCoords_ok (show p2.okXxt = true from hok), Res.bind_ok]
  dsimp only
  rw [if_pos]
  · exact ⟨_, _, _, le_refl _, rfl⟩
  · have hz : ∀ i ∈ Finset.range pad.spaceNdim, x i - Shapes.calcCoords p2.kind p2.X
        (fun j => if j < p2.kind.ndim then ksi0 j + ∑ i ∈ Finset.range p2.spaceNdim, p2.invJacobian j i * (x i - Shapes.calcCoords pad.kind pad.X ksi0 i) else ksi0 j) i = 0 := by
      intro i hi
      rw [hk2, hX2, hs2, hs, Props.Shapes.C28_calc_coords_affine pad.kind pad.X b M hX, hs]
      have e : ∀ j ∈ Finset.range pad.spaceNdim, M i j * (if j < pad.spaceNdim then ksi0 j + ∑ i ∈ Finset.range pad.spaceNdim, p2.invJacobian j i * (x i - Shapes.calcCoords pad.kind pad.X ksi0 i) else ksi0 j)
          = M i j * ksi0 j + ∑ l ∈ Finset.range pad.spaceNdim, ((p1.fillJacobian ksi0).jacobian i j * ji j l) * (x l - Shapes.calcCoords pad.kind pad.X ksi0 l) := by
        intro j hj
        rw [if_pos (Finset.mem_range.1 hj), mul_add, Finset.mul_sum, hJ i j (Finset.mem_range.1 hj)]
        congr 1
        exact Finset.sum_congr rfl fun l _ => by change M i j * (ji j l * _) = _; ring
      rw [Finset.sum_congr rfl e, Finset.sum_add_distrib, Finset.sum_comm]
      have e2 : ∀ l ∈ Finset.range pad.spaceNdim, ∑ j ∈ Finset.range pad.spaceNdim, ((p1.fillJacobian ksi0).jacobian i j * ji j l) * (x l - Shapes.calcCoords pad.kind pad.X ksi0 l)
          = (if i = l then 1 else 0) * (x l - Shapes.calcCoords pad.kind pad.X ksi0 l) := by
        intro l hl
        rw [← Finset.sum_mul, hr i (Finset.mem_range.1 hi) l (Finset.mem_range.1 hl)]
      rw [Finset.sum_congr rfl e2]
      simp only [ite_mul, one_mul, zero_mul, Finset.sum_ite_eq, hi, if_true]
      rw [Props.Shapes.C28_calc_coords_affine pad.kind pad.X b M hX, hs]
      ring
    rw [show p2.spaceNdim = pad.spaceNdim from rfl] at *
    refine le_trans (le_of_eq ?_) ht
    rw [Real.sqrt_eq_zero']
    apply le_of_eq
    apply Finset.sum_eq_zero
    intro i hi
    rw [mul_self_eq_zero]
    exact hz i hi

/-! ## Non-vacuity: the hypotheses are met for every solid kind -/

/-- C31: on an affinely mapped element with regular matrix, `calc_gradient` succeeds everywhere and returns the determinant of the map
(`mat_inverse` inverting this matrix). -/
theorem C31_affine_element {inv : MatInverse} (hinv : InverseSpec inv) (pad : Scratchpad) (hok : pad.okXxt = true)
    (hs : pad.kind.ndim = pad.spaceNdim) (b : Nat → ℝ) (M : Nat → Nat → ℝ)
    (hX : ∀ m < pad.kind.nnode, ∀ i, pad.X m i = b i + ∑ j ∈ Finset.range pad.kind.ndim, M i j * refCoord pad.kind m j)
    (hsolve : ∀ a, (∀ i < pad.spaceNdim, ∀ j < pad.spaceNdim, a i j = M i j) → ∃ r, inv pad.spaceNdim a = .ok r) (ksi : Nat → ℝ) :
    ∃ pad', calcGradient inv pad ksi = .ok (detN pad.spaceNdim M, pad') := by
  have hJ : ∀ i, ∀ j < pad.spaceNdim, (pad.fillJacobian ksi).jacobian i j = M i j := by
    intro i j hj
    exact Props.Shapes.C28_jacobian_affine pad.kind pad.X b M hX ksi i j (by rw [hs]; exact hj)
  obtain ⟨⟨d, ji⟩, hji⟩ := hsolve (pad.fillJacobian ksi).jacobian (fun i _ j hj => hJ i j hj)
  have hd : d = detN pad.spaceNdim M := by
    rw [(hinv _ _ _ _ hji).1]
    unfold detN
    congr 1
    ext i j
    exact hJ i j j.2
  unfold calcGradient calcJacobian
  rw [if_neg (not_not.2 hs), if_neg (by simp [hok])]
  dsimp only
  rw [if_pos (show (pad.fillJacobian ksi).kind.ndim = (pad.fillJacobian ksi).spaceNdim from hs),
    show inv (pad.fillJacobian ksi).spaceNdim (pad.fillJacobian ksi).jacobian = .ok (d, ji) from hji, Res.bind_ok, Res.bind_ok, hd]
  exact ⟨_, rfl⟩

/-- The pad of the reference element itself. -/
def referencePad (k : GeoKind) : Scratchpad where
  kind := k
  spaceNdim := k.ndim
  interp := fun _ => 0
  deriv := fun _ _ => 0
  jacobian := fun _ _ => 0
  invJacobian := fun _ _ => 0
  gradient := fun _ _ => 0
  xxt := fun i m => if i < k.ndim then refCoord k m i else 0
  okXxt := true

/-- For every kind, `calc_gradient` and `approximate_ksi` succeed on the reference element. -/
theorem exists_gradient (k : GeoKind) (ksi x : Nat → ℝ) :
    (∃ d pad', calcGradient exactInverse (referencePad k) ksi = .ok (d, pad')) ∧
    ∃ r, approximateKsi exactInverse 1 0 (referencePad k) k.ndim k.ndim x 2 0 = .ok r := by
  have hX : ∀ m < (referencePad k).kind.nnode, ∀ i, (referencePad k).X m i = 0 + ∑ j ∈ Finset.range (referencePad k).kind.ndim,
      (if i = j then (1 : ℝ) else 0) * refCoord (referencePad k).kind m j := by
    intro m _ i
    simp [X, referencePad]
  have hsolve : ∀ a, (∀ i < (referencePad k).spaceNdim, ∀ j < (referencePad k).spaceNdim, a i j = if i = j then (1 : ℝ) else 0) →
      ∃ r, exactInverse (referencePad k).spaceNdim a = .ok r := by
    intro a ha
    unfold exactInverse
    rw [if_neg]
    · exact ⟨_, rfl⟩
    · unfold detN
      have : (Matrix.of fun i j : Fin (referencePad k).spaceNdim => a i j) = 1 := by
        ext i j
        rw [Matrix.of_apply, ha i i.2 j j.2, Matrix.one_apply]
        simp only [Fin.ext_iff]
      rw [this]; simp
  constructor
  · obtain ⟨p, hp⟩ := C31_affine_element exactInverse_spec (referencePad k) rfl rfl (fun _ => 0) (fun i j => if i = j then 1 else 0) hX hsolve ksi
    exact ⟨_, p, hp⟩
  · obtain ⟨it, ks, p, _, h⟩ := C33_affine exactInverse_spec 1 0 (referencePad k) rfl rfl (fun _ => 0) (fun i j => if i = j then 1 else 0) hX
      hsolve x 2 (le_refl _) 0 (le_refl _)
    exact ⟨_, h⟩

end Scratchpad
end
end Gemlab
