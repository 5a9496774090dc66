import Verif.Spec.RigidMotion
import Verif.Props.Integ3
import Mathlib.LinearAlgebra.Matrix.Adjugate

set_option linter.unusedSimpArgs false
namespace Gemlab.Props.Integ
open Gemlab Gemlab.Integ Gemlab.Spec.Integ Gemlab.Scratchpad
noncomputable section

variable {Q : Nat → Nat → ℝ} {c : Nat → ℝ} {pad pad' : Scratchpad}

/-! ## Rotations -/

theorem rot_dot {d : Nat} (h : IsRotation d Q) (u v : Nat → ℝ) :
    ∑ i ∈ Finset.range d, rotV d Q u i * rotV d Q v i = ∑ i ∈ Finset.range d, u i * v i := by
  unfold rotV
  have e : ∀ i ∈ Finset.range d, (∑ j ∈ Finset.range d, Q i j * u j) * (∑ j ∈ Finset.range d, Q i j * v j) =
      ∑ j ∈ Finset.range d, ∑ k ∈ Finset.range d, (Q i j * Q i k) * (u j * v k) := by
    intro i _
    rw [Finset.sum_mul_sum]
    exact Finset.sum_congr rfl fun j _ => Finset.sum_congr rfl fun k _ => by ring
  rw [Finset.sum_congr rfl e, Finset.sum_comm]
  refine Finset.sum_congr rfl fun j hj => ?_
  rw [Finset.sum_comm]
  have e2 : ∀ k ∈ Finset.range d, ∑ i ∈ Finset.range d, (Q i j * Q i k) * (u j * v k) = if j = k then u j * v k else 0 := by
    intro k hk
    rw [← Finset.sum_mul, h.orth j (Finset.mem_range.1 hj) k (Finset.mem_range.1 hk)]
    simp
  rw [Finset.sum_congr rfl e2]
  simp [Finset.mem_range.1 hj]

theorem rotV_congr {d : Nat} {u v : Nat → ℝ} (h : ∀ j < d, u j = v j) (i : Nat) : rotV d Q u i = rotV d Q v i :=
  Finset.sum_congr rfl fun j hj => by rw [h j (Finset.mem_range.1 hj)]

/-- `(Q T Qᵀ)(Q v) = Q (T v)`. -/
theorem rotT_rotV {d : Nat} (h : IsRotation d Q) (T : Nat → Nat → ℝ) (v : Nat → ℝ) (i : Nat) :
    ∑ j ∈ Finset.range d, rotT d Q T i j * rotV d Q v j = rotV d Q (fun k => ∑ l ∈ Finset.range d, T k l * v l) i := by
  have e : ∀ j, rotT d Q T i j = rotV d Q (fun l => ∑ k ∈ Finset.range d, Q i k * T k l) j := by
    intro j
    unfold rotT rotV
    rw [Finset.sum_comm]
    refine Finset.sum_congr rfl fun l _ => ?_
    rw [Finset.mul_sum]
    exact Finset.sum_congr rfl fun k _ => by ring
  simp only [e]
  rw [rot_dot h]
  unfold rotV
  simp only [Finset.sum_mul, Finset.mul_sum]
  rw [Finset.sum_comm]
  exact Finset.sum_congr rfl fun k _ => Finset.sum_congr rfl fun l _ => by ring

theorem det_rot {d : Nat} (h : IsRotation d Q) (J : Nat → Nat → ℝ) : detN d (fun i j => ∑ k ∈ Finset.range d, Q i k * J k j) = detN d J := by
  have e : (Matrix.of fun i j : Fin d => ∑ k ∈ Finset.range d, Q i k * J k j) =
      (Matrix.of fun i j : Fin d => Q i j) * (Matrix.of fun i j : Fin d => J i j) := by
    ext i j
    rw [Matrix.mul_apply, Matrix.of_apply, Finset.sum_range]
    rfl
  have := h.det
  unfold detN at this ⊢
  rw [e, Matrix.det_mul, this, one_mul]

/-! ## The element -/

theorem jac_moved (h : Moved Q c pad pad') (ξ : Nat → ℝ) {i j : Nat} (hi : i < pad.spaceNdim) (hj : j < pad.kind.ndim) :
    jac pad' ξ i j = ∑ k ∈ Finset.range pad.spaceNdim, Q i k * jac pad ξ k j := by
  have h0 := Props.Shapes.C25_derivatives_sum_to_zero pad.kind ξ j hj
  unfold jac
  rw [h.kind]
  have e : ∀ m ∈ Finset.range pad.kind.nnode, pad'.X m i * Shapes.calcDeriv pad.kind ξ m j =
      (∑ k ∈ Finset.range pad.spaceNdim, Q i k * (pad.X m k * Shapes.calcDeriv pad.kind ξ m j)) + c i * Shapes.calcDeriv pad.kind ξ m j := by
    intro m hm
    rw [h.coords m (Finset.mem_range.1 hm) i hi, rotV, add_mul, Finset.sum_mul]
    congr 1
    exact Finset.sum_congr rfl fun k _ => by ring
  rw [Finset.sum_congr rfl e, Finset.sum_add_distrib, ← Finset.mul_sum, h0, mul_zero, add_zero, Finset.sum_comm]
  exact Finset.sum_congr rfl fun k _ => by rw [Finset.mul_sum]

theorem detJ_moved (h : Moved Q c pad pad') (hk : pad.kind.ndim = pad.spaceNdim) (ξ : Nat → ℝ) : detJ pad' ξ = detJ pad ξ := by
  unfold detJ
  rw [h.ndim, ← det_rot h.rot (jac pad ξ)]
  unfold detN
  congr 1
  ext i j
  exact jac_moved h ξ i.2 (by rw [hk]; exact j.2)

theorem measure_moved (h : Moved Q c pad pad') (ξ : Nat → ℝ) : jacMeasure pad' ξ = jacMeasure pad ξ := by
  unfold jacMeasure
  rw [h.kind, h.ndim]
  split
  · exact detJ_moved h ‹_› ξ
  split
  · rename_i h1
    congr 1
    have e := rot_dot h.rot (fun i => jac pad ξ i 0) (fun i => jac pad ξ i 0)
    simp only [pow_two]
    rw [← e]
    refine Finset.sum_congr rfl fun i hi => ?_
    rw [jac_moved h ξ (Finset.mem_range.1 hi) (by omega)]
    rfl
  · rfl

theorem grad_moved (h : Moved Q c pad pad') (hk : pad.kind.ndim = pad.spaceNdim) {ξ : Nat → ℝ} {B : Nat → Nat → ℝ} (hB : IsGradient pad ξ B) :
    IsGradient pad' ξ (fun m => rotV pad.spaceNdim Q (B m)) := by
  intro m hm j hj
  rw [h.kind] at hm ⊢
  rw [h.ndim] at hj ⊢
  rw [← hB m hm j hj, ← rot_dot h.rot (B m) (fun i => jac pad ξ i j)]
  refine Finset.sum_congr rfl fun i hi => ?_
  rw [jac_moved h ξ (Finset.mem_range.1 hi) (by omega)]
  rfl

theorem gradReg_ndim {inv : MatInverse} {ξ : Nat → ℝ} (h : ∃ r, pad.calcGradient inv ξ = .ok r) : pad.kind.ndim = pad.spaceNdim := by
  obtain ⟨r, h⟩ := h
  unfold calcGradient at h
  by_contra hne
  rw [if_pos hne] at h
  exact absurd h (by simp)

/-! ## Normal vectors -/

theorem adj_rot {d : Nat} (h : IsRotation d Q) : Matrix.adjugate (Matrix.of fun i j : Fin d => Q i j) = (Matrix.of fun i j : Fin d => Q i j).transpose := by
  set M := Matrix.of fun i j : Fin d => Q i j with hM
  have h1 : M.transpose * M = 1 := by
    ext i j
    rw [Matrix.mul_apply, Matrix.one_apply]
    have := h.orth i i.2 j j.2
    rw [Finset.sum_range] at this
    simp only [Fin.ext_iff]
    exact this
  have h2 : M.det = 1 := h.det
  have h3 := Matrix.mul_adjugate M
  rw [h2, one_smul] at h3
  calc M.adjugate = (M.transpose * M) * M.adjugate := by rw [h1, one_mul]
    _ = M.transpose * (M * M.adjugate) := by rw [mul_assoc]
    _ = M.transpose := by rw [h3, mul_one]

theorem cof2 (h : IsRotation 2 Q) : Q 1 1 = Q 0 0 ∧ Q 0 1 = -Q 1 0 := by
  have e := adj_rot h
  rw [Matrix.adjugate_fin_two] at e
  have e1 := congrFun (congrFun e 0) 0
  have e2 := congrFun (congrFun e 1) 0
  simp at e1 e2
  exact ⟨e1, by rw [← e2]⟩

theorem cof3 (h : IsRotation 3 Q) : ∀ i j : Fin 3, Matrix.adjugate (Matrix.of fun i j : Fin 3 => Q i j) j i = Q i j := by
  intro i j
  rw [adj_rot h]
  rfl

/-- The vector whose direction `calc_normal_vector` returns. -/
def nrmRaw (ns : Nat) (jj : Nat → Nat → ℝ) (i : Nat) : ℝ :=
  if ns = 2 then (if i = 0 then - jj 1 0 else jj 0 0)
  else if i = 0 then jj 1 0 * jj 2 1 - jj 2 0 * jj 1 1
  else if i = 1 then jj 2 0 * jj 0 1 - jj 0 0 * jj 2 1
  else jj 0 0 * jj 1 1 - jj 1 0 * jj 0 1

theorem nrmOut_raw {d : Nat} (hd : d = 2 ∨ d = 3) (jj : Nat → Nat → ℝ) :
    (nrmOut d jj).1 = Real.sqrt (∑ i ∈ Finset.range d, nrmRaw d jj i * nrmRaw d jj i) ∧
    ∀ i < d, (nrmOut d jj).2 i = if 0 < (nrmOut d jj).1 then nrmRaw d jj i / (nrmOut d jj).1 else nrmRaw d jj i := by
  rcases hd with rfl | rfl
  · refine ⟨by simp [nrmOut, nrmRaw, Finset.sum_range_succ], fun i hi => ?_⟩
    have : i = 0 ∨ i = 1 := by omega
    rcases this with rfl | rfl <;> simp [nrmOut, nrmRaw]
  · refine ⟨by simp [nrmOut, nrmRaw, Finset.sum_range_succ], fun i hi => ?_⟩
    have : i = 0 ∨ i = 1 ∨ i = 2 := by omega
    rcases this with rfl | rfl | rfl <;> simp [nrmOut, nrmRaw]

theorem nrmRaw_rot {d : Nat} (hd : d = 2 ∨ d = 3) (h : IsRotation d Q) {jj jj' : Nat → Nat → ℝ}
    (hj : ∀ i < d, ∀ a, a + 1 < d → jj' i a = ∑ k ∈ Finset.range d, Q i k * jj k a) {i : Nat} (hi : i < d) : nrmRaw d jj' i = rotV d Q (nrmRaw d jj) i := by
  rcases hd with rfl | rfl
  · obtain ⟨h1, h2⟩ := cof2 h
    have e0 := hj 0 (by omega) 0 (by omega)
    have e1 := hj 1 (by omega) 0 (by omega)
    have : i = 0 ∨ i = 1 := by omega
    rcases this with rfl | rfl
    · simp only [nrmRaw, rotV, Finset.sum_range_succ, Finset.sum_range_zero, e1, h1, h2, if_true]; norm_num
    · simp only [nrmRaw, rotV, Finset.sum_range_succ, Finset.sum_range_zero, e0, h1, h2, if_true]; norm_num; ring
  · have hc := cof3 h
    have e00 := hj 0 (by omega) 0 (by omega)
    have e10 := hj 1 (by omega) 0 (by omega)
    have e20 := hj 2 (by omega) 0 (by omega)
    have e01 := hj 0 (by omega) 1 (by omega)
    have e11 := hj 1 (by omega) 1 (by omega)
    have e21 := hj 2 (by omega) 1 (by omega)
    rw [Matrix.adjugate_fin_three] at hc
    have : i = 0 ∨ i = 1 ∨ i = 2 := by omega
    rcases this with rfl | rfl | rfl
    · have c0 := hc 0 0
      have c1 := hc 0 1
      have c2 := hc 0 2
      simp at c0 c1 c2
      simp [nrmRaw, rotV, Finset.sum_range_succ, e00, e10, e20, e01, e11, e21]
      rw [← c0, ← c1, ← c2]; ring
    · have c0 := hc 1 0
      have c1 := hc 1 1
      have c2 := hc 1 2
      simp at c0 c1 c2
      simp [nrmRaw, rotV, Finset.sum_range_succ, e00, e10, e20, e01, e11, e21]
      rw [← c0, ← c1, ← c2]; ring
    · have c0 := hc 2 0
      have c1 := hc 2 1
      have c2 := hc 2 2
      simp at c0 c1 c2
      simp [nrmRaw, rotV, Finset.sum_range_succ, e00, e10, e20, e01, e11, e21]
      rw [← c0, ← c1, ← c2]; ring

theorem nrmOut_rot {d : Nat} (hd : d = 2 ∨ d = 3) (h : IsRotation d Q) {jj jj' : Nat → Nat → ℝ}
    (hj : ∀ i < d, ∀ a, a + 1 < d → jj' i a = ∑ k ∈ Finset.range d, Q i k * jj k a) :
    (nrmOut d jj').1 = (nrmOut d jj).1 ∧ ∀ i < d, (nrmOut d jj').2 i = rotV d Q (nrmOut d jj).2 i := by
  obtain ⟨a1, a2⟩ := nrmOut_raw hd jj
  obtain ⟨b1, b2⟩ := nrmOut_raw hd jj'
  have hr : ∀ i < d, nrmRaw d jj' i = rotV d Q (nrmRaw d jj) i := fun i hi => nrmRaw_rot hd h hj hi
  have e : (nrmOut d jj').1 = (nrmOut d jj).1 := by
    rw [a1, b1, ← rot_dot h (nrmRaw d jj) (nrmRaw d jj)]
    congr 1
    exact Finset.sum_congr rfl fun i hi => by rw [hr i (Finset.mem_range.1 hi)]
  refine ⟨e, fun i hi => ?_⟩
  rw [b2 i hi, e, hr i hi, rotV_congr a2]
  split
  · unfold rotV
    rw [div_eq_mul_inv, Finset.sum_mul]
    exact Finset.sum_congr rfl fun k _ => by simp only [div_eq_mul_inv, mul_assoc]
  · rfl

theorem normal_moved (h : Moved Q c pad pad') (hd : SpaceOk pad) (n : Nat) (ξ : Nat → ℝ) {mag : ℝ} {un : Nat → ℝ} {p0 : Scratchpad}
    (hn : pad.calcNormalVector n ξ = .ok (mag, un, p0)) :
    ∃ un' p0', pad'.calcNormalVector n ξ = .ok (mag, un', p0') ∧ ∀ i < pad.spaceNdim, un' i = rotV pad.spaceNdim Q un i := by
  rw [normal_eq] at hn ⊢
  rw [h.kind, h.ndim]
  split at hn
  · exact absurd hn (by simp)
  split at hn
  · exact absurd hn (by simp)
  split at hn
  · exact absurd hn (by simp)
  rename_i h1 h2 h3
  simp only [Res.ok.injEq, Prod.mk.injEq] at hn
  obtain ⟨rfl, rfl, rfl⟩ := hn
  have hk : pad.kind.ndim + 1 = pad.spaceNdim := by rcases hd with hd | hd <;> simp [hd] at h1 h2 ⊢ <;> omega
  obtain ⟨e1, e2⟩ := nrmOut_rot hd h.rot (jj := (pad.fillJacobian ξ).jacobian) (jj' := (pad'.fillJacobian ξ).jacobian)
    (fun i hi a ha => jac_moved h ξ hi (by omega))
  refine ⟨_, _, by rw [if_neg h1, if_neg h2, if_neg h3, e1], e2⟩

/-! ## Quadratures -/

theorem quad_eq {args : CommonArgs} (hax : args.axisymmetric = false) {μ μ' : (Nat → ℝ) → ℝ} {f f' : Nat → ℝ}
    (hμ : ∀ p < args.gauss.npoint, μ' (args.gauss.coords p) = μ (args.gauss.coords p)) (hf : ∀ p < args.gauss.npoint, f' p = f p) :
    quadrature { args with pad := pad' } μ' f' = quadrature args μ f := by
  unfold quadrature factor
  simp only [hax]
  exact Finset.sum_congr rfl fun p hp => by rw [hμ p (Finset.mem_range.1 hp), hf p (Finset.mem_range.1 hp)]; simp

theorem quad_congr {args : CommonArgs} {μ : (Nat → ℝ) → ℝ} {f f' : Nat → ℝ} (hf : ∀ p < args.gauss.npoint, f' p = f p) :
    quadrature args μ f' = quadrature args μ f :=
  Finset.sum_congr rfl fun p hp => by rw [hf p (Finset.mem_range.1 hp)]

theorem quad_rotV (args : CommonArgs) (μ : (Nat → ℝ) → ℝ) (d : Nat) (f : Nat → Nat → ℝ) (i : Nat) :
    rotV d Q (fun j => quadrature args μ (f j)) i = quadrature args μ (fun p => rotV d Q (fun j => f j p) i) := by
  unfold rotV quadrature
  simp only [Finset.mul_sum]
  rw [Finset.sum_comm]
  exact Finset.sum_congr rfl fun p _ => Finset.sum_congr rfl fun j _ => by ring

theorem rotT_eq (d : Nat) (T : Nat → Nat → ℝ) (i j : Nat) : rotT d Q T i j = rotV d Q (fun k => rotV d Q (T k) j) i := by
  unfold rotT rotV
  refine Finset.sum_congr rfl fun k _ => ?_
  rw [Finset.mul_sum]
  exact Finset.sum_congr rfl fun l _ => by ring

theorem quad_rotT (args : CommonArgs) (μ : (Nat → ℝ) → ℝ) (d : Nat) (f : Nat → Nat → Nat → ℝ) (i j : Nat) :
    rotT d Q (fun k l => quadrature args μ (f k l)) i j = quadrature args μ (fun p => rotT d Q (fun k l => f k l p) i j) := by
  simp only [rotT_eq, quad_rotV]

/-- `(Q D Qᵀ…)` applied to two rotated vectors. -/
theorem rotD_rotV {d : Nat} (h : IsRotation d Q) (D : Nat → Nat → Nat → Nat → ℝ) (u v : Nat → ℝ) (i j : Nat) :
    ∑ k ∈ Finset.range d, rotV d Q u k * ∑ l ∈ Finset.range d, rotV d Q v l * rotD d Q D i k j l =
      rotT d Q (fun a e => ∑ b ∈ Finset.range d, u b * ∑ f ∈ Finset.range d, v f * D a b e f) i j := by
  have e1 : ∀ k l, rotD d Q D i k j l = rotT d Q (fun b f => rotT d Q (fun a e => D a b e f) i j) k l := by
    intro k l
    unfold rotD rotT
    simp only [Finset.mul_sum]
    rw [Finset.sum_comm]
    refine Finset.sum_congr rfl fun b _ => ?_
    have : ∀ a ∈ Finset.range d, ∑ e ∈ Finset.range d, ∑ f ∈ Finset.range d, Q i a * Q k b * Q j e * Q l f * D a b e f =
        ∑ f ∈ Finset.range d, ∑ e ∈ Finset.range d, Q i a * Q k b * Q j e * Q l f * D a b e f := fun a _ => Finset.sum_comm
    rw [Finset.sum_congr rfl this, Finset.sum_comm]
    exact Finset.sum_congr rfl fun f _ => Finset.sum_congr rfl fun a _ => Finset.sum_congr rfl fun e _ => by ring
  have e2 : ∀ k, ∑ l ∈ Finset.range d, rotV d Q v l * rotD d Q D i k j l = rotV d Q (fun b => ∑ f ∈ Finset.range d, rotT d Q (fun a e => D a b e f) i j * v f) k := by
    intro k
    rw [← rotT_rotV h]
    exact Finset.sum_congr rfl fun l _ => by rw [e1, mul_comm]
  simp only [e2]
  rw [rot_dot h]
  unfold rotT
  simp only [Finset.sum_mul, Finset.mul_sum]
  -- `b f a e` on the left, `a e b f` on the right
  have e3 : ∀ b ∈ Finset.range d, ∑ f ∈ Finset.range d, ∑ a ∈ Finset.range d, ∑ e ∈ Finset.range d, u b * (Q i a * Q j e * D a b e f * v f) =
      ∑ a ∈ Finset.range d, ∑ e ∈ Finset.range d, ∑ f ∈ Finset.range d, u b * (Q i a * Q j e * D a b e f * v f) := by
    intro b _
    rw [Finset.sum_comm]
    exact Finset.sum_congr rfl fun a _ => Finset.sum_comm
  rw [Finset.sum_congr rfl e3, Finset.sum_comm]
  refine Finset.sum_congr rfl fun a _ => ?_
  rw [Finset.sum_comm]
  exact Finset.sum_congr rfl fun e _ => Finset.sum_congr rfl fun b _ => Finset.sum_congr rfl fun f _ => by ring

end
end Gemlab.Props.Integ
