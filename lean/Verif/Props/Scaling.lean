import Verif.Proofs.Scaling

/-!
# C98: change of the unit of length

If all coordinates of an element are multiplied by `c > 0` (metres to millimetres) and the callbacks give the same numbers, the integrals are multiplied by the power of
`c` that their physical dimension asks for: the dimension of the region (`order`), minus one for each gradient in the integrand.
-/
set_option linter.unusedVariables false
namespace Gemlab.Props.Integ
open Gemlab Gemlab.Integ Gemlab.Spec.Integ Gemlab.Scratchpad
noncomputable section

variable {c : ℝ} {pad pad' padB padB' : Scratchpad} {inv : MatInverse} {args : CommonArgs}

/-- What was added to `a` in the second run is `f` times what was added in the first run. -/
def Times1 (args : CommonArgs) (f : ℝ) (a a1 a2 : Vec) : Prop := a2.dim = a1.dim ∧ ∀ i, added1 args a a2 i = f * added1 args a a1 i

/-- The same for matrices. -/
def Times2 (args : CommonArgs) (f : ℝ) (k k1 k2 : Mat) : Prop := k2.nrow = k1.nrow ∧ k2.ncol = k1.ncol ∧ ∀ i j, added2 args k k2 i j = f * added2 args k k1 i j

theorem times1 {a a1 a2 : Vec} {n : Nat} {f : ℝ} {S1 S2 : Nat → ℝ} (h1 : IsBlockSum1 a a1 args.clear args.ii0 n S1)
    (h2 : IsBlockSum1 a a2 args.clear args.ii0 n S2) (h : ∀ m < n, S2 m = f * S1 m) : Times1 args f a a1 a2 := by
  refine ⟨h2.1.trans h1.1.symm, fun i => ?_⟩
  unfold added1
  rw [h1.2, h2.2, add_sub_cancel_left, add_sub_cancel_left]
  split
  · rw [h _ (by omega)]
  · rw [mul_zero]

theorem times2 {a a1 a2 : Mat} {nr nc : Nat} {f : ℝ} {S1 S2 : Nat → Nat → ℝ} (h1 : IsBlockSum2 a a1 args.clear args.ii0 args.jj0 nr nc S1)
    (h2 : IsBlockSum2 a a2 args.clear args.ii0 args.jj0 nr nc S2) (h : ∀ m < nr, ∀ n < nc, S2 m n = f * S1 m n) : Times2 args f a a1 a2 := by
  refine ⟨h2.1.trans h1.1.symm, h2.2.1.trans h1.2.1.symm, fun i j => ?_⟩
  unfold added2
  rw [h1.2.2, h2.2.2, add_sub_cancel_left, add_sub_cancel_left]
  split
  · rw [h _ (by omega) _ (by omega)]
  · rw [mul_zero]

/-! ## The element -/

/-- **C98, coordinates.** -/
theorem C98_coords (h : Scaled c pad pad') {ξ x x' : Nat → ℝ} {p p' : Scratchpad} (hx : pad.calcCoords pad.spaceNdim ξ = .ok (x, p))
    (hx' : pad'.calcCoords pad.spaceNdim ξ = .ok (x', p')) : ∀ i < pad.spaceNdim, x' i = c * x i := by
  intro i hi
  unfold calcCoords at hx hx'
  split at hx
  · exact absurd hx (by simp)
  split at hx
  · exact absurd hx (by simp)
  split at hx'
  · exact absurd hx' (by simp)
  split at hx'
  · exact absurd hx' (by simp)
  simp only [Res.ok.injEq, Prod.mk.injEq] at hx hx'
  rw [← hx.1, ← hx'.1]
  change ∑ m ∈ Finset.range pad'.kind.nnode, pad'.X m i * Shapes.calcInterp pad'.kind ξ m = c * ∑ m ∈ Finset.range pad.kind.nnode, pad.X m i * Shapes.calcInterp pad.kind ξ m
  rw [h.kind, Finset.mul_sum]
  exact Finset.sum_congr rfl fun m hm => by rw [h.coords m (Finset.mem_range.1 hm) i hi]; ring

/-- **C98, Jacobian.** The determinant (or the length of the tangent vector of a line) is multiplied by `c` to the power of the dimension of the element;
the constant returned for surfaces in space is not, and such elements are excluded. -/
theorem C98_jacobian (hinv : InverseSpec inv) (h : Scaled c pad pad') (hs : pad.kind.ndim = pad.spaceNdim ∨ pad.kind.ndim = 1) {ξ : Nat → ℝ}
    {r r' : ℝ × Scratchpad} (hr : pad.calcJacobian inv ξ = .ok r) (hr' : pad'.calcJacobian inv ξ = .ok r') : r'.1 = c ^ pad.kind.ndim * r.1 := by
  obtain ⟨a, p⟩ := r
  obtain ⟨a', p'⟩ := r'
  rw [measure_eq hinv hr, measure_eq hinv hr', measure_scaled h hs]

/-- **C98, gradient.** The gradients are divided by `c`. -/
theorem C98_gradient (hinv : InverseSpec inv) (h : Scaled c pad pad') {ξ : Nat → ℝ} {r r' : ℝ × Scratchpad} (hr : pad.calcGradient inv ξ = .ok r)
    (hr' : pad'.calcGradient inv ξ = .ok r') :
    r'.1 = c ^ pad.kind.ndim * r.1 ∧ ∀ m < pad.kind.nnode, ∀ i < pad.spaceNdim, c * r'.2.gradient m i = r.2.gradient m i := by
  obtain ⟨a, p⟩ := r
  obtain ⟨a', p'⟩ := r'
  have hk := gradReg_ndim ⟨_, hr⟩
  have hB := gradient_exists hinv hr
  obtain ⟨e1, e2⟩ := gradient_eq hinv hr' (grad_scaled h hB)
  refine ⟨?_, fun m hm i hi => ?_⟩
  · have := (gradient_eq hinv hr hB).1
    simp only at this ⊢
    rw [e1, this, detJ_scaled h, hk]
  · have := e2 m (by rw [h.kind]; exact hm) i (by rw [h.ndim]; exact hi)
    dsimp only at this ⊢
    rw [this, mul_inv_cancel_left₀ h.pos.ne']

/-- **C98, normal vector.** The magnitude (length or area) is multiplied by the power of `c`, the unit normal vector does not change. -/
theorem C98_normal (h : Scaled c pad pad') (hd : SpaceOk pad) (n : Nat) (ξ : Nat → ℝ) {mag : ℝ} {un : Nat → ℝ} {p0 : Scratchpad}
    (hn : pad.calcNormalVector n ξ = .ok (mag, un, p0)) :
    ∃ un' p0', pad'.calcNormalVector n ξ = .ok (c ^ pad.kind.ndim * mag, un', p0') ∧ ∀ i < pad.spaceNdim, un' i = un i := by
  rw [normal_eq] at hn ⊢
  rw [h.kind, h.ndim]
  split at hn
  · exact absurd hn (by simp)
  split at hn
  · exact absurd hn (by simp)
  split at hn
  · exact absurd hn (by simp)
  rename_i h1 h2 h3
  simp only [Res.ok.injEq, Prod.mk.injEq] at hn
  obtain ⟨rfl, rfl, rfl⟩ := hn
  have hk : pad.kind.ndim + 1 = pad.spaceNdim := by rcases hd with hd | hd <;> simp [hd] at h1 h2 ⊢ <;> omega
  obtain ⟨e1, e2⟩ := nrmOut_scaled h.pos hd (jj := (pad.fillJacobian ξ).jacobian) (jj' := (pad'.fillJacobian ξ).jacobian)
    (fun i hi a => jac_scaled h ξ hi a)
  rw [show pad.spaceNdim - 1 = pad.kind.ndim by omega] at e1
  exact ⟨_, _, by rw [if_neg h1, if_neg h2, if_neg h3, e1], e2⟩

/-- **C98, integral of a scalar field** (lengths, areas, volumes). -/
theorem C98_scalar_field (hinv : InverseSpec inv) (h : Scaled c pad pad') (hs : pad.kind.ndim = pad.spaceNdim ∨ pad.kind.ndim = 1) (g : Gauss)
    (fnS fnS' : Nat → Res ℝ) (s : Nat → ℝ) (hreg : JacRegular inv pad g)
    (hreg' : JacRegular inv pad' g) (hs1 : ∀ p < g.npoint, fnS p = .ok (s p)) (hs2 : ∀ p < g.npoint, fnS' p = .ok (s p)) :
    ∃ v, scalarField inv pad g fnS = .ok v ∧ scalarField inv pad' g fnS' = .ok (c ^ pad.kind.ndim * v) := by
  refine ⟨_, C37_scalar_field hinv pad g fnS s hreg hs1, ?_⟩
  rw [C37_scalar_field hinv pad' g fnS' s hreg' hs2]
  simp only [measure_scaled h hs, Finset.mul_sum, Res.ok.injEq]
  exact Finset.sum_congr rfl fun p _ => by ring

/-! ## The routines

`args` are the arguments for the first element; the second element is used with the same arguments except for the pad. -/
/-- **C98, `vec_01_ns`.** -/
theorem C98_vec_01_ns (hinv : InverseSpec inv) (h : Scaled c args.pad pad') (hd : SpaceOk args.pad) (hgeo : args.pad.kind.ndim = args.pad.spaceNdim ∨ args.pad.kind.ndim = 1) (k : Vec)
    (fn fn' : Nat → (Nat → ℝ) → Res ℝ) (s : Nat → ℝ)
    (hsize : args.ii0 + args.pad.kind.nnode ≤ k.dim) (hreg : JacRegular inv args.pad args.gauss) (hreg' : JacRegular inv pad' args.gauss)
    (hs : ∀ p < args.gauss.npoint, fn p (shapeN args p) = .ok (s p)) (hs' : ∀ p < args.gauss.npoint, fn' p (shapeN args p) = .ok (s p)) :
    ∃ k1 p1 k2 p2, vec01Ns inv k args fn = (k1, .ok p1) ∧ vec01Ns inv k (withPad args pad') fn' = (k2, .ok p2) ∧ Times1 args (c ^ order args) k k1 k2 := by
  have hk : (withPad args pad').pad.kind = args.pad.kind := h.kind
  have hn : (withPad args pad').pad.spaceNdim = args.pad.spaceNdim := h.ndim
  have hsp : SpaceOk (withPad args pad').pad := by unfold SpaceOk; rw [hn]; exact hd
  obtain ⟨k1, p1, e1, b1⟩ := C37_vec_01_ns hinv k args fn s hsize hreg hs
  obtain ⟨k2, p2, e2, b2⟩ := C37_vec_01_ns hinv k (withPad args pad') fn' s (by rw [hk]; exact hsize) hreg' (by rw [shapeN_scaled h]; exact hs')
  simp only [shapeN_scaled h, hk, hn] at b2
  refine ⟨k1, p1, k2, p2, e1, e2, times1 b1 b2 fun m _ => ?_⟩
  refine quad_scaled h hd 0 (fun p _ => measure_scaled h hgeo _) (Nat.zero_le _) fun p hp => ?_
  rw [pow_zero, one_mul]

/-- **C98, `vec_02_nv`.** -/
theorem C98_vec_02_nv (hinv : InverseSpec inv) (h : Scaled c args.pad pad') (hd : SpaceOk args.pad) (hgeo : args.pad.kind.ndim = args.pad.spaceNdim ∨ args.pad.kind.ndim = 1) (k : Vec)
    (fn fn' : Nat → (Nat → ℝ) → Res (Nat → ℝ)) (s : Nat → Nat → ℝ)
    (hsize : args.ii0 + args.pad.kind.nnode * args.pad.spaceNdim ≤ k.dim) (hreg : JacRegular inv args.pad args.gauss) (hreg' : JacRegular inv pad' args.gauss)
    (hs : ∀ p < args.gauss.npoint, fn p (shapeN args p) = .ok (s p)) (hs' : ∀ p < args.gauss.npoint, fn' p (shapeN args p) = .ok (s p)) :
    ∃ k1 p1 k2 p2, vec02Nv inv k args fn = (k1, .ok p1) ∧ vec02Nv inv k (withPad args pad') fn' = (k2, .ok p2) ∧ Times1 args (c ^ order args) k k1 k2 := by
  have hk : (withPad args pad').pad.kind = args.pad.kind := h.kind
  have hn : (withPad args pad').pad.spaceNdim = args.pad.spaceNdim := h.ndim
  have hsp : SpaceOk (withPad args pad').pad := by unfold SpaceOk; rw [hn]; exact hd
  obtain ⟨k1, p1, e1, b1⟩ := C37_vec_02_nv hinv k args hd fn s hsize hreg hs
  obtain ⟨k2, p2, e2, b2⟩ := C37_vec_02_nv hinv k (withPad args pad') hsp fn' s (by rw [hk, hn]; exact hsize) hreg' (by rw [shapeN_scaled h]; exact hs')
  simp only [shapeN_scaled h, hk, hn] at b2
  refine ⟨k1, p1, k2, p2, e1, e2, times1 b1 b2 fun m _ => ?_⟩
  refine quad_scaled h hd 0 (fun p _ => measure_scaled h hgeo _) (Nat.zero_le _) fun p hp => ?_
  rw [pow_zero, one_mul]

/-- **C98, `vec_03_bv`.** -/
theorem C98_vec_03_bv (hinv : InverseSpec inv) (h : Scaled c args.pad pad') (hd : SpaceOk args.pad) (k : Vec)
    (fn fn' : Nat → (Nat → ℝ) → (Nat → Nat → ℝ) → Res (Nat → ℝ)) (s : Nat → Nat → ℝ) (B : Nat → Nat → Nat → ℝ)
    (hsize : args.ii0 + args.pad.kind.nnode ≤ k.dim) (hreg : GradRegular inv args.pad args.gauss B)
    (hreg' : ∀ p < args.gauss.npoint, ∃ r, pad'.calcGradient inv (args.gauss.coords p) = .ok r)
    (hs : Returns args B fn s) (hs' : Returns (withPad args pad') (divB c B) fn' s) :
    ∃ k1 p1 k2 p2, vec03Bv inv k args fn = (k1, .ok p1) ∧ vec03Bv inv k (withPad args pad') fn' = (k2, .ok p2) ∧ Times1 args (c ^ (order args - 1)) k k1 k2 := by
  have hk : (withPad args pad').pad.kind = args.pad.kind := h.kind
  have hn : (withPad args pad').pad.spaceNdim = args.pad.spaceNdim := h.ndim
  have hsp : SpaceOk (withPad args pad').pad := by unfold SpaceOk; rw [hn]; exact hd
  obtain ⟨k1, p1, e1, b1⟩ := C37_vec_03_bv hinv k args hd fn s B hsize hreg hs
  obtain ⟨k2, p2, e2, b2⟩ := C37_vec_03_bv hinv k (withPad args pad') hsp fn' s (divB c B) (by rw [hk]; exact hsize) (gradRegular_scaled h hreg hreg') hs'
  simp only [shapeN_scaled h, hk, hn] at b2
  refine ⟨k1, p1, k2, p2, e1, e2, times1 b1 b2 fun m _ => ?_⟩
  rcases Nat.eq_zero_or_pos args.gauss.npoint with h0 | h0
  · simp [quadrature, withPad, h0]
  have hle : 1 ≤ order args := by
    have := gradReg_ndim (hreg 0 h0).1
    unfold order
    rcases hd with hd | hd <;> omega
  refine quad_scaled h hd 1 (detMeasure_scaled h hreg) hle fun p hp => ?_
  have hc := h.pos.ne'
  simp only [divB, Finset.mul_sum, Finset.sum_mul]
  repeat' (refine Finset.sum_congr rfl fun _ _ => ?_)
  field_simp

/-- **C98, `vec_04_bt`.** -/
theorem C98_vec_04_bt (hinv : InverseSpec inv) (h : Scaled c args.pad pad') (hd : SpaceOk args.pad)
    (haxi : args.axisymmetric = true → args.pad.spaceNdim = 2 ∧ ∀ p < args.gauss.npoint, radiusAt args p ≠ 0) (k : Vec)
    (fn fn' : Nat → (Nat → ℝ) → (Nat → Nat → ℝ) → Res (Nat → ℝ)) (s : Nat → Nat → ℝ) (B : Nat → Nat → Nat → ℝ)
    (hsize : args.ii0 + args.pad.kind.nnode * args.pad.spaceNdim ≤ k.dim) (hreg : GradRegular inv args.pad args.gauss B)
    (hreg' : ∀ p < args.gauss.npoint, ∃ r, pad'.calcGradient inv (args.gauss.coords p) = .ok r)
    (hs : Returns args B fn s) (hs' : Returns (withPad args pad') (divB c B) fn' s) :
    ∃ k1 p1 k2 p2, vec04Bt inv k args fn = (k1, .ok p1) ∧ vec04Bt inv k (withPad args pad') fn' = (k2, .ok p2) ∧ Times1 args (c ^ (order args - 1)) k k1 k2 := by
  have hk : (withPad args pad').pad.kind = args.pad.kind := h.kind
  have hn : (withPad args pad').pad.spaceNdim = args.pad.spaceNdim := h.ndim
  have hsp : SpaceOk (withPad args pad').pad := by unfold SpaceOk; rw [hn]; exact hd
  have haxi' : (withPad args pad').axisymmetric = true → (withPad args pad').pad.spaceNdim = 2 ∧ ∀ p < (withPad args pad').gauss.npoint, radiusAt (withPad args pad') p ≠ 0 := by
    intro ha
    obtain ⟨h1, h2⟩ := haxi ha
    exact ⟨by rw [hn]; exact h1, fun p hp => by rw [radius_scaled h hd]; exact mul_ne_zero h.pos.ne' (h2 p hp)⟩
  obtain ⟨k1, p1, e1, b1⟩ := C37_vec_04_bt hinv k args hd haxi fn s B hsize hreg hs
  obtain ⟨k2, p2, e2, b2⟩ := C37_vec_04_bt hinv k (withPad args pad') hsp haxi' fn' s (divB c B) (by rw [hk, hn]; exact hsize) (gradRegular_scaled h hreg hreg') hs'
  simp only [shapeN_scaled h, hk, hn] at b2
  refine ⟨k1, p1, k2, p2, e1, e2, times1 b1 b2 fun m _ => ?_⟩
  rcases Nat.eq_zero_or_pos args.gauss.npoint with h0 | h0
  · simp [quadrature, withPad, h0]
  have hle : 1 ≤ order args := by
    have := gradReg_ndim (hreg 0 h0).1
    unfold order
    rcases hd with hd | hd <;> omega
  refine quad_scaled h hd 1 (detMeasure_scaled h hreg) hle fun p hp => ?_
  have hc := h.pos.ne'
  simp only [stiffness, show divB c B p = fun m i => c⁻¹ * B p m i from rfl, strain_scaled h hd, Finset.mul_sum, Finset.sum_mul]
  repeat' (refine Finset.sum_congr rfl fun _ _ => ?_)
  field_simp

/-- **C98, `mat_01_nsn`.** -/
theorem C98_mat_01_nsn (hinv : InverseSpec inv) (h : Scaled c args.pad pad') (hd : SpaceOk args.pad) (k : Mat)
    (fn fn' : Nat → (Nat → ℝ) → (Nat → Nat → ℝ) → Res ℝ) (s : Nat → ℝ) (B : Nat → Nat → Nat → ℝ)
    (hr : args.ii0 + args.pad.kind.nnode ≤ k.nrow) (hc : args.jj0 + args.pad.kind.nnode ≤ k.ncol) (hreg : GradRegular inv args.pad args.gauss B)
    (hreg' : ∀ p < args.gauss.npoint, ∃ r, pad'.calcGradient inv (args.gauss.coords p) = .ok r)
    (hs : Returns args B fn s) (hs' : Returns (withPad args pad') (divB c B) fn' s) :
    ∃ k1 p1 k2 p2, mat01Nsn inv k args fn = (k1, .ok p1) ∧ mat01Nsn inv k (withPad args pad') fn' = (k2, .ok p2) ∧ Times2 args (c ^ order args) k k1 k2 := by
  have hk : (withPad args pad').pad.kind = args.pad.kind := h.kind
  have hn : (withPad args pad').pad.spaceNdim = args.pad.spaceNdim := h.ndim
  have hsp : SpaceOk (withPad args pad').pad := by unfold SpaceOk; rw [hn]; exact hd
  obtain ⟨k1, p1, e1, b1⟩ := C37_mat_01_nsn hinv k args fn s B hr hc hreg hs
  obtain ⟨k2, p2, e2, b2⟩ := C37_mat_01_nsn hinv k (withPad args pad') fn' s (divB c B) (by rw [hk]; exact hr) (by rw [hk]; exact hc) (gradRegular_scaled h hreg hreg') hs'
  simp only [shapeN_scaled h, hk, hn] at b2
  refine ⟨k1, p1, k2, p2, e1, e2, times2 b1 b2 fun m _ n _ => ?_⟩
  refine quad_scaled h hd 0 (detMeasure_scaled h hreg) (Nat.zero_le _) fun p hp => ?_
  rw [pow_zero, one_mul]

/-- **C98, `mat_02_bvn`.** -/
theorem C98_mat_02_bvn (hinv : InverseSpec inv) (h : Scaled c args.pad pad') (hd : SpaceOk args.pad) (k : Mat)
    (fn fn' : Nat → (Nat → ℝ) → (Nat → Nat → ℝ) → Res (Nat → ℝ)) (s : Nat → Nat → ℝ) (B : Nat → Nat → Nat → ℝ)
    (hr : args.ii0 + args.pad.kind.nnode ≤ k.nrow) (hc : args.jj0 + args.pad.kind.nnode ≤ k.ncol) (hreg : GradRegular inv args.pad args.gauss B)
    (hreg' : ∀ p < args.gauss.npoint, ∃ r, pad'.calcGradient inv (args.gauss.coords p) = .ok r)
    (hs : Returns args B fn s) (hs' : Returns (withPad args pad') (divB c B) fn' s) :
    ∃ k1 p1 k2 p2, mat02Bvn inv k args fn = (k1, .ok p1) ∧ mat02Bvn inv k (withPad args pad') fn' = (k2, .ok p2) ∧ Times2 args (c ^ (order args - 1)) k k1 k2 := by
  have hk : (withPad args pad').pad.kind = args.pad.kind := h.kind
  have hn : (withPad args pad').pad.spaceNdim = args.pad.spaceNdim := h.ndim
  have hsp : SpaceOk (withPad args pad').pad := by unfold SpaceOk; rw [hn]; exact hd
  obtain ⟨k1, p1, e1, b1⟩ := C37_mat_02_bvn hinv k args hd fn s B hr hc hreg hs
  obtain ⟨k2, p2, e2, b2⟩ := C37_mat_02_bvn hinv k (withPad args pad') hsp fn' s (divB c B) (by rw [hk]; exact hr) (by rw [hk]; exact hc) (gradRegular_scaled h hreg hreg') hs'
  simp only [shapeN_scaled h, hk, hn] at b2
  refine ⟨k1, p1, k2, p2, e1, e2, times2 b1 b2 fun m _ n _ => ?_⟩
  rcases Nat.eq_zero_or_pos args.gauss.npoint with h0 | h0
  · simp [quadrature, withPad, h0]
  have hle : 1 ≤ order args := by
    have := gradReg_ndim (hreg 0 h0).1
    unfold order
    rcases hd with hd | hd <;> omega
  refine quad_scaled h hd 1 (detMeasure_scaled h hreg) hle fun p hp => ?_
  have hc := h.pos.ne'
  simp only [divB, Finset.mul_sum, Finset.sum_mul]
  repeat' (refine Finset.sum_congr rfl fun _ _ => ?_)
  field_simp

/-- **C98, `mat_03_btb`.** -/
theorem C98_mat_03_btb (hinv : InverseSpec inv) (h : Scaled c args.pad pad') (hd : SpaceOk args.pad) (k : Mat)
    (fn fn' : Nat → (Nat → ℝ) → (Nat → Nat → ℝ) → Res (Nat → ℝ)) (s : Nat → Nat → ℝ) (B : Nat → Nat → Nat → ℝ)
    (hr : args.ii0 + args.pad.kind.nnode ≤ k.nrow) (hc : args.jj0 + args.pad.kind.nnode ≤ k.ncol) (hreg : GradRegular inv args.pad args.gauss B)
    (hreg' : ∀ p < args.gauss.npoint, ∃ r, pad'.calcGradient inv (args.gauss.coords p) = .ok r)
    (hs : Returns args B fn s) (hs' : Returns (withPad args pad') (divB c B) fn' s) :
    ∃ k1 p1 k2 p2, mat03Btb inv k args fn = (k1, .ok p1) ∧ mat03Btb inv k (withPad args pad') fn' = (k2, .ok p2) ∧ Times2 args (c ^ (order args - 2)) k k1 k2 := by
  have hk : (withPad args pad').pad.kind = args.pad.kind := h.kind
  have hn : (withPad args pad').pad.spaceNdim = args.pad.spaceNdim := h.ndim
  have hsp : SpaceOk (withPad args pad').pad := by unfold SpaceOk; rw [hn]; exact hd
  obtain ⟨k1, p1, e1, b1⟩ := C37_mat_03_btb hinv k args hd fn s B hr hc hreg hs
  obtain ⟨k2, p2, e2, b2⟩ := C37_mat_03_btb hinv k (withPad args pad') hsp fn' s (divB c B) (by rw [hk]; exact hr) (by rw [hk]; exact hc) (gradRegular_scaled h hreg hreg') hs'
  simp only [shapeN_scaled h, hk, hn] at b2
  refine ⟨k1, p1, k2, p2, e1, e2, times2 b1 b2 fun m _ n _ => ?_⟩
  rcases Nat.eq_zero_or_pos args.gauss.npoint with h0 | h0
  · simp [quadrature, withPad, h0]
  have hle : 2 ≤ order args := by
    have := gradReg_ndim (hreg 0 h0).1
    unfold order
    rcases hd with hd | hd <;> omega
  refine quad_scaled h hd 2 (detMeasure_scaled h hreg) hle fun p hp => ?_
  have hc := h.pos.ne'
  simp only [divB, Finset.mul_sum, Finset.sum_mul]
  repeat' (refine Finset.sum_congr rfl fun _ _ => ?_)
  field_simp

/-- **C98, `mat_04_nsb`.** -/
theorem C98_mat_04_nsb (hinv : InverseSpec inv) (h : Scaled c args.pad pad') (hd : SpaceOk args.pad) (hB : padB'.kind = padB.kind) (k : Mat)
    (fn fn' : Nat → (Nat → ℝ) → (Nat → ℝ) → (Nat → Nat → ℝ) → Res ℝ) (s : Nat → ℝ) (B : Nat → Nat → Nat → ℝ)
    (hr : args.ii0 + padB.kind.nnode ≤ k.nrow) (hc : args.jj0 + args.pad.kind.nnode * args.pad.spaceNdim ≤ k.ncol) (hreg : GradRegular inv args.pad args.gauss B)
    (hreg' : ∀ p < args.gauss.npoint, ∃ r, pad'.calcGradient inv (args.gauss.coords p) = .ok r)
    (hs : ∀ p < args.gauss.npoint, ∀ bb, Holds args.pad (B p) bb → fn p (shapeB args padB p) (shapeN args p) bb = .ok (s p))
    (hs' : ∀ p < args.gauss.npoint, ∀ bb, Holds pad' (divB c B p) bb → fn' p (shapeB args padB' p) (shapeN (withPad args pad') p) bb = .ok (s p)) :
    ∃ k1 p1 k2 p2, mat04Nsb inv k padB args fn = (k1, .ok p1) ∧ mat04Nsb inv k padB' (withPad args pad') fn' = (k2, .ok p2) ∧ Times2 args (c ^ (order args - 1)) k k1 k2 := by
  have hk : (withPad args pad').pad.kind = args.pad.kind := h.kind
  have hn : (withPad args pad').pad.spaceNdim = args.pad.spaceNdim := h.ndim
  have hsp : SpaceOk (withPad args pad').pad := by unfold SpaceOk; rw [hn]; exact hd
  obtain ⟨k1, p1, e1, b1⟩ := C37_mat_04_nsb hinv k padB args hd fn s B hr hc hreg hs
  obtain ⟨k2, p2, e2, b2⟩ := C37_mat_04_nsb hinv k padB' (withPad args pad') hsp fn' s (divB c B) (by rw [hB]; exact hr) (by rw [hk, hn]; exact hc) (gradRegular_scaled h hreg hreg') hs'
  simp only [shapeN_scaled h, hk, hn, hB, show (withPad args pad').gauss = args.gauss from rfl] at b2
  refine ⟨k1, p1, k2, p2, e1, e2, times2 b1 b2 fun m _ n _ => ?_⟩
  rcases Nat.eq_zero_or_pos args.gauss.npoint with h0 | h0
  · simp [quadrature, withPad, h0]
  have hle : 1 ≤ order args := by
    have := gradReg_ndim (hreg 0 h0).1
    unfold order
    rcases hd with hd | hd <;> omega
  refine quad_scaled h hd 1 (detMeasure_scaled h hreg) hle fun p hp => ?_
  have hc := h.pos.ne'
  simp only [divB, Finset.mul_sum, Finset.sum_mul]
  repeat' (refine Finset.sum_congr rfl fun _ _ => ?_)
  field_simp

/-- **C98, `mat_05_btn`.** -/
theorem C98_mat_05_btn (hinv : InverseSpec inv) (h : Scaled c args.pad pad') (hd : SpaceOk args.pad) (hB : Scaled c padB padB') (hdb : padB.spaceNdim = args.pad.spaceNdim) (k : Mat)
    (fn fn' : Nat → (Nat → Nat → ℝ) → (Nat → ℝ) → (Nat → Nat → ℝ) → Res (Nat → ℝ)) (s : Nat → Nat → ℝ) (B : Nat → Nat → Nat → ℝ) (Bb : Nat → Nat → Nat → ℝ)
    (hr : args.ii0 + padB.kind.nnode ≤ k.nrow) (hc : args.jj0 + args.pad.kind.nnode * args.pad.spaceNdim ≤ k.ncol) (hreg : GradRegular inv args.pad args.gauss B)
    (hreg' : ∀ p < args.gauss.npoint, ∃ r, pad'.calcGradient inv (args.gauss.coords p) = .ok r)
    (hregb : GradRegular inv padB args.gauss Bb) (hregb' : ∀ p < args.gauss.npoint, ∃ r, padB'.calcGradient inv (args.gauss.coords p) = .ok r)
    (hs : ∀ p < args.gauss.npoint, ∀ gb bb, Holds padB (Bb p) gb → Holds args.pad (B p) bb → fn p gb (shapeN args p) bb = .ok (s p))
    (hs' : ∀ p < args.gauss.npoint, ∀ gb bb, Holds padB' (divB c Bb p) gb → Holds pad' (divB c B p) bb → fn' p gb (shapeN (withPad args pad') p) bb = .ok (s p)) :
    ∃ k1 p1 k2 p2, mat05Btn inv k padB args fn = (k1, .ok p1) ∧ mat05Btn inv k padB' (withPad args pad') fn' = (k2, .ok p2) ∧ Times2 args (c ^ (order args - 1)) k k1 k2 := by
  have hk : (withPad args pad').pad.kind = args.pad.kind := h.kind
  have hn : (withPad args pad').pad.spaceNdim = args.pad.spaceNdim := h.ndim
  have hsp : SpaceOk (withPad args pad').pad := by unfold SpaceOk; rw [hn]; exact hd
  have hkB : padB'.kind = padB.kind := hB.kind
  obtain ⟨k1, p1, e1, b1⟩ := C37_mat_05_btn hinv k padB args hd hdb fn s B Bb hr hc hreg hregb hs
  obtain ⟨k2, p2, e2, b2⟩ := C37_mat_05_btn hinv k padB' (withPad args pad') hsp (by rw [hn, hB.ndim]; exact hdb) fn' s (divB c B) (divB c Bb) (by rw [hkB]; exact hr) (by rw [hk, hn]; exact hc) (gradRegular_scaled h hreg hreg') (gradRegular_scaled hB hregb hregb') hs'
  simp only [shapeN_scaled h, hk, hn, hkB, show (withPad args pad').gauss = args.gauss from rfl] at b2
  refine ⟨k1, p1, k2, p2, e1, e2, times2 b1 b2 fun m _ n _ => ?_⟩
  rcases Nat.eq_zero_or_pos args.gauss.npoint with h0 | h0
  · simp [quadrature, withPad, h0]
  have hle : 1 ≤ order args := by
    have := gradReg_ndim (hreg 0 h0).1
    unfold order
    rcases hd with hd | hd <;> omega
  refine quad_scaled h hd 1 (detMeasure_scaled h hreg) hle fun p hp => ?_
  have hc := h.pos.ne'
  simp only [divB, Finset.mul_sum, Finset.sum_mul]
  repeat' (refine Finset.sum_congr rfl fun _ _ => ?_)
  field_simp

end
end Gemlab.Props.Integ
