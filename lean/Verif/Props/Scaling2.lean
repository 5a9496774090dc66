import Verif.Props.Scaling

/-!
# C98, continued: matrices of vector fields and boundary integrals
-/
set_option linter.unusedVariables false
namespace Gemlab.Props.Integ
open Gemlab Gemlab.Integ Gemlab.Spec.Integ Gemlab.Scratchpad
noncomputable section

variable {c : ℝ} {pad pad' padB padB' : Scratchpad} {inv : MatInverse} {args : CommonArgs}

theorem nrmMag_scaled (h : Scaled c pad pad') (hgeo : pad.kind.ndim + 1 = pad.spaceNdim) (hd : SpaceOk pad) (ξ : Nat → ℝ) :
    nrmMag pad' ξ = c ^ pad.kind.ndim * nrmMag pad ξ := by
  unfold nrmMag
  rw [h.ndim, show pad.kind.ndim = pad.spaceNdim - 1 by omega]
  exact (nrmOut_scaled h.pos hd (fun i hi a => jac_scaled h ξ hi a)).1

/-- **C98, `mat_06_nvn`.** -/
theorem C98_mat_06_nvn (hinv : InverseSpec inv) (h : Scaled c args.pad pad') (hd : SpaceOk args.pad) (hB : padB'.kind = padB.kind) (k : Mat)
    (fn fn' : Nat → (Nat → ℝ) → (Nat → Nat → ℝ) → (Nat → ℝ) → Res (Nat → ℝ)) (s : Nat → Nat → ℝ) (B : Nat → Nat → Nat → ℝ)
    (hr : args.ii0 + args.pad.kind.nnode * args.pad.spaceNdim ≤ k.nrow) (hc : args.jj0 + padB.kind.nnode ≤ k.ncol) (hreg : GradRegular inv args.pad args.gauss B)
    (hreg' : ∀ p < args.gauss.npoint, ∃ r, pad'.calcGradient inv (args.gauss.coords p) = .ok r)
    (hs : ∀ p < args.gauss.npoint, ∀ bb, Holds args.pad (B p) bb → fn p (shapeN args p) bb (shapeB args padB p) = .ok (s p))
    (hs' : ∀ p < args.gauss.npoint, ∀ bb, Holds pad' (divB c B p) bb → fn' p (shapeN (withPad args pad') p) bb (shapeB args padB' p) = .ok (s p)) :
    ∃ k1 p1 k2 p2, mat06Nvn inv k args padB fn = (k1, .ok p1) ∧ mat06Nvn inv k (withPad args pad') padB' fn' = (k2, .ok p2) ∧ Times2 args (c ^ order args) k k1 k2 := by
  have hk : (withPad args pad').pad.kind = args.pad.kind := h.kind
  have hn : (withPad args pad').pad.spaceNdim = args.pad.spaceNdim := h.ndim
  have hsp : SpaceOk (withPad args pad').pad := by unfold SpaceOk; rw [hn]; exact hd
  obtain ⟨k1, p1, e1, b1⟩ := C37_mat_06_nvn hinv k args padB hd fn s B hr hc hreg hs
  obtain ⟨k2, p2, e2, b2⟩ := C37_mat_06_nvn hinv k (withPad args pad') padB' hsp fn' s (divB c B) (by rw [hk, hn]; exact hr) (by rw [hB]; exact hc) (gradRegular_scaled h hreg hreg') hs'
  simp only [shapeN_scaled h, hk, hn, hB, show (withPad args pad').gauss = args.gauss from rfl] at b2
  refine ⟨k1, p1, k2, p2, e1, e2, times2 b1 b2 fun m _ n _ => ?_⟩
  refine quad_scaled h hd 0 (detMeasure_scaled h hreg) (Nat.zero_le _) fun p hp => ?_
  rw [pow_zero, one_mul]

/-- **C98, `mat_07_bsn`.** -/
theorem C98_mat_07_bsn (hinv : InverseSpec inv) (h : Scaled c args.pad pad') (hd : SpaceOk args.pad) (hB : padB'.kind = padB.kind) (k : Mat)
    (fn fn' : Nat → (Nat → ℝ) → (Nat → Nat → ℝ) → (Nat → ℝ) → Res ℝ) (s : Nat → ℝ) (B : Nat → Nat → Nat → ℝ)
    (hr : args.ii0 + args.pad.kind.nnode * args.pad.spaceNdim ≤ k.nrow) (hc : args.jj0 + padB.kind.nnode ≤ k.ncol) (hreg : GradRegular inv args.pad args.gauss B)
    (hreg' : ∀ p < args.gauss.npoint, ∃ r, pad'.calcGradient inv (args.gauss.coords p) = .ok r)
    (hs : ∀ p < args.gauss.npoint, ∀ bb, Holds args.pad (B p) bb → fn p (shapeN args p) bb (shapeB args padB p) = .ok (s p))
    (hs' : ∀ p < args.gauss.npoint, ∀ bb, Holds pad' (divB c B p) bb → fn' p (shapeN (withPad args pad') p) bb (shapeB args padB' p) = .ok (s p)) :
    ∃ k1 p1 k2 p2, mat07Bsn inv k args padB fn = (k1, .ok p1) ∧ mat07Bsn inv k (withPad args pad') padB' fn' = (k2, .ok p2) ∧ Times2 args (c ^ (order args - 1)) k k1 k2 := by
  have hk : (withPad args pad').pad.kind = args.pad.kind := h.kind
  have hn : (withPad args pad').pad.spaceNdim = args.pad.spaceNdim := h.ndim
  have hsp : SpaceOk (withPad args pad').pad := by unfold SpaceOk; rw [hn]; exact hd
  obtain ⟨k1, p1, e1, b1⟩ := C37_mat_07_bsn hinv k args padB hd fn s B hr hc hreg hs
  obtain ⟨k2, p2, e2, b2⟩ := C37_mat_07_bsn hinv k (withPad args pad') padB' hsp fn' s (divB c B) (by rw [hk, hn]; exact hr) (by rw [hB]; exact hc) (gradRegular_scaled h hreg hreg') hs'
  simp only [shapeN_scaled h, hk, hn, hB, show (withPad args pad').gauss = args.gauss from rfl] at b2
  refine ⟨k1, p1, k2, p2, e1, e2, times2 b1 b2 fun m _ n _ => ?_⟩
  rcases Nat.eq_zero_or_pos args.gauss.npoint with h0 | h0
  · simp [quadrature, withPad, h0]
  have hle : 1 ≤ order args := by
    have := gradReg_ndim (hreg 0 h0).1
    unfold order
    rcases hd with hd | hd <;> omega
  refine quad_scaled h hd 1 (detMeasure_scaled h hreg) hle fun p hp => ?_
  have hc := h.pos.ne'
  simp only [divB, Finset.mul_sum, Finset.sum_mul]
  repeat' (refine Finset.sum_congr rfl fun _ _ => ?_)
  field_simp

/-- **C98, `mat_08_ntn`.** -/
theorem C98_mat_08_ntn (hinv : InverseSpec inv) (h : Scaled c args.pad pad') (hd : SpaceOk args.pad) (k : Mat)
    (fn fn' : Nat → (Nat → ℝ) → (Nat → Nat → ℝ) → Res (Nat → ℝ)) (s : Nat → Nat → ℝ) (B : Nat → Nat → Nat → ℝ)
    (hr : args.ii0 + args.pad.kind.nnode * args.pad.spaceNdim ≤ k.nrow) (hc : args.jj0 + args.pad.kind.nnode * args.pad.spaceNdim ≤ k.ncol) (hreg : GradRegular inv args.pad args.gauss B)
    (hreg' : ∀ p < args.gauss.npoint, ∃ r, pad'.calcGradient inv (args.gauss.coords p) = .ok r)
    (hs : Returns args B fn s) (hs' : Returns (withPad args pad') (divB c B) fn' s) :
    ∃ k1 p1 k2 p2, mat08Ntn inv k args fn = (k1, .ok p1) ∧ mat08Ntn inv k (withPad args pad') fn' = (k2, .ok p2) ∧ Times2 args (c ^ order args) k k1 k2 := by
  have hk : (withPad args pad').pad.kind = args.pad.kind := h.kind
  have hn : (withPad args pad').pad.spaceNdim = args.pad.spaceNdim := h.ndim
  have hsp : SpaceOk (withPad args pad').pad := by unfold SpaceOk; rw [hn]; exact hd
  obtain ⟨k1, p1, e1, b1⟩ := C37_mat_08_ntn hinv k args hd fn s B hr hc hreg hs
  obtain ⟨k2, p2, e2, b2⟩ := C37_mat_08_ntn hinv k (withPad args pad') hsp fn' s (divB c B) (by rw [hk, hn]; exact hr) (by rw [hk, hn]; exact hc) (gradRegular_scaled h hreg hreg') hs'
  simp only [shapeN_scaled h, hk, hn] at b2
  refine ⟨k1, p1, k2, p2, e1, e2, times2 b1 b2 fun m _ n _ => ?_⟩
  refine quad_scaled h hd 0 (detMeasure_scaled h hreg) (Nat.zero_le _) fun p hp => ?_
  rw [pow_zero, one_mul]

/-- **C98, `mat_09_nvb`.** -/
theorem C98_mat_09_nvb (hinv : InverseSpec inv) (h : Scaled c args.pad pad') (hd : SpaceOk args.pad) (k : Mat)
    (fn fn' : Nat → (Nat → ℝ) → (Nat → Nat → ℝ) → Res (Nat → ℝ)) (s : Nat → Nat → ℝ) (B : Nat → Nat → Nat → ℝ)
    (hr : args.ii0 + args.pad.kind.nnode * args.pad.spaceNdim ≤ k.nrow) (hc : args.jj0 + args.pad.kind.nnode * args.pad.spaceNdim ≤ k.ncol) (hreg : GradRegular inv args.pad args.gauss B)
    (hreg' : ∀ p < args.gauss.npoint, ∃ r, pad'.calcGradient inv (args.gauss.coords p) = .ok r)
    (hs : Returns args B fn s) (hs' : Returns (withPad args pad') (divB c B) fn' s) :
    ∃ k1 p1 k2 p2, mat09Nvb inv k args fn = (k1, .ok p1) ∧ mat09Nvb inv k (withPad args pad') fn' = (k2, .ok p2) ∧ Times2 args (c ^ (order args - 1)) k k1 k2 := by
  have hk : (withPad args pad').pad.kind = args.pad.kind := h.kind
  have hn : (withPad args pad').pad.spaceNdim = args.pad.spaceNdim := h.ndim
  have hsp : SpaceOk (withPad args pad').pad := by unfold SpaceOk; rw [hn]; exact hd
  obtain ⟨k1, p1, e1, b1⟩ := C37_mat_09_nvb hinv k args hd fn s B hr hc hreg hs
  obtain ⟨k2, p2, e2, b2⟩ := C37_mat_09_nvb hinv k (withPad args pad') hsp fn' s (divB c B) (by rw [hk, hn]; exact hr) (by rw [hk, hn]; exact hc) (gradRegular_scaled h hreg hreg') hs'
  simp only [shapeN_scaled h, hk, hn] at b2
  refine ⟨k1, p1, k2, p2, e1, e2, times2 b1 b2 fun m _ n _ => ?_⟩
  rcases Nat.eq_zero_or_pos args.gauss.npoint with h0 | h0
  · simp [quadrature, withPad, h0]
  have hle : 1 ≤ order args := by
    have := gradReg_ndim (hreg 0 h0).1
    unfold order
    rcases hd with hd | hd <;> omega
  refine quad_scaled h hd 1 (detMeasure_scaled h hreg) hle fun p hp => ?_
  have hc := h.pos.ne'
  simp only [divB, Finset.mul_sum, Finset.sum_mul]
  repeat' (refine Finset.sum_congr rfl fun _ _ => ?_)
  field_simp

/-- **C98, `mat_10_bdb`.** -/
theorem C98_mat_10_bdb (hinv : InverseSpec inv) (h : Scaled c args.pad pad') (hd : SpaceOk args.pad)
    (haxi : args.axisymmetric = true → args.pad.spaceNdim = 2 ∧ ∀ p < args.gauss.npoint, radiusAt args p ≠ 0) (k : Mat)
    (fn fn' : Nat → (Nat → ℝ) → (Nat → Nat → ℝ) → Res (Nat → Nat → ℝ)) (s : Nat → Nat → Nat → ℝ) (B : Nat → Nat → Nat → ℝ)
    (hr : args.ii0 + args.pad.kind.nnode * args.pad.spaceNdim ≤ k.nrow) (hc : args.jj0 + args.pad.kind.nnode * args.pad.spaceNdim ≤ k.ncol) (hreg : GradRegular inv args.pad args.gauss B)
    (hreg' : ∀ p < args.gauss.npoint, ∃ r, pad'.calcGradient inv (args.gauss.coords p) = .ok r)
    (hs : Returns args B fn s) (hs' : Returns (withPad args pad') (divB c B) fn' s) :
    ∃ k1 p1 k2 p2, mat10Bdb inv k args fn = (k1, .ok p1) ∧ mat10Bdb inv k (withPad args pad') fn' = (k2, .ok p2) ∧ Times2 args (c ^ (order args - 2)) k k1 k2 := by
  have hk : (withPad args pad').pad.kind = args.pad.kind := h.kind
  have hn : (withPad args pad').pad.spaceNdim = args.pad.spaceNdim := h.ndim
  have hsp : SpaceOk (withPad args pad').pad := by unfold SpaceOk; rw [hn]; exact hd
  have haxi' : (withPad args pad').axisymmetric = true → (withPad args pad').pad.spaceNdim = 2 ∧ ∀ p < (withPad args pad').gauss.npoint, radiusAt (withPad args pad') p ≠ 0 := by
    intro ha
    obtain ⟨h1, h2⟩ := haxi ha
    exact ⟨by rw [hn]; exact h1, fun p hp => by rw [radius_scaled h hd]; exact mul_ne_zero h.pos.ne' (h2 p hp)⟩
  obtain ⟨k1, p1, e1, b1⟩ := C37_mat_10_bdb hinv k args hd haxi fn s B hr hc hreg hs
  obtain ⟨k2, p2, e2, b2⟩ := C37_mat_10_bdb hinv k (withPad args pad') hsp haxi' fn' s (divB c B) (by rw [hk, hn]; exact hr) (by rw [hk, hn]; exact hc) (gradRegular_scaled h hreg hreg') hs'
  simp only [shapeN_scaled h, hk, hn] at b2
  refine ⟨k1, p1, k2, p2, e1, e2, times2 b1 b2 fun m _ n _ => ?_⟩
  rcases Nat.eq_zero_or_pos args.gauss.npoint with h0 | h0
  · simp [quadrature, withPad, h0]
  have hle : 2 ≤ order args := by
    have := gradReg_ndim (hreg 0 h0).1
    unfold order
    rcases hd with hd | hd <;> omega
  refine quad_scaled h hd 2 (detMeasure_scaled h hreg) hle fun p hp => ?_
  have hc := h.pos.ne'
  simp only [stiffness, show divB c B p = fun m i => c⁻¹ * B p m i from rfl, strain_scaled h hd, Finset.mul_sum, Finset.sum_mul]
  repeat' (refine Finset.sum_congr rfl fun _ _ => ?_)
  field_simp

/-- **C98, `vec_01_ns_bry`.** -/
theorem C98_vec_01_ns_bry (h : Scaled c args.pad pad') (hd : SpaceOk args.pad) (hgeo : args.pad.kind.ndim + 1 = args.pad.spaceNdim) (k : Vec)
    (fn fn' : Nat → (Nat → ℝ) → (Nat → ℝ) → Res ℝ) (s : Nat → ℝ)
    (hsize : args.ii0 + args.pad.kind.nnode ≤ k.dim)
    (hs : ∀ p < args.gauss.npoint, ∀ mag un q, args.pad.calcNormalVector args.pad.spaceNdim (args.gauss.coords p) = .ok (mag, un, q) → fn p un (shapeN args p) = .ok (s p))
    (hs' : ∀ p < args.gauss.npoint, ∀ mag un q, pad'.calcNormalVector args.pad.spaceNdim (args.gauss.coords p) = .ok (mag, un, q) → fn' p un (shapeN (withPad args pad') p) = .ok (s p)) :
    ∃ k1 p1 k2 p2, vec01NsBry k args fn = (k1, .ok p1) ∧ vec01NsBry k (withPad args pad') fn' = (k2, .ok p2) ∧ Times1 args (c ^ order args) k k1 k2 := by
  have hk : (withPad args pad').pad.kind = args.pad.kind := h.kind
  have hn : (withPad args pad').pad.spaceNdim = args.pad.spaceNdim := h.ndim
  have hsp : SpaceOk (withPad args pad').pad := by unfold SpaceOk; rw [hn]; exact hd
  have hN := fun ξ => normal_total hgeo hd ξ
  have hN' := fun ξ => normal_total (pad := pad') (by rw [h.kind, h.ndim]; exact hgeo) hsp ξ
  obtain ⟨k1, p1, e1, b1⟩ := C37_vec_01_ns_bry k args fn s (nrmMag args.pad) (fun p => (nrmOut args.pad.spaceNdim (args.pad.fillJacobian (args.gauss.coords p)).jacobian).2) hgeo hsize
    (fun p _ => hN _) (fun p hp => by obtain ⟨q, hq⟩ := hN (args.gauss.coords p); exact hs p hp _ _ _ hq)
  obtain ⟨k2, p2, e2, b2⟩ := C37_vec_01_ns_bry k (withPad args pad') fn' s (nrmMag pad') (fun p => (nrmOut pad'.spaceNdim (pad'.fillJacobian (args.gauss.coords p)).jacobian).2)
    (by rw [hk, hn]; exact hgeo) (by rw [hk]; exact hsize) (fun p _ => hN' _) (fun p hp => by obtain ⟨q, hq⟩ := hN' (args.gauss.coords p); rw [h.ndim] at hq; exact hs' p hp _ _ _ (by rw [h.ndim]; exact hq))
  simp only [shapeN_scaled h, hk, hn] at b2
  refine ⟨k1, p1, k2, p2, e1, e2, times1 b1 b2 fun m _ => ?_⟩
  refine quad_scaled h hd 0 (fun p _ => nrmMag_scaled h hgeo hd _) (Nat.zero_le _) fun p hp => ?_
  rw [pow_zero, one_mul]

/-- **C98, `vec_02_nv_bry`.** -/
theorem C98_vec_02_nv_bry (h : Scaled c args.pad pad') (hd : SpaceOk args.pad) (hgeo : args.pad.kind.ndim + 1 = args.pad.spaceNdim) (k : Vec)
    (fn fn' : Nat → (Nat → ℝ) → (Nat → ℝ) → Res (Nat → ℝ)) (s : Nat → Nat → ℝ)
    (hsize : args.ii0 + args.pad.kind.nnode * args.pad.spaceNdim ≤ k.dim)
    (hs : ∀ p < args.gauss.npoint, ∀ mag un q, args.pad.calcNormalVector args.pad.spaceNdim (args.gauss.coords p) = .ok (mag, un, q) → fn p un (shapeN args p) = .ok (s p))
    (hs' : ∀ p < args.gauss.npoint, ∀ mag un q, pad'.calcNormalVector args.pad.spaceNdim (args.gauss.coords p) = .ok (mag, un, q) → fn' p un (shapeN (withPad args pad') p) = .ok (s p)) :
    ∃ k1 p1 k2 p2, vec02NvBry k args fn = (k1, .ok p1) ∧ vec02NvBry k (withPad args pad') fn' = (k2, .ok p2) ∧ Times1 args (c ^ order args) k k1 k2 := by
  have hk : (withPad args pad').pad.kind = args.pad.kind := h.kind
  have hn : (withPad args pad').pad.spaceNdim = args.pad.spaceNdim := h.ndim
  have hsp : SpaceOk (withPad args pad').pad := by unfold SpaceOk; rw [hn]; exact hd
  have hN := fun ξ => normal_total hgeo hd ξ
  have hN' := fun ξ => normal_total (pad := pad') (by rw [h.kind, h.ndim]; exact hgeo) hsp ξ
  obtain ⟨k1, p1, e1, b1⟩ := C37_vec_02_nv_bry k args hd fn s (nrmMag args.pad) (fun p => (nrmOut args.pad.spaceNdim (args.pad.fillJacobian (args.gauss.coords p)).jacobian).2) hgeo hsize
    (fun p _ => hN _) (fun p hp => by obtain ⟨q, hq⟩ := hN (args.gauss.coords p); exact hs p hp _ _ _ hq)
  obtain ⟨k2, p2, e2, b2⟩ := C37_vec_02_nv_bry k (withPad args pad') hsp fn' s (nrmMag pad') (fun p => (nrmOut pad'.spaceNdim (pad'.fillJacobian (args.gauss.coords p)).jacobian).2)
    (by rw [hk, hn]; exact hgeo) (by rw [hk, hn]; exact hsize) (fun p _ => hN' _) (fun p hp => by obtain ⟨q, hq⟩ := hN' (args.gauss.coords p); rw [h.ndim] at hq; exact hs' p hp _ _ _ (by rw [h.ndim]; exact hq))
  simp only [shapeN_scaled h, hk, hn] at b2
  refine ⟨k1, p1, k2, p2, e1, e2, times1 b1 b2 fun m _ => ?_⟩
  refine quad_scaled h hd 0 (fun p _ => nrmMag_scaled h hgeo hd _) (Nat.zero_le _) fun p hp => ?_
  rw [pow_zero, one_mul]

/-- **C98, `mat_01_nsn_bry`.** -/
theorem C98_mat_01_nsn_bry (h : Scaled c args.pad pad') (hd : SpaceOk args.pad) (hgeo : args.pad.kind.ndim + 1 = args.pad.spaceNdim) (k : Mat)
    (fn fn' : Nat → (Nat → ℝ) → (Nat → ℝ) → Res ℝ) (s : Nat → ℝ)
    (hr : args.ii0 + args.pad.kind.nnode ≤ k.nrow) (hc : args.jj0 + args.pad.kind.nnode ≤ k.ncol)
    (hs : ∀ p < args.gauss.npoint, ∀ mag un q, args.pad.calcNormalVector args.pad.spaceNdim (args.gauss.coords p) = .ok (mag, un, q) → fn p un (shapeN args p) = .ok (s p))
    (hs' : ∀ p < args.gauss.npoint, ∀ mag un q, pad'.calcNormalVector args.pad.spaceNdim (args.gauss.coords p) = .ok (mag, un, q) → fn' p un (shapeN (withPad args pad') p) = .ok (s p)) :
    ∃ k1 p1 k2 p2, mat01NsnBry k args fn = (k1, .ok p1) ∧ mat01NsnBry k (withPad args pad') fn' = (k2, .ok p2) ∧ Times2 args (c ^ order args) k k1 k2 := by
  have hk : (withPad args pad').pad.kind = args.pad.kind := h.kind
  have hn : (withPad args pad').pad.spaceNdim = args.pad.spaceNdim := h.ndim
  have hsp : SpaceOk (withPad args pad').pad := by unfold SpaceOk; rw [hn]; exact hd
  have hN := fun ξ => normal_total hgeo hd ξ
  have hN' := fun ξ => normal_total (pad := pad') (by rw [h.kind, h.ndim]; exact hgeo) hsp ξ
  obtain ⟨k1, p1, e1, b1⟩ := C37_mat_01_nsn_bry k args fn s (nrmMag args.pad) (fun p => (nrmOut args.pad.spaceNdim (args.pad.fillJacobian (args.gauss.coords p)).jacobian).2) hgeo hr hc
    (fun p _ => hN _) (fun p hp => by obtain ⟨q, hq⟩ := hN (args.gauss.coords p); exact hs p hp _ _ _ hq)
  obtain ⟨k2, p2, e2, b2⟩ := C37_mat_01_nsn_bry k (withPad args pad') fn' s (nrmMag pad') (fun p => (nrmOut pad'.spaceNdim (pad'.fillJacobian (args.gauss.coords p)).jacobian).2)
    (by rw [hk, hn]; exact hgeo) (by rw [hk]; exact hr) (by rw [hk]; exact hc) (fun p _ => hN' _) (fun p hp => by obtain ⟨q, hq⟩ := hN' (args.gauss.coords p); rw [h.ndim] at hq; exact hs' p hp _ _ _ (by rw [h.ndim]; exact hq))
  simp only [shapeN_scaled h, hk, hn] at b2
  refine ⟨k1, p1, k2, p2, e1, e2, times2 b1 b2 fun m _ n _ => ?_⟩
  refine quad_scaled h hd 0 (fun p _ => nrmMag_scaled h hgeo hd _) (Nat.zero_le _) fun p hp => ?_
  rw [pow_zero, one_mul]

/-- With an exact inverse, the element in the other unit can be integrated if the first one can. -/
theorem C98_regular (h : Scaled c pad pad') (hok : pad'.okXxt = true) {ξ : Nat → ℝ} (hr : ∃ r, pad.calcGradient exactInverse ξ = .ok r) :
    ∃ r, pad'.calcGradient exactInverse ξ = .ok r := by
  have hk := gradReg_ndim hr
  obtain ⟨⟨d, p⟩, hr⟩ := hr
  obtain ⟨h1, h2, hJ, _⟩ := gradient_facts exactInverse_spec hr
  have h3 : detJ pad' ξ ≠ 0 := by
    rw [detJ_scaled h]
    have : detJ pad ξ = detN pad.spaceNdim p.jacobian := by unfold detJ; congr 1; funext i j; exact (hJ i j).symm
    rw [this, ← h1]
    exact mul_ne_zero (pow_ne_zero _ h.pos.ne') h2
  have hk' : pad'.kind.ndim = pad'.spaceNdim := by rw [h.kind, h.ndim]; exact hk
  unfold calcGradient calcJacobian
  rw [if_neg (not_not.2 hk'), if_neg (by simp [hok])]
  dsimp only
  have e : exactInverse (pad'.fillJacobian ξ).spaceNdim (pad'.fillJacobian ξ).jacobian = .ok (_, _) := if_neg h3
  rw [if_pos (show (pad'.fillJacobian ξ).kind.ndim = (pad'.fillJacobian ξ).spaceNdim from hk'), e]
  exact ⟨_, rfl⟩

/-- **C98, surfaces in space.** The integral over a surface in space that uses the Jacobian does not change with the unit of length: areas of
shells must be computed with the boundary routines. -/
theorem C98_shell (hinv : InverseSpec inv) (h : Scaled c pad pad') (hs : pad.kind.ndim = 2 ∧ pad.spaceNdim = 3) (g : Gauss)
    (fnS fnS' : Nat → Res ℝ) (s : Nat → ℝ) (hreg : JacRegular inv pad g)
    (hreg' : JacRegular inv pad' g) (hs1 : ∀ p < g.npoint, fnS p = .ok (s p)) (hs2 : ∀ p < g.npoint, fnS' p = .ok (s p)) :
    scalarField inv pad g fnS = .ok (- ∑ p ∈ Finset.range g.npoint, g.weight p * s p) ∧
    scalarField inv pad' g fnS' = .ok (- ∑ p ∈ Finset.range g.npoint, g.weight p * s p) := by
  have e : ∀ q : Scratchpad, q.kind.ndim = 2 → q.spaceNdim = 3 → ∀ ξ, jacMeasure q ξ = -1 := by
    intro q h1 h2 ξ
    unfold jacMeasure
    rw [h1, h2, if_neg (by norm_num), if_neg (by norm_num)]
  rw [C37_scalar_field hinv pad g fnS s hreg hs1, C37_scalar_field hinv pad' g fnS' s hreg' hs2, ← Finset.sum_neg_distrib]
  refine ⟨?_, ?_⟩
  · congr 1
    exact Finset.sum_congr rfl fun p _ => by rw [e pad hs.1 hs.2]; ring
  · congr 1
    exact Finset.sum_congr rfl fun p _ => by rw [e pad' (by rw [h.kind]; exact hs.1) (by rw [h.ndim]; exact hs.2)]; ring

/-- The pad of an element in another unit. -/
def inUnit (c : ℝ) (pad : Scratchpad) : Scratchpad := { pad with xxt := fun i m => c * pad.xxt i m }

/-- **C98, an example.** For every kind of plane or solid element, the reference element in metres and in millimetres, any integration points and any elasticity matrix:
the stiffness matrices are the same in the plane, and in space the second one is 1000 times the first one. -/
theorem C98_example (k : GeoKind) (hd : k.ndim = 2 ∨ k.ndim = 3) (g : Gauss) (D : Nat → Nat → ℝ) :
    let K := fun (pad : Scratchpad) => mat10Bdb exactInverse ⟨k.nnode * k.ndim, k.nnode * k.ndim, fun _ => 0⟩ (CommonArgs.new pad g) (fun _ _ _ => .ok D)
    Scaled 1000 (referencePad k) (inUnit 1000 (referencePad k)) ∧
    ∃ k1 p1 k2 p2, K (referencePad k) = (k1, .ok p1) ∧ K (inUnit 1000 (referencePad k)) = (k2, .ok p2) ∧
      ∀ i j, k2.val (i, j) = (if k.ndim = 2 then 1 else 1000) * k1.val (i, j) := by
  intro K
  have hm : Scaled 1000 (referencePad k) (inUnit 1000 (referencePad k)) := ⟨rfl, rfl, le_rfl, by norm_num, fun m _ i _ => rfl⟩
  refine ⟨hm, ?_⟩
  have hr : ∀ p, ∃ r, (referencePad k).calcGradient exactInverse (g.coords p) = .ok r := fun p => by
    obtain ⟨⟨d, q, hq⟩, _⟩ := exists_gradient k (g.coords p) (fun _ => 0)
    exact ⟨_, hq⟩
  choose r hr using hr
  obtain ⟨k1, p1, k2, p2, e1, e2, b⟩ := C98_mat_10_bdb (args := CommonArgs.new (referencePad k) g) exactInverse_spec hm hd (fun ha => absurd ha (by simp [CommonArgs.new]))
    ⟨k.nnode * k.ndim, k.nnode * k.ndim, fun _ => 0⟩ (fun _ _ _ => .ok D) (fun _ _ _ => .ok D) (fun _ => D) (fun p => (r p).2.gradient)
    (by simp [CommonArgs.new, referencePad]) (by simp [CommonArgs.new, referencePad])
    (fun p _ => ⟨⟨_, hr p⟩, gradient_exists exactInverse_spec (d := (r p).1) (hr p)⟩)
    (fun p _ => C98_regular hm rfl ⟨_, hr p⟩) (fun p _ bb _ => rfl) (fun p _ bb _ => rfl)
  refine ⟨k1, p1, k2, p2, e1, e2, fun i j => ?_⟩
  have := b.2.2 i j
  unfold added2 at this
  simp only [ite_self, sub_zero] at this
  rw [this]
  congr 1
  have e : order (CommonArgs.new (referencePad k) g) = k.ndim := by simp [order, CommonArgs.new, referencePad]
  rw [e]
  rcases hd with hd | hd <;> rw [hd] <;> norm_num

end
end Gemlab.Props.Integ
