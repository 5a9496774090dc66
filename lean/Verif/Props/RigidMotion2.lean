import Verif.Props.RigidMotion

/-!
# C94: rigid motions (continued)

The routines with two pads, the routines on boundaries, and an example.
-/
set_option linter.unusedSimpArgs false
set_option linter.unusedVariables false
namespace Gemlab.Props.Integ
open Gemlab Gemlab.Integ Gemlab.Spec.Integ Gemlab.Scratchpad
noncomputable section

variable {Q : Nat → Nat → ℝ} {c : Nat → ℝ} {pad pad' padB padB' : Scratchpad} {inv : MatInverse} {args : CommonArgs}

/-- Shape functions of the second pad at point `p`. -/
def shapeB (args : CommonArgs) (padB : Scratchpad) (p : Nat) : Nat → ℝ := Shapes.calcInterp padB.kind (args.gauss.coords p)

/-- **C94, `mat_04_nsb`.** -/
theorem C94_mat_04_nsb (hinv : InverseSpec inv) (h : Moved Q c args.pad pad') (hB : padB'.kind = padB.kind) (hd : SpaceOk args.pad) (hax : args.axisymmetric = false) (k : Mat)
    (fn fn' : Nat → (Nat → ℝ) → (Nat → ℝ) → (Nat → Nat → ℝ) → Res ℝ) (s : Nat → ℝ) (B : Nat → Nat → Nat → ℝ)
    (hr : args.ii0 + padB.kind.nnode ≤ k.nrow) (hc : args.jj0 + args.pad.kind.nnode * args.pad.spaceNdim ≤ k.ncol) (hreg : GradRegular inv args.pad args.gauss B)
    (hreg' : ∀ p < args.gauss.npoint, ∃ r, pad'.calcGradient inv (args.gauss.coords p) = .ok r)
    (hs : ∀ p < args.gauss.npoint, ∀ bb, Holds args.pad (B p) bb → fn p (shapeB args padB p) (shapeN args p) bb = .ok (s p)) (hs' : ∀ p < args.gauss.npoint, ∀ bb, Holds pad' (rotB args.pad.spaceNdim Q B p) bb → fn' p (shapeB args padB' p) (shapeN (withPad args pad') p) bb = .ok (s p)) :
    ∃ k1 p1 k2 p2, mat04Nsb inv k padB args fn = (k1, .ok p1) ∧ mat04Nsb inv k padB' (withPad args pad') fn' = (k2, .ok p2) ∧ RotCols args args.pad.spaceNdim padB.kind.nnode args.pad.kind.nnode Q k k1 k2 := by
  have hk : (withPad args pad').pad.kind = args.pad.kind := h.kind
  have hn : (withPad args pad').pad.spaceNdim = args.pad.spaceNdim := h.ndim
  have hsp : SpaceOk (withPad args pad').pad := by unfold SpaceOk; rw [hn]; exact hd
  obtain ⟨k1, p1, e1, b1⟩ := C37_mat_04_nsb hinv k padB args hd fn s B hr hc hreg hs
  obtain ⟨k2, p2, e2, b2⟩ := C37_mat_04_nsb hinv k padB' (withPad args pad') hsp fn' s _ (by rw [hB]; exact hr) (by rw [hk, hn]; exact hc) (gradRegular_moved h hreg hreg') hs'
  simp only [shapeN_moved h, hk, hn, hB] at b2
  refine ⟨k1, p1, k2, p2, e1, e2, rotCols b1 b2 fun m hm n hn i hi => ?_⟩
  rw [quad_rotV]
  refine quad_moved hax (fun p hp => detJ_moved h (gradReg_ndim (hreg p hp).1) _) fun p hp => ?_
  rw [digit_div hi, digit_mod hi]
  unfold rotB rotV
  rw [Finset.mul_sum]
  refine Finset.sum_congr rfl fun j hj => ?_
  beta_reduce
  rw [digit_div (Finset.mem_range.1 hj), digit_mod (Finset.mem_range.1 hj)]
  simp only [withPad]
  ring

/-- **C94, `mat_05_btn`** with the tensors `T` and `Q T Qᵀ`; both pads are moved. -/
theorem C94_mat_05_btn (hinv : InverseSpec inv) (h : Moved Q c args.pad pad') (hd : SpaceOk args.pad) (hax : args.axisymmetric = false) (k : Mat)
    (fn fn' : Nat → (Nat → Nat → ℝ) → (Nat → ℝ) → (Nat → Nat → ℝ) → Res (Nat → ℝ)) (t t' : Nat → Nat → ℝ) (B : Nat → Nat → Nat → ℝ) (Bb : Nat → Nat → Nat → ℝ) (hBm : Moved Q c padB padB') (hdb : padB.spaceNdim = args.pad.spaceNdim)
    (hregb : GradRegular inv padB args.gauss Bb) (hregb' : ∀ p < args.gauss.npoint, ∃ r, padB'.calcGradient inv (args.gauss.coords p) = .ok r)
    (hv : ∀ p < args.gauss.npoint, ∀ i < args.pad.spaceNdim, ∀ j < args.pad.spaceNdim, tensor2 (t' p) i j = rotT args.pad.spaceNdim Q (tensor2 (t p)) i j)
    (hr : args.ii0 + padB.kind.nnode ≤ k.nrow) (hc : args.jj0 + args.pad.kind.nnode * args.pad.spaceNdim ≤ k.ncol) (hreg : GradRegular inv args.pad args.gauss B)
    (hreg' : ∀ p < args.gauss.npoint, ∃ r, pad'.calcGradient inv (args.gauss.coords p) = .ok r)
    (hs : ∀ p < args.gauss.npoint, ∀ gb bb, Holds padB (Bb p) gb → Holds args.pad (B p) bb → fn p gb (shapeN args p) bb = .ok (t p)) (hs' : ∀ p < args.gauss.npoint, ∀ gb bb, Holds padB' (rotB args.pad.spaceNdim Q Bb p) gb → Holds pad' (rotB args.pad.spaceNdim Q B p) bb → fn' p gb (shapeN (withPad args pad') p) bb = .ok (t' p)) :
    ∃ k1 p1 k2 p2, mat05Btn inv k padB args fn = (k1, .ok p1) ∧ mat05Btn inv k padB' (withPad args pad') fn' = (k2, .ok p2) ∧ RotCols args args.pad.spaceNdim padB.kind.nnode args.pad.kind.nnode Q k k1 k2 := by
  have hB : padB'.kind = padB.kind := hBm.kind
  have hk : (withPad args pad').pad.kind = args.pad.kind := h.kind
  have hn : (withPad args pad').pad.spaceNdim = args.pad.spaceNdim := h.ndim
  have hsp : SpaceOk (withPad args pad').pad := by unfold SpaceOk; rw [hn]; exact hd
  obtain ⟨k1, p1, e1, b1⟩ := C37_mat_05_btn hinv k padB args hd hdb fn t B Bb hr hc hreg hregb hs
  obtain ⟨k2, p2, e2, b2⟩ := C37_mat_05_btn hinv k padB' (withPad args pad') hsp (by rw [hn, hBm.ndim]; exact hdb) fn' t' _ (rotB args.pad.spaceNdim Q Bb) (by rw [hB]; exact hr) (by rw [hk, hn]; exact hc) (gradRegular_moved h hreg hreg') (fun p hp => ⟨hregb' p hp, by have := grad_moved hBm (gradReg_ndim (hregb p hp).1) (hregb p hp).2; rw [hdb] at this; exact this⟩) hs'
  simp only [shapeN_moved h, hk, hn, hB] at b2
  refine ⟨k1, p1, k2, p2, e1, e2, rotCols b1 b2 fun m hm n hn i hi => ?_⟩
  rw [quad_rotV]
  refine quad_moved hax (fun p hp => detJ_moved h (gradReg_ndim (hreg p hp).1) _) fun p hp => ?_
  rw [digit_div hi, digit_mod hi]
  have e : ∀ j < args.pad.spaceNdim, (∑ i ∈ Finset.range args.pad.spaceNdim, Bb p m i * tensor2 (t p) i ((j + n * args.pad.spaceNdim) % args.pad.spaceNdim)) * shapeN args p ((j + n * args.pad.spaceNdim) / args.pad.spaceNdim) =
      (∑ l ∈ Finset.range args.pad.spaceNdim, tensor2 (t p) j l * Bb p m l) * shapeN args p n := by
    intro j hj
    rw [digit_div hj, digit_mod hj]
    congr 1
    exact Finset.sum_congr rfl fun l _ => by rw [mul_comm, tensor2_symm]
  rw [rotV_congr e]
  have e4 : rotV args.pad.spaceNdim Q (fun j => (∑ l ∈ Finset.range args.pad.spaceNdim, tensor2 (t p) j l * Bb p m l) * shapeN args p n) i =
      rotV args.pad.spaceNdim Q (fun j => ∑ l ∈ Finset.range args.pad.spaceNdim, tensor2 (t p) j l * Bb p m l) i * shapeN args p n := by
    unfold rotV
    rw [Finset.sum_mul]
    exact Finset.sum_congr rfl fun j _ => by ring
  rw [e4, ← rotT_rotV h.rot]
  congr 1
  exact Finset.sum_congr rfl fun j hj => by rw [tensor2_symm, hv p hp i hi j (Finset.mem_range.1 hj), mul_comm]; rfl

/-- **C94, `mat_06_nvn`** with the vectors `v` and `Q v`. -/
theorem C94_mat_06_nvn (hinv : InverseSpec inv) (h : Moved Q c args.pad pad') (hB : padB'.kind = padB.kind) (hd : SpaceOk args.pad) (hax : args.axisymmetric = false) (k : Mat)
    (fn fn' : Nat → (Nat → ℝ) → (Nat → Nat → ℝ) → (Nat → ℝ) → Res (Nat → ℝ)) (v v' : Nat → Nat → ℝ) (B : Nat → Nat → Nat → ℝ)
    (hv : ∀ p < args.gauss.npoint, ∀ i < args.pad.spaceNdim, v' p i = rotV args.pad.spaceNdim Q (v p) i)
    (hr : args.ii0 + args.pad.kind.nnode * args.pad.spaceNdim ≤ k.nrow) (hc : args.jj0 + padB.kind.nnode ≤ k.ncol) (hreg : GradRegular inv args.pad args.gauss B)
    (hreg' : ∀ p < args.gauss.npoint, ∃ r, pad'.calcGradient inv (args.gauss.coords p) = .ok r)
    (hs : ∀ p < args.gauss.npoint, ∀ bb, Holds args.pad (B p) bb → fn p (shapeN args p) bb (shapeB args padB p) = .ok (v p)) (hs' : ∀ p < args.gauss.npoint, ∀ bb, Holds pad' (rotB args.pad.spaceNdim Q B p) bb → fn' p (shapeN (withPad args pad') p) bb (shapeB args padB' p) = .ok (v' p)) :
    ∃ k1 p1 k2 p2, mat06Nvn inv k args padB fn = (k1, .ok p1) ∧ mat06Nvn inv k (withPad args pad') padB' fn' = (k2, .ok p2) ∧ RotRows args args.pad.spaceNdim args.pad.kind.nnode padB.kind.nnode Q k k1 k2 := by
  have hk : (withPad args pad').pad.kind = args.pad.kind := h.kind
  have hn : (withPad args pad').pad.spaceNdim = args.pad.spaceNdim := h.ndim
  have hsp : SpaceOk (withPad args pad').pad := by unfold SpaceOk; rw [hn]; exact hd
  obtain ⟨k1, p1, e1, b1⟩ := C37_mat_06_nvn hinv k args padB hd fn v B hr hc hreg hs
  obtain ⟨k2, p2, e2, b2⟩ := C37_mat_06_nvn hinv k (withPad args pad') padB' hsp fn' v' _ (by rw [hk, hn]; exact hr) (by rw [hB]; exact hc) (gradRegular_moved h hreg hreg') hs'
  simp only [shapeN_moved h, hk, hn, hB] at b2
  refine ⟨k1, p1, k2, p2, e1, e2, rotRows b1 b2 fun m hm i hi n hn => ?_⟩
  rw [quad_rotV]
  refine quad_moved hax (fun p hp => detJ_moved h (gradReg_ndim (hreg p hp).1) _) fun p hp => ?_
  rw [digit_div hi, digit_mod hi, hv p hp i hi]
  unfold rotV
  simp only [Finset.mul_sum, Finset.sum_mul]
  refine Finset.sum_congr rfl fun j hj => ?_
  rw [digit_div (Finset.mem_range.1 hj), digit_mod (Finset.mem_range.1 hj)]
  simp only [withPad]
  ring

/-- **C94, `mat_07_bsn`.** -/
theorem C94_mat_07_bsn (hinv : InverseSpec inv) (h : Moved Q c args.pad pad') (hB : padB'.kind = padB.kind) (hd : SpaceOk args.pad) (hax : args.axisymmetric = false) (k : Mat)
    (fn fn' : Nat → (Nat → ℝ) → (Nat → Nat → ℝ) → (Nat → ℝ) → Res ℝ) (s : Nat → ℝ) (B : Nat → Nat → Nat → ℝ)
    (hr : args.ii0 + args.pad.kind.nnode * args.pad.spaceNdim ≤ k.nrow) (hc : args.jj0 + padB.kind.nnode ≤ k.ncol) (hreg : GradRegular inv args.pad args.gauss B)
    (hreg' : ∀ p < args.gauss.npoint, ∃ r, pad'.calcGradient inv (args.gauss.coords p) = .ok r)
    (hs : ∀ p < args.gauss.npoint, ∀ bb, Holds args.pad (B p) bb → fn p (shapeN args p) bb (shapeB args padB p) = .ok (s p)) (hs' : ∀ p < args.gauss.npoint, ∀ bb, Holds pad' (rotB args.pad.spaceNdim Q B p) bb → fn' p (shapeN (withPad args pad') p) bb (shapeB args padB' p) = .ok (s p)) :
    ∃ k1 p1 k2 p2, mat07Bsn inv k args padB fn = (k1, .ok p1) ∧ mat07Bsn inv k (withPad args pad') padB' fn' = (k2, .ok p2) ∧ RotRows args args.pad.spaceNdim args.pad.kind.nnode padB.kind.nnode Q k k1 k2 := by
  have hk : (withPad args pad').pad.kind = args.pad.kind := h.kind
  have hn : (withPad args pad').pad.spaceNdim = args.pad.spaceNdim := h.ndim
  have hsp : SpaceOk (withPad args pad').pad := by unfold SpaceOk; rw [hn]; exact hd
  obtain ⟨k1, p1, e1, b1⟩ := C37_mat_07_bsn hinv k args padB hd fn s B hr hc hreg hs
  obtain ⟨k2, p2, e2, b2⟩ := C37_mat_07_bsn hinv k (withPad args pad') padB' hsp fn' s _ (by rw [hk, hn]; exact hr) (by rw [hB]; exact hc) (gradRegular_moved h hreg hreg') hs'
  simp only [shapeN_moved h, hk, hn, hB] at b2
  refine ⟨k1, p1, k2, p2, e1, e2, rotRows b1 b2 fun m hm i hi n hn => ?_⟩
  rw [quad_rotV]
  refine quad_moved hax (fun p hp => detJ_moved h (gradReg_ndim (hreg p hp).1) _) fun p hp => ?_
  rw [digit_div hi, digit_mod hi]
  unfold rotB rotV
  simp only [Finset.mul_sum, Finset.sum_mul]
  refine Finset.sum_congr rfl fun j hj => ?_
  rw [digit_div (Finset.mem_range.1 hj), digit_mod (Finset.mem_range.1 hj)]
  simp only [withPad]
  ring

/-- The magnitude returned by `calc_normal_vector`. -/
def nrmMag (pad : Scratchpad) (ξ : Nat → ℝ) : ℝ := (nrmOut pad.spaceNdim (pad.fillJacobian ξ).jacobian).1

theorem normal_total (hgeo : pad.kind.ndim + 1 = pad.spaceNdim) (hd : SpaceOk pad) (ξ : Nat → ℝ) :
    ∃ q, pad.calcNormalVector pad.spaceNdim ξ = .ok (nrmMag pad ξ, (nrmOut pad.spaceNdim (pad.fillJacobian ξ).jacobian).2, q) := by
  rw [normal_eq, if_neg (by omega), if_neg (by omega), if_neg (by simp)]
  exact ⟨_, rfl⟩

/-- **C94, `vec_01_ns_bry`.** -/
theorem C94_vec_01_ns_bry (h : Moved Q c args.pad pad') (hd : SpaceOk args.pad) (hax : args.axisymmetric = false) (hgeo : args.pad.kind.ndim + 1 = args.pad.spaceNdim) (k : Vec)
    (fn fn' : Nat → (Nat → ℝ) → (Nat → ℝ) → Res ℝ) (s : Nat → ℝ)
    (hsize : args.ii0 + args.pad.kind.nnode ≤ k.dim)
    (hs : ∀ p < args.gauss.npoint, ∀ mag un q, args.pad.calcNormalVector args.pad.spaceNdim (args.gauss.coords p) = .ok (mag, un, q) → fn p un (shapeN args p) = .ok (s p))
    (hs' : ∀ p < args.gauss.npoint, ∀ mag un q, pad'.calcNormalVector args.pad.spaceNdim (args.gauss.coords p) = .ok (mag, un, q) → fn' p un (shapeN (withPad args pad') p) = .ok (s p)) :
    ∃ k1 p1 k2 p2, vec01NsBry k args fn = (k1, .ok p1) ∧ vec01NsBry k (withPad args pad') fn' = (k2, .ok p2) ∧ Same1 k1 k2 := by
  have hk : (withPad args pad').pad.kind = args.pad.kind := h.kind
  have hn : (withPad args pad').pad.spaceNdim = args.pad.spaceNdim := h.ndim
  have hsp : SpaceOk (withPad args pad').pad := by unfold SpaceOk; rw [hn]; exact hd
  have hN := fun ξ => normal_total hgeo hd ξ
  have hN' : ∀ ξ, ∃ q, pad'.calcNormalVector args.pad.spaceNdim ξ = .ok (nrmMag args.pad ξ, (nrmOut pad'.spaceNdim (pad'.fillJacobian ξ).jacobian).2, q) := by
    intro ξ
    obtain ⟨q, hq⟩ := normal_total (pad := pad') (by rw [h.kind, h.ndim]; exact hgeo) hsp ξ
    rw [h.ndim] at hq
    obtain ⟨q0, hq0⟩ := hN ξ
    obtain ⟨un', q', hq', _⟩ := normal_moved h hd _ ξ hq0
    rw [hq'] at hq
    simp only [Res.ok.injEq, Prod.mk.injEq] at hq
    rw [h.ndim]
    exact ⟨q', by rw [hq', hq.2.1]⟩
  obtain ⟨k1, p1, e1, b1⟩ := C37_vec_01_ns_bry k args fn s (nrmMag args.pad) (fun p => (nrmOut args.pad.spaceNdim (args.pad.fillJacobian (args.gauss.coords p)).jacobian).2) hgeo hsize
    (fun p _ => hN _) (fun p hp => by obtain ⟨q, hq⟩ := hN (args.gauss.coords p); exact hs p hp _ _ _ hq)
  obtain ⟨k2, p2, e2, b2⟩ := C37_vec_01_ns_bry k (withPad args pad') fn' s (nrmMag args.pad) (fun p => (nrmOut pad'.spaceNdim (pad'.fillJacobian (args.gauss.coords p)).jacobian).2)
    (by rw [hk, hn]; exact hgeo) (by rw [hk]; exact hsize) (fun p _ => by rw [hn]; exact hN' _) (fun p hp => by obtain ⟨q, hq⟩ := hN' (args.gauss.coords p); exact hs' p hp _ _ _ hq)
  simp only [shapeN_moved h, hk, hn] at b2
  exact ⟨k1, p1, k2, p2, e1, e2, same1 b1 b2 fun m _ => quad_moved hax (fun _ _ => rfl) (fun _ _ => rfl)⟩

/-- **C94, `vec_02_nv_bry`** with the vectors `v` and `Q v`. -/
theorem C94_vec_02_nv_bry (h : Moved Q c args.pad pad') (hd : SpaceOk args.pad) (hax : args.axisymmetric = false) (hgeo : args.pad.kind.ndim + 1 = args.pad.spaceNdim) (k : Vec)
    (fn fn' : Nat → (Nat → ℝ) → (Nat → ℝ) → Res (Nat → ℝ)) (v v' : Nat → Nat → ℝ)
    (hv : ∀ p < args.gauss.npoint, ∀ i < args.pad.spaceNdim, v' p i = rotV args.pad.spaceNdim Q (v p) i)
    (hsize : args.ii0 + args.pad.kind.nnode * args.pad.spaceNdim ≤ k.dim)
    (hs : ∀ p < args.gauss.npoint, ∀ mag un q, args.pad.calcNormalVector args.pad.spaceNdim (args.gauss.coords p) = .ok (mag, un, q) → fn p un (shapeN args p) = .ok (v p))
    (hs' : ∀ p < args.gauss.npoint, ∀ mag un q, pad'.calcNormalVector args.pad.spaceNdim (args.gauss.coords p) = .ok (mag, un, q) → fn' p un (shapeN (withPad args pad') p) = .ok (v' p)) :
    ∃ k1 p1 k2 p2, vec02NvBry k args fn = (k1, .ok p1) ∧ vec02NvBry k (withPad args pad') fn' = (k2, .ok p2) ∧ Rot1 args args.pad.spaceNdim args.pad.kind.nnode Q k k1 k2 := by
  have hk : (withPad args pad').pad.kind = args.pad.kind := h.kind
  have hn : (withPad args pad').pad.spaceNdim = args.pad.spaceNdim := h.ndim
  have hsp : SpaceOk (withPad args pad').pad := by unfold SpaceOk; rw [hn]; exact hd
  have hN := fun ξ => normal_total hgeo hd ξ
  have hN' : ∀ ξ, ∃ q, pad'.calcNormalVector args.pad.spaceNdim ξ = .ok (nrmMag args.pad ξ, (nrmOut pad'.spaceNdim (pad'.fillJacobian ξ).jacobian).2, q) := by
    intro ξ
    obtain ⟨q, hq⟩ := normal_total (pad := pad') (by rw [h.kind, h.ndim]; exact hgeo) hsp ξ
    rw [h.ndim] at hq
    obtain ⟨q0, hq0⟩ := hN ξ
    obtain ⟨un', q', hq', _⟩ := normal_moved h hd _ ξ hq0
    rw [hq'] at hq
    simp only [Res.ok.injEq, Prod.mk.injEq] at hq
    rw [h.ndim]
    exact ⟨q', by rw [hq', hq.2.1]⟩
  obtain ⟨k1, p1, e1, b1⟩ := C37_vec_02_nv_bry k args hd fn v (nrmMag args.pad) (fun p => (nrmOut args.pad.spaceNdim (args.pad.fillJacobian (args.gauss.coords p)).jacobian).2) hgeo hsize
    (fun p _ => hN _) (fun p hp => by obtain ⟨q, hq⟩ := hN (args.gauss.coords p); exact hs p hp _ _ _ hq)
  obtain ⟨k2, p2, e2, b2⟩ := C37_vec_02_nv_bry k (withPad args pad') hsp fn' v' (nrmMag args.pad) (fun p => (nrmOut pad'.spaceNdim (pad'.fillJacobian (args.gauss.coords p)).jacobian).2)
    (by rw [hk, hn]; exact hgeo) (by rw [hk, hn]; exact hsize) (fun p _ => by rw [hn]; exact hN' _) (fun p hp => by obtain ⟨q, hq⟩ := hN' (args.gauss.coords p); exact hs' p hp _ _ _ hq)
  simp only [shapeN_moved h, hk, hn] at b2
  refine ⟨k1, p1, k2, p2, e1, e2, rot1 b1 b2 fun m hm i hi => ?_⟩
  rw [quad_rotV]
  refine quad_moved hax (fun _ _ => rfl) (fun p hp => ?_)
  rw [digit_div hi, digit_mod hi, hv p hp i hi]
  unfold rotV
  rw [Finset.mul_sum]
  exact Finset.sum_congr rfl fun j hj => by beta_reduce; rw [digit_div (Finset.mem_range.1 hj), digit_mod (Finset.mem_range.1 hj)]; ring

/-- **C94, `mat_01_nsn_bry`.** -/
theorem C94_mat_01_nsn_bry (h : Moved Q c args.pad pad') (hd : SpaceOk args.pad) (hax : args.axisymmetric = false) (hgeo : args.pad.kind.ndim + 1 = args.pad.spaceNdim) (k : Mat)
    (fn fn' : Nat → (Nat → ℝ) → (Nat → ℝ) → Res ℝ) (s : Nat → ℝ)
    (hr : args.ii0 + args.pad.kind.nnode ≤ k.nrow) (hc : args.jj0 + args.pad.kind.nnode ≤ k.ncol)
    (hs : ∀ p < args.gauss.npoint, ∀ mag un q, args.pad.calcNormalVector args.pad.spaceNdim (args.gauss.coords p) = .ok (mag, un, q) → fn p un (shapeN args p) = .ok (s p))
    (hs' : ∀ p < args.gauss.npoint, ∀ mag un q, pad'.calcNormalVector args.pad.spaceNdim (args.gauss.coords p) = .ok (mag, un, q) → fn' p un (shapeN (withPad args pad') p) = .ok (s p)) :
    ∃ k1 p1 k2 p2, mat01NsnBry k args fn = (k1, .ok p1) ∧ mat01NsnBry k (withPad args pad') fn' = (k2, .ok p2) ∧ Same2 k1 k2 := by
  have hk : (withPad args pad').pad.kind = args.pad.kind := h.kind
  have hn : (withPad args pad').pad.spaceNdim = args.pad.spaceNdim := h.ndim
  have hsp : SpaceOk (withPad args pad').pad := by unfold SpaceOk; rw [hn]; exact hd
  have hN := fun ξ => normal_total hgeo hd ξ
  have hN' : ∀ ξ, ∃ q, pad'.calcNormalVector args.pad.spaceNdim ξ = .ok (nrmMag args.pad ξ, (nrmOut pad'.spaceNdim (pad'.fillJacobian ξ).jacobian).2, q) := by
    intro ξ
    obtain ⟨q, hq⟩ := normal_total (pad := pad') (by rw [h.kind, h.ndim]; exact hgeo) hsp ξ
    rw [h.ndim] at hq
    obtain ⟨q0, hq0⟩ := hN ξ
    obtain ⟨un', q', hq', _⟩ := normal_moved h hd _ ξ hq0
    rw [hq'] at hq
    simp only [Res.ok.injEq, Prod.mk.injEq] at hq
    rw [h.ndim]
    exact ⟨q', by rw [hq', hq.2.1]⟩
  obtain ⟨k1, p1, e1, b1⟩ := C37_mat_01_nsn_bry k args fn s (nrmMag args.pad) (fun p => (nrmOut args.pad.spaceNdim (args.pad.fillJacobian (args.gauss.coords p)).jacobian).2) hgeo hr hc
    (fun p _ => hN _) (fun p hp => by obtain ⟨q, hq⟩ := hN (args.gauss.coords p); exact hs p hp _ _ _ hq)
  obtain ⟨k2, p2, e2, b2⟩ := C37_mat_01_nsn_bry k (withPad args pad') fn' s (nrmMag args.pad) (fun p => (nrmOut pad'.spaceNdim (pad'.fillJacobian (args.gauss.coords p)).jacobian).2)
    (by rw [hk, hn]; exact hgeo) (by rw [hk]; exact hr) (by rw [hk]; exact hc) (fun p _ => by rw [hn]; exact hN' _) (fun p hp => by obtain ⟨q, hq⟩ := hN' (args.gauss.coords p); exact hs' p hp _ _ _ hq)
  simp only [shapeN_moved h, hk, hn] at b2
  exact ⟨k1, p1, k2, p2, e1, e2, same2 b1 b2 fun m _ n _ => quad_moved hax (fun _ _ => rfl) (fun _ _ => rfl)⟩

/-- With an exact inverse, the moved element can be integrated if the first one can. -/
theorem C94_regular (h : Moved Q c pad pad') (hok : pad'.okXxt = true) {ξ : Nat → ℝ} (hr : ∃ r, pad.calcGradient exactInverse ξ = .ok r) :
    ∃ r, pad'.calcGradient exactInverse ξ = .ok r := by
  have hk := gradReg_ndim hr
  obtain ⟨⟨d, p⟩, hr⟩ := hr
  obtain ⟨h1, h2, hJ, _⟩ := gradient_facts exactInverse_spec hr
  have h3 : detJ pad' ξ ≠ 0 := by
    rw [detJ_moved h hk]
    have : detJ pad ξ = detN pad.spaceNdim p.jacobian := by unfold detJ; congr 1; funext i j; exact (hJ i j).symm
    rw [this, ← h1]
    exact h2
  have hk' : pad'.kind.ndim = pad'.spaceNdim := by rw [h.kind, h.ndim]; exact hk
  unfold calcGradient calcJacobian
  rw [if_neg (not_not.2 hk'), if_neg (by simp [hok])]
  dsimp only
  have e : exactInverse (pad'.fillJacobian ξ).spaceNdim (pad'.fillJacobian ξ).jacobian = .ok (_, _) := if_neg h3
  rw [if_pos (show (pad'.fillJacobian ξ).kind.ndim = (pad'.fillJacobian ξ).spaceNdim from hk'), e]
  exact ⟨_, rfl⟩

/-- The rotation by 90 degrees in the plane. -/
def quarterTurn (i j : Nat) : ℝ := if i = 0 ∧ j = 1 then -1 else if i = 1 ∧ j = 0 then 1 else 0

theorem quarterTurn_rotation : IsRotation 2 quarterTurn where
  orth := by
    intro i hi j hj
    have h1 : i = 0 ∨ i = 1 := by omega
    have h2 : j = 0 ∨ j = 1 := by omega
    rcases h1 with rfl | rfl <;> rcases h2 with rfl | rfl <;> simp [Finset.sum_range_succ, quarterTurn]
  det := by
    unfold detN
    rw [Matrix.det_fin_two]
    simp [quarterTurn]

/-- The pad of an element after the quarter turn and the translation by `(2, 3)`. -/
def turned (pad : Scratchpad) : Scratchpad :=
  { pad with xxt := fun i m => rotV 2 quarterTurn (pad.X m) i + if i = 0 then 2 else 3 }

/-- **C94, an example.** For every kind of plane element, the reference element and any integration points: the conductivity matrices of the element with the
conductivities 1, 2 along the axes and of the turned element with the conductivities 2, 1 are the same. -/
theorem C94_example (k : GeoKind) (h2 : k.ndim = 2) (g : Gauss) :
    let K := fun (pad : Scratchpad) (t : Nat → ℝ) => mat03Btb exactInverse ⟨k.nnode, k.nnode, fun _ => 0⟩ (CommonArgs.new pad g) (fun _ _ _ => .ok t)
    Moved quarterTurn (fun i => if i = 0 then 2 else 3) (referencePad k) (turned (referencePad k)) ∧
    ∃ k1 p1 k2 p2, K (referencePad k) (fun i => if i = 0 then 1 else if i = 1 then 2 else 0) = (k1, .ok p1) ∧
      K (turned (referencePad k)) (fun i => if i = 0 then 2 else if i = 1 then 1 else 0) = (k2, .ok p2) ∧ Same2 k1 k2 := by
  intro K
  have hm : Moved quarterTurn (fun i => if i = 0 then 2 else 3) (referencePad k) (turned (referencePad k)) := by
    refine ⟨rfl, rfl, le_rfl, ?_, ?_⟩
    · change IsRotation k.ndim quarterTurn
      rw [h2]; exact quarterTurn_rotation
    · intro m _ i _
      change _ = rotV k.ndim quarterTurn _ i + _
      rw [h2]; rfl
  refine ⟨hm, ?_⟩
  have hr : ∀ p, ∃ r, (referencePad k).calcGradient exactInverse (g.coords p) = .ok r := fun p => by
    obtain ⟨⟨d, q, hq⟩, _⟩ := exists_gradient k (g.coords p) (fun _ => 0)
    exact ⟨_, hq⟩
  choose r hr using hr
  exact C94_mat_03_btb (args := CommonArgs.new (referencePad k) g) exactInverse_spec hm (Or.inl h2) rfl _ _ _
    (fun _ i => if i = 0 then 1 else if i = 1 then 2 else 0) (fun _ i => if i = 0 then 2 else if i = 1 then 1 else 0) (fun p => (r p).2.gradient)
    (fun p _ i hi j hj => by
      change i < k.ndim at hi
      change j < k.ndim at hj
      change _ = rotT k.ndim quarterTurn _ i j
      rw [h2] at hi hj ⊢
      have h1 : i = 0 ∨ i = 1 := by omega
      have h2 : j = 0 ∨ j = 1 := by omega
      rcases h1 with rfl | rfl <;> rcases h2 with rfl | rfl <;> simp [Finset.sum_range_succ, quarterTurn, rotT, tensor2])
    (by simp [CommonArgs.new, referencePad]) (by simp [CommonArgs.new, referencePad])
    (fun p _ => ⟨⟨_, hr p⟩, gradient_exists exactInverse_spec (d := (r p).1) (hr p)⟩)
    (fun p _ => C94_regular hm rfl ⟨_, hr p⟩) (fun p _ bb _ => rfl) (fun p _ bb _ => rfl)

end
end Gemlab.Props.Integ
