import Verif.Props.Renumber

/-!
# C99, continued: matrices of vector fields and boundary integrals
-/
set_option linter.unusedVariables false
namespace Gemlab.Props.Integ
open Gemlab Gemlab.Integ Gemlab.Spec.Integ Gemlab.Scratchpad Gemlab.Spec.Renumber Gemlab.Renumber
noncomputable section

variable {A : RefMap} {σ σB π : Nat → Nat} {pad pad' padB padB' : Scratchpad} {inv : MatInverse} {args : CommonArgs}

/-- **C99, `mat_06_nvn`.** -/
theorem C99_mat_06_nvn (hinv : InverseSpec inv) (h : MovesNodes args.pad.kind A σ) (hren : Renumbered σ args.pad pad') (hpts : MovesPoints args.pad.kind.ndim args.gauss A π) (hd : SpaceOk args.pad)
    (hB : MovesNodes padB.kind A σB) (hpB : MovesPoints padB.kind.ndim args.gauss A π) (hkB : padB'.kind = padB.kind) (k : Mat)
    (fn fn' : Nat → (Nat → ℝ) → (Nat → Nat → ℝ) → (Nat → ℝ) → Res (Nat → ℝ)) (s : Nat → Nat → ℝ) (B : Nat → Nat → Nat → ℝ)
    (hr : args.ii0 + args.pad.kind.nnode * args.pad.spaceNdim ≤ k.nrow) (hc : args.jj0 + padB.kind.nnode ≤ k.ncol) (hreg : GradRegular inv args.pad args.gauss B)
    (hreg' : ∀ p < args.gauss.npoint, ∃ r, pad'.calcGradient inv (args.gauss.coords p) = .ok r)
    (hs : ∀ p < args.gauss.npoint, ∀ bb, Holds args.pad (B p) bb → fn p (shapeN args p) bb (shapeB args padB p) = .ok (s p))
    (hs' : ∀ p < args.gauss.npoint, ∀ bb, Holds pad' (turnB σ π B p) bb → fn' p (shapeN (withPad args pad') p) bb (shapeB args padB' p) = .ok (s (π p))) :
    ∃ k1 p1 k2 p2, mat06Nvn inv k args padB fn = (k1, .ok p1) ∧ mat06Nvn inv k (withPad args pad') padB' fn' = (k2, .ok p2) ∧
      Renum2 args (args.pad.kind.nnode * args.pad.spaceNdim) (padB.kind.nnode) (rowOf args.pad.spaceNdim σ) σB k k1 k2 := by
  have hk : (withPad args pad').pad.kind = args.pad.kind := hren.kind
  have hn : (withPad args pad').pad.spaceNdim = args.pad.spaceNdim := hren.ndim
  have hsp : SpaceOk (withPad args pad').pad := by unfold SpaceOk; rw [hn]; exact hd
  have hpos : 0 < args.pad.spaceNdim := by rcases hd with hd | hd <;> omega
  obtain ⟨k1, p1, e1, b1⟩ := C37_mat_06_nvn hinv k args padB hd fn s B hr hc hreg hs
  obtain ⟨k2, p2, e2, b2⟩ := C37_mat_06_nvn hinv k (withPad args pad') padB' hsp fn' (fun p => s (π p)) (turnB σ π B) (by rw [hk, hn]; exact hr) (by rw [hkB]; exact hc) (gradRegular_turn h hren hpts hreg hreg') hs'
  simp only [hk, hn, hkB, show (withPad args pad').gauss = args.gauss from rfl] at b2
  refine ⟨k1, p1, k2, p2, e1, e2, renum2 b1 b2 (fun r hr => rowOf_lt hpos h.lt hr) hB.lt fun m hm n hn0 => ?_⟩
  refine quad_point h hren hpts hd (fun p hp => detJ_point h hren hpts hd (gradReg_ndim (hreg p hp).1) hp) fun p hp => ?_
  simp only [rowOf_div hpos, rowOf_mod hpos, shape_point h hren hpts hp (div_lt' hm), shapeB_point hB hpB hp hn0, turnB]

/-- **C99, `mat_07_bsn`.** -/
theorem C99_mat_07_bsn (hinv : InverseSpec inv) (h : MovesNodes args.pad.kind A σ) (hren : Renumbered σ args.pad pad') (hpts : MovesPoints args.pad.kind.ndim args.gauss A π) (hd : SpaceOk args.pad)
    (hB : MovesNodes padB.kind A σB) (hpB : MovesPoints padB.kind.ndim args.gauss A π) (hkB : padB'.kind = padB.kind) (k : Mat)
    (fn fn' : Nat → (Nat → ℝ) → (Nat → Nat → ℝ) → (Nat → ℝ) → Res ℝ) (s : Nat → ℝ) (B : Nat → Nat → Nat → ℝ)
    (hr : args.ii0 + args.pad.kind.nnode * args.pad.spaceNdim ≤ k.nrow) (hc : args.jj0 + padB.kind.nnode ≤ k.ncol) (hreg : GradRegular inv args.pad args.gauss B)
    (hreg' : ∀ p < args.gauss.npoint, ∃ r, pad'.calcGradient inv (args.gauss.coords p) = .ok r)
    (hs : ∀ p < args.gauss.npoint, ∀ bb, Holds args.pad (B p) bb → fn p (shapeN args p) bb (shapeB args padB p) = .ok (s p))
    (hs' : ∀ p < args.gauss.npoint, ∀ bb, Holds pad' (turnB σ π B p) bb → fn' p (shapeN (withPad args pad') p) bb (shapeB args padB' p) = .ok (s (π p))) :
    ∃ k1 p1 k2 p2, mat07Bsn inv k args padB fn = (k1, .ok p1) ∧ mat07Bsn inv k (withPad args pad') padB' fn' = (k2, .ok p2) ∧
      Renum2 args (args.pad.kind.nnode * args.pad.spaceNdim) (padB.kind.nnode) (rowOf args.pad.spaceNdim σ) σB k k1 k2 := by
  have hk : (withPad args pad').pad.kind = args.pad.kind := hren.kind
  have hn : (withPad args pad').pad.spaceNdim = args.pad.spaceNdim := hren.ndim
  have hsp : SpaceOk (withPad args pad').pad := by unfold SpaceOk; rw [hn]; exact hd
  have hpos : 0 < args.pad.spaceNdim := by rcases hd with hd | hd <;> omega
  obtain ⟨k1, p1, e1, b1⟩ := C37_mat_07_bsn hinv k args padB hd fn s B hr hc hreg hs
  obtain ⟨k2, p2, e2, b2⟩ := C37_mat_07_bsn hinv k (withPad args pad') padB' hsp fn' (fun p => s (π p)) (turnB σ π B) (by rw [hk, hn]; exact hr) (by rw [hkB]; exact hc) (gradRegular_turn h hren hpts hreg hreg') hs'
  simp only [hk, hn, hkB, show (withPad args pad').gauss = args.gauss from rfl] at b2
  refine ⟨k1, p1, k2, p2, e1, e2, renum2 b1 b2 (fun r hr => rowOf_lt hpos h.lt hr) hB.lt fun m hm n hn0 => ?_⟩
  refine quad_point h hren hpts hd (fun p hp => detJ_point h hren hpts hd (gradReg_ndim (hreg p hp).1) hp) fun p hp => ?_
  simp only [rowOf_div hpos, rowOf_mod hpos, shape_point h hren hpts hp (div_lt' hm), shapeB_point hB hpB hp hn0, turnB]

/-- **C99, `mat_08_ntn`.** -/
theorem C99_mat_08_ntn (hinv : InverseSpec inv) (h : MovesNodes args.pad.kind A σ) (hren : Renumbered σ args.pad pad') (hpts : MovesPoints args.pad.kind.ndim args.gauss A π) (hd : SpaceOk args.pad) (k : Mat)
    (fn fn' : Nat → (Nat → ℝ) → (Nat → Nat → ℝ) → Res (Nat → ℝ)) (s : Nat → Nat → ℝ) (B : Nat → Nat → Nat → ℝ)
    (hr : args.ii0 + args.pad.kind.nnode * args.pad.spaceNdim ≤ k.nrow) (hc : args.jj0 + args.pad.kind.nnode * args.pad.spaceNdim ≤ k.ncol) (hreg : GradRegular inv args.pad args.gauss B)
    (hreg' : ∀ p < args.gauss.npoint, ∃ r, pad'.calcGradient inv (args.gauss.coords p) = .ok r)
    (hs : Returns args B fn s) (hs' : Returns (withPad args pad') (turnB σ π B) fn' (fun p => s (π p))) :
    ∃ k1 p1 k2 p2, mat08Ntn inv k args fn = (k1, .ok p1) ∧ mat08Ntn inv k (withPad args pad') fn' = (k2, .ok p2) ∧
      Renum2 args (args.pad.kind.nnode * args.pad.spaceNdim) (args.pad.kind.nnode * args.pad.spaceNdim) (rowOf args.pad.spaceNdim σ) (rowOf args.pad.spaceNdim σ) k k1 k2 := by
  have hk : (withPad args pad').pad.kind = args.pad.kind := hren.kind
  have hn : (withPad args pad').pad.spaceNdim = args.pad.spaceNdim := hren.ndim
  have hsp : SpaceOk (withPad args pad').pad := by unfold SpaceOk; rw [hn]; exact hd
  have hpos : 0 < args.pad.spaceNdim := by rcases hd with hd | hd <;> omega
  obtain ⟨k1, p1, e1, b1⟩ := C37_mat_08_ntn hinv k args hd fn s B hr hc hreg hs
  obtain ⟨k2, p2, e2, b2⟩ := C37_mat_08_ntn hinv k (withPad args pad') hsp fn' (fun p => s (π p)) (turnB σ π B) (by rw [hk, hn]; exact hr) (by rw [hk, hn]; exact hc) (gradRegular_turn h hren hpts hreg hreg') hs'
  simp only [hk, hn] at b2
  refine ⟨k1, p1, k2, p2, e1, e2, renum2 b1 b2 (fun r hr => rowOf_lt hpos h.lt hr) (fun r hr => rowOf_lt hpos h.lt hr) fun m hm n hn0 => ?_⟩
  refine quad_point h hren hpts hd (fun p hp => detJ_point h hren hpts hd (gradReg_ndim (hreg p hp).1) hp) fun p hp => ?_
  simp only [rowOf_div hpos, rowOf_mod hpos, shape_point h hren hpts hp (div_lt' hm), shape_point h hren hpts hp (div_lt' hn0), turnB]

/-- **C99, `mat_09_nvb`.** -/
theorem C99_mat_09_nvb (hinv : InverseSpec inv) (h : MovesNodes args.pad.kind A σ) (hren : Renumbered σ args.pad pad') (hpts : MovesPoints args.pad.kind.ndim args.gauss A π) (hd : SpaceOk args.pad) (k : Mat)
    (fn fn' : Nat → (Nat → ℝ) → (Nat → Nat → ℝ) → Res (Nat → ℝ)) (s : Nat → Nat → ℝ) (B : Nat → Nat → Nat → ℝ)
    (hr : args.ii0 + args.pad.kind.nnode * args.pad.spaceNdim ≤ k.nrow) (hc : args.jj0 + args.pad.kind.nnode * args.pad.spaceNdim ≤ k.ncol) (hreg : GradRegular inv args.pad args.gauss B)
    (hreg' : ∀ p < args.gauss.npoint, ∃ r, pad'.calcGradient inv (args.gauss.coords p) = .ok r)
    (hs : Returns args B fn s) (hs' : Returns (withPad args pad') (turnB σ π B) fn' (fun p => s (π p))) :
    ∃ k1 p1 k2 p2, mat09Nvb inv k args fn = (k1, .ok p1) ∧ mat09Nvb inv k (withPad args pad') fn' = (k2, .ok p2) ∧
      Renum2 args (args.pad.kind.nnode * args.pad.spaceNdim) (args.pad.kind.nnode * args.pad.spaceNdim) (rowOf args.pad.spaceNdim σ) (rowOf args.pad.spaceNdim σ) k k1 k2 := by
  have hk : (withPad args pad').pad.kind = args.pad.kind := hren.kind
  have hn : (withPad args pad').pad.spaceNdim = args.pad.spaceNdim := hren.ndim
  have hsp : SpaceOk (withPad args pad').pad := by unfold SpaceOk; rw [hn]; exact hd
  have hpos : 0 < args.pad.spaceNdim := by rcases hd with hd | hd <;> omega
  obtain ⟨k1, p1, e1, b1⟩ := C37_mat_09_nvb hinv k args hd fn s B hr hc hreg hs
  obtain ⟨k2, p2, e2, b2⟩ := C37_mat_09_nvb hinv k (withPad args pad') hsp fn' (fun p => s (π p)) (turnB σ π B) (by rw [hk, hn]; exact hr) (by rw [hk, hn]; exact hc) (gradRegular_turn h hren hpts hreg hreg') hs'
  simp only [hk, hn] at b2
  refine ⟨k1, p1, k2, p2, e1, e2, renum2 b1 b2 (fun r hr => rowOf_lt hpos h.lt hr) (fun r hr => rowOf_lt hpos h.lt hr) fun m hm n hn0 => ?_⟩
  refine quad_point h hren hpts hd (fun p hp => detJ_point h hren hpts hd (gradReg_ndim (hreg p hp).1) hp) fun p hp => ?_
  simp only [rowOf_div hpos, rowOf_mod hpos, shape_point h hren hpts hp (div_lt' hm), shape_point h hren hpts hp (div_lt' hn0), turnB]

/-- **C99, `mat_10_bdb`.** -/
theorem C99_mat_10_bdb (hinv : InverseSpec inv) (h : MovesNodes args.pad.kind A σ) (hren : Renumbered σ args.pad pad') (hpts : MovesPoints args.pad.kind.ndim args.gauss A π) (hd : SpaceOk args.pad)
    (haxi : args.axisymmetric = true → args.pad.spaceNdim = 2 ∧ ∀ p < args.gauss.npoint, radiusAt args p ≠ 0) (k : Mat)
    (fn fn' : Nat → (Nat → ℝ) → (Nat → Nat → ℝ) → Res (Nat → Nat → ℝ)) (s : Nat → Nat → Nat → ℝ) (B : Nat → Nat → Nat → ℝ)
    (hr : args.ii0 + args.pad.kind.nnode * args.pad.spaceNdim ≤ k.nrow) (hc : args.jj0 + args.pad.kind.nnode * args.pad.spaceNdim ≤ k.ncol) (hreg : GradRegular inv args.pad args.gauss B)
    (hreg' : ∀ p < args.gauss.npoint, ∃ r, pad'.calcGradient inv (args.gauss.coords p) = .ok r)
    (hs : Returns args B fn s) (hs' : Returns (withPad args pad') (turnB σ π B) fn' (fun p => s (π p))) :
    ∃ k1 p1 k2 p2, mat10Bdb inv k args fn = (k1, .ok p1) ∧ mat10Bdb inv k (withPad args pad') fn' = (k2, .ok p2) ∧
      Renum2 args (args.pad.kind.nnode * args.pad.spaceNdim) (args.pad.kind.nnode * args.pad.spaceNdim) (rowOf args.pad.spaceNdim σ) (rowOf args.pad.spaceNdim σ) k k1 k2 := by
  have hk : (withPad args pad').pad.kind = args.pad.kind := hren.kind
  have hn : (withPad args pad').pad.spaceNdim = args.pad.spaceNdim := hren.ndim
  have hsp : SpaceOk (withPad args pad').pad := by unfold SpaceOk; rw [hn]; exact hd
  have hpos : 0 < args.pad.spaceNdim := by rcases hd with hd | hd <;> omega
  have haxi' : (withPad args pad').axisymmetric = true → (withPad args pad').pad.spaceNdim = 2 ∧ ∀ p < (withPad args pad').gauss.npoint, radiusAt (withPad args pad') p ≠ 0 := by
    intro ha
    obtain ⟨h1, h2⟩ := haxi ha
    exact ⟨by rw [hn]; exact h1, fun p hp => by rw [radius_point h hren hpts hd hp]; exact h2 _ (hpts.lt p hp)⟩
  obtain ⟨k1, p1, e1, b1⟩ := C37_mat_10_bdb hinv k args hd haxi fn s B hr hc hreg hs
  obtain ⟨k2, p2, e2, b2⟩ := C37_mat_10_bdb hinv k (withPad args pad') hsp haxi' fn' (fun p => s (π p)) (turnB σ π B) (by rw [hk, hn]; exact hr) (by rw [hk, hn]; exact hc) (gradRegular_turn h hren hpts hreg hreg') hs'
  simp only [hk, hn] at b2
  refine ⟨k1, p1, k2, p2, e1, e2, renum2 b1 b2 (fun r hr => rowOf_lt hpos h.lt hr) (fun r hr => rowOf_lt hpos h.lt hr) fun m hm n hn0 => ?_⟩
  refine quad_point h hren hpts hd (fun p hp => detJ_point h hren hpts hd (gradReg_ndim (hreg p hp).1) hp) fun p hp => ?_
  simp only [rowOf_div hpos, rowOf_mod hpos, strain_point h hren hpts hd B hp (div_lt' hm), strain_point h hren hpts hd B hp (div_lt' hn0), stiffness]

/-- **C99, `vec_01_ns_bry`.** -/
theorem C99_vec_01_ns_bry (h : MovesNodes args.pad.kind A σ) (hren : Renumbered σ args.pad pad') (hpts : MovesPoints args.pad.kind.ndim args.gauss A π) (hd : SpaceOk args.pad) (hgeo : args.pad.kind.ndim + 1 = args.pad.spaceNdim) (k : Vec)
    (fn fn' : Nat → (Nat → ℝ) → (Nat → ℝ) → Res ℝ) (s : Nat → ℝ)
    (hsize : args.ii0 + args.pad.kind.nnode ≤ k.dim)
    (hs : ∀ p < args.gauss.npoint, ∀ mag un q, args.pad.calcNormalVector args.pad.spaceNdim (args.gauss.coords p) = .ok (mag, un, q) → fn p un (shapeN args p) = .ok (s p))
    (hs' : ∀ p < args.gauss.npoint, ∀ mag un q, pad'.calcNormalVector args.pad.spaceNdim (args.gauss.coords p) = .ok (mag, un, q) → fn' p un (shapeN (withPad args pad') p) = .ok (s (π p))) :
    ∃ k1 p1 k2 p2, vec01NsBry k args fn = (k1, .ok p1) ∧ vec01NsBry k (withPad args pad') fn' = (k2, .ok p2) ∧
      Renum1 args (args.pad.kind.nnode) σ k k1 k2 := by
  have hk : (withPad args pad').pad.kind = args.pad.kind := hren.kind
  have hn : (withPad args pad').pad.spaceNdim = args.pad.spaceNdim := hren.ndim
  have hsp : SpaceOk (withPad args pad').pad := by unfold SpaceOk; rw [hn]; exact hd
  have hpos : 0 < args.pad.spaceNdim := by rcases hd with hd | hd <;> omega
  have hN := fun ξ => normal_total hgeo hd ξ
  have hN' := fun ξ => normal_total (pad := pad') (by rw [hren.kind, hren.ndim]; exact hgeo) hsp ξ
  obtain ⟨k1, p1, e1, b1⟩ := C37_vec_01_ns_bry k args fn s (nrmMag args.pad) (fun p => (nrmOut args.pad.spaceNdim (args.pad.fillJacobian (args.gauss.coords p)).jacobian).2) hgeo hsize
    (fun p _ => hN _) (fun p hp => by obtain ⟨q, hq⟩ := hN (args.gauss.coords p); exact hs p hp _ _ _ hq)
  obtain ⟨k2, p2, e2, b2⟩ := C37_vec_01_ns_bry k (withPad args pad') fn' (fun p => s (π p)) (nrmMag pad') (fun p => (nrmOut pad'.spaceNdim (pad'.fillJacobian (args.gauss.coords p)).jacobian).2)
    (by rw [hk, hn]; exact hgeo) (by rw [hk]; exact hsize) (fun p _ => hN' _) (fun p hp => by obtain ⟨q, hq⟩ := hN' (args.gauss.coords p); rw [hren.ndim] at hq; exact hs' p hp _ _ _ (by rw [hren.ndim]; exact hq))
  simp only [hk, hn] at b2
  refine ⟨k1, p1, k2, p2, e1, e2, renum1 b1 b2 h.lt fun m hm => ?_⟩
  refine quad_point h hren hpts hd (fun p hp => nrmMag_point h hren hpts hd hgeo hp) fun p hp => ?_
  simp only [rowOf_div hpos, rowOf_mod hpos, shape_point h hren hpts hp hm, turnB]

/-- **C99, `vec_02_nv_bry`.** -/
theorem C99_vec_02_nv_bry (h : MovesNodes args.pad.kind A σ) (hren : Renumbered σ args.pad pad') (hpts : MovesPoints args.pad.kind.ndim args.gauss A π) (hd : SpaceOk args.pad) (hgeo : args.pad.kind.ndim + 1 = args.pad.spaceNdim) (k : Vec)
    (fn fn' : Nat → (Nat → ℝ) → (Nat → ℝ) → Res (Nat → ℝ)) (s : Nat → Nat → ℝ)
    (hsize : args.ii0 + args.pad.kind.nnode * args.pad.spaceNdim ≤ k.dim)
    (hs : ∀ p < args.gauss.npoint, ∀ mag un q, args.pad.calcNormalVector args.pad.spaceNdim (args.gauss.coords p) = .ok (mag, un, q) → fn p un (shapeN args p) = .ok (s p))
    (hs' : ∀ p < args.gauss.npoint, ∀ mag un q, pad'.calcNormalVector args.pad.spaceNdim (args.gauss.coords p) = .ok (mag, un, q) → fn' p un (shapeN (withPad args pad') p) = .ok (s (π p))) :
    ∃ k1 p1 k2 p2, vec02NvBry k args fn = (k1, .ok p1) ∧ vec02NvBry k (withPad args pad') fn' = (k2, .ok p2) ∧
      Renum1 args (args.pad.kind.nnode * args.pad.spaceNdim) (rowOf args.pad.spaceNdim σ) k k1 k2 := by
  have hk : (withPad args pad').pad.kind = args.pad.kind := hren.kind
  have hn : (withPad args pad').pad.spaceNdim = args.pad.spaceNdim := hren.ndim
  have hsp : SpaceOk (withPad args pad').pad := by unfold SpaceOk; rw [hn]; exact hd
  have hpos : 0 < args.pad.spaceNdim := by rcases hd with hd | hd <;> omega
  have hN := fun ξ => normal_total hgeo hd ξ
  have hN' := fun ξ => normal_total (pad := pad') (by rw [hren.kind, hren.ndim]; exact hgeo) hsp ξ
  obtain ⟨k1, p1, e1, b1⟩ := C37_vec_02_nv_bry k args hd fn s (nrmMag args.pad) (fun p => (nrmOut args.pad.spaceNdim (args.pad.fillJacobian (args.gauss.coords p)).jacobian).2) hgeo hsize
    (fun p _ => hN _) (fun p hp => by obtain ⟨q, hq⟩ := hN (args.gauss.coords p); exact hs p hp _ _ _ hq)
  obtain ⟨k2, p2, e2, b2⟩ := C37_vec_02_nv_bry k (withPad args pad') hsp fn' (fun p => s (π p)) (nrmMag pad') (fun p => (nrmOut pad'.spaceNdim (pad'.fillJacobian (args.gauss.coords p)).jacobian).2)
    (by rw [hk, hn]; exact hgeo) (by rw [hk, hn]; exact hsize) (fun p _ => hN' _) (fun p hp => by obtain ⟨q, hq⟩ := hN' (args.gauss.coords p); rw [hren.ndim] at hq; exact hs' p hp _ _ _ (by rw [hren.ndim]; exact hq))
  simp only [hk, hn] at b2
  refine ⟨k1, p1, k2, p2, e1, e2, renum1 b1 b2 (fun r hr => rowOf_lt hpos h.lt hr) fun m hm => ?_⟩
  refine quad_point h hren hpts hd (fun p hp => nrmMag_point h hren hpts hd hgeo hp) fun p hp => ?_
  simp only [rowOf_div hpos, rowOf_mod hpos, shape_point h hren hpts hp (div_lt' hm), turnB]

/-- **C99, `mat_01_nsn_bry`.** -/
theorem C99_mat_01_nsn_bry (h : MovesNodes args.pad.kind A σ) (hren : Renumbered σ args.pad pad') (hpts : MovesPoints args.pad.kind.ndim args.gauss A π) (hd : SpaceOk args.pad) (hgeo : args.pad.kind.ndim + 1 = args.pad.spaceNdim) (k : Mat)
    (fn fn' : Nat → (Nat → ℝ) → (Nat → ℝ) → Res ℝ) (s : Nat → ℝ)
    (hr : args.ii0 + args.pad.kind.nnode ≤ k.nrow) (hc : args.jj0 + args.pad.kind.nnode ≤ k.ncol)
    (hs : ∀ p < args.gauss.npoint, ∀ mag un q, args.pad.calcNormalVector args.pad.spaceNdim (args.gauss.coords p) = .ok (mag, un, q) → fn p un (shapeN args p) = .ok (s p))
    (hs' : ∀ p < args.gauss.npoint, ∀ mag un q, pad'.calcNormalVector args.pad.spaceNdim (args.gauss.coords p) = .ok (mag, un, q) → fn' p un (shapeN (withPad args pad') p) = .ok (s (π p))) :
    ∃ k1 p1 k2 p2, mat01NsnBry k args fn = (k1, .ok p1) ∧ mat01NsnBry k (withPad args pad') fn' = (k2, .ok p2) ∧
      Renum2 args (args.pad.kind.nnode) (args.pad.kind.nnode) σ σ k k1 k2 := by
  have hk : (withPad args pad').pad.kind = args.pad.kind := hren.kind
  have hn : (withPad args pad').pad.spaceNdim = args.pad.spaceNdim := hren.ndim
  have hsp : SpaceOk (withPad args pad').pad := by unfold SpaceOk; rw [hn]; exact hd
  have hpos : 0 < args.pad.spaceNdim := by rcases hd with hd | hd <;> omega
  have hN := fun ξ => normal_total hgeo hd ξ
  have hN' := fun ξ => normal_total (pad := pad') (by rw [hren.kind, hren.ndim]; exact hgeo) hsp ξ
  obtain ⟨k1, p1, e1, b1⟩ := C37_mat_01_nsn_bry k args fn s (nrmMag args.pad) (fun p => (nrmOut args.pad.spaceNdim (args.pad.fillJacobian (args.gauss.coords p)).jacobian).2) hgeo hr hc
    (fun p _ => hN _) (fun p hp => by obtain ⟨q, hq⟩ := hN (args.gauss.coords p); exact hs p hp _ _ _ hq)
  obtain ⟨k2, p2, e2, b2⟩ := C37_mat_01_nsn_bry k (withPad args pad') fn' (fun p => s (π p)) (nrmMag pad') (fun p => (nrmOut pad'.spaceNdim (pad'.fillJacobian (args.gauss.coords p)).jacobian).2)
    (by rw [hk, hn]; exact hgeo) (by rw [hk]; exact hr) (by rw [hk]; exact hc) (fun p _ => hN' _) (fun p hp => by obtain ⟨q, hq⟩ := hN' (args.gauss.coords p); rw [hren.ndim] at hq; exact hs' p hp _ _ _ (by rw [hren.ndim]; exact hq))
  simp only [hk, hn] at b2
  refine ⟨k1, p1, k2, p2, e1, e2, renum2 b1 b2 h.lt h.lt fun m hm n hn0 => ?_⟩
  refine quad_point h hren hpts hd (fun p hp => nrmMag_point h hren hpts hd hgeo hp) fun p hp => ?_
  simp only [rowOf_div hpos, rowOf_mod hpos, shape_point h hren hpts hp hm, shape_point h hren hpts hp hn0, turnB]

/-! ## Examples -/

/-- **C99, default tables.** The hypotheses on integration points hold with the default table of all kinds of elements except Tri6, Tri10, Tri15, Tet10 and Tet20. -/
theorem C99_default (k : GeoKind) (hk : k ≠ .tri6 ∧ k ≠ .tri10 ∧ k ≠ .tri15 ∧ k ≠ .tet10 ∧ k ≠ .tet20) {A : RefMap} (hA : A ∈ rotations k.classOf) :
    ∃ π, MovesPoints k.ndim (GaussTable.new k).toGauss A π := by
  have e : ∃ n, GaussTable.newSized k.classOf n = .ok (GaussTable.new k) ∧ ExactTable k.classOf n := by
    cases k
    case lin2 => exact ⟨2, rfl, trivial⟩
    case lin3 => exact ⟨3, rfl, trivial⟩
    case lin4 => exact ⟨4, rfl, trivial⟩
    case lin5 => exact ⟨5, rfl, trivial⟩
    case tri3 => exact ⟨3, rfl, Or.inr (Or.inl rfl)⟩
    case tri6 => exact absurd rfl hk.1
    case tri10 => exact absurd rfl hk.2.1
    case tri15 => exact absurd rfl hk.2.2.1
    case qua4 => exact ⟨4, rfl, trivial⟩
    case qua8 => exact ⟨9, rfl, trivial⟩
    case qua9 => exact ⟨9, rfl, trivial⟩
    case qua12 => exact ⟨16, rfl, trivial⟩
    case qua16 => exact ⟨16, rfl, trivial⟩
    case qua17 => exact ⟨16, rfl, trivial⟩
    case tet4 => exact ⟨4, rfl, Or.inr (Or.inl rfl)⟩
    case tet10 => exact absurd rfl hk.2.2.2.1
    case tet20 => exact absurd rfl hk.2.2.2.2
    case hex8 => exact ⟨8, rfl, trivial⟩
    case hex20 => exact ⟨27, rfl, trivial⟩
    case hex32 => exact ⟨64, rfl, trivial⟩
  obtain ⟨n, h1, h2⟩ := e
  exact points_exist k h1 h2 hA

/-- **C99, an example.** The stiffness matrix of any plane or solid element that can be integrated with an exactly symmetric table, for any constant
elasticity matrix: with the nodes listed from another corner, the entry of component `i` of node `m` and component `j` of node `n` is the one of
the nodes `σ m` and `σ n` of the first numbering. -/
theorem C99_example (pad : Scratchpad) (hd : SpaceOk pad) (hk : pad.kind.ndim = pad.spaceNdim) (hok : pad.okXxt = true) {npt : Nat} {t : GaussTable}
    (ht : GaussTable.newSized pad.kind.classOf npt = .ok t) (he : ExactTable pad.kind.classOf npt) {A : RefMap} (hA : A ∈ rotations pad.kind.classOf)
    (hreg : ∀ p < t.toGauss.npoint, ∃ r, pad.calcGradient exactInverse (t.toGauss.coords p) = .ok r) (D : Nat → Nat → ℝ) :
    let K := fun (pad : Scratchpad) => mat10Bdb exactInverse ⟨pad.kind.nnode * pad.spaceNdim, pad.kind.nnode * pad.spaceNdim, fun _ => 0⟩ (CommonArgs.new pad t.toGauss)
      (fun _ _ _ => .ok D)
    ∃ σ, MovesNodes pad.kind A σ ∧ ∃ k1 p1 k2 p2, K pad = (k1, .ok p1) ∧ K (renumber σ pad) = (k2, .ok p2) ∧
      ∀ m < pad.kind.nnode, ∀ i < pad.spaceNdim, ∀ n < pad.kind.nnode, ∀ j < pad.spaceNdim,
        k2.val (i + m * pad.spaceNdim, j + n * pad.spaceNdim) = k1.val (i + σ m * pad.spaceNdim, j + σ n * pad.spaceNdim) := by
  intro K
  obtain ⟨σ, h⟩ := nodes_exist pad.kind hA
  obtain ⟨π, hp⟩ := points_exist pad.kind ht he hA
  have hren := renumber_ok (pad := pad) σ hk.le
  refine ⟨σ, h, ?_⟩
  have hreg2 := C99_regular h hren hp hd hok hreg
  haveI : Nonempty (ℝ × Scratchpad) := ⟨(0, pad)⟩
  choose! r hr using hreg
  obtain ⟨k1, p1, k2, p2, e1, e2, b⟩ := C99_mat_10_bdb (args := CommonArgs.new pad t.toGauss) exactInverse_spec h hren hp hd (fun ha => absurd ha (by simp [CommonArgs.new]))
    ⟨pad.kind.nnode * pad.spaceNdim, pad.kind.nnode * pad.spaceNdim, fun _ => 0⟩ (fun _ _ _ => .ok D) (fun _ _ _ => .ok D) (fun _ => D) (fun p => (r p).2.gradient)
    (by simp [CommonArgs.new]) (by simp [CommonArgs.new])
    (fun p hp => ⟨⟨_, hr p hp⟩, gradient_exists exactInverse_spec (d := (r p).1) (hr p hp)⟩)
    hreg2 (fun p _ bb _ => rfl) (fun p _ bb _ => rfl)
  refine ⟨k1, p1, k2, p2, e1, e2, fun m hm i hi n hn j hj => ?_⟩
  have := b.2.2.2.2 (i + m * pad.spaceNdim) (digit_lt hm hi) (j + n * pad.spaceNdim) (digit_lt hn hj)
  unfold added2 at this
  simp only [ite_self, sub_zero] at this
  simp only [CommonArgs.new, Nat.zero_add] at this
  rw [this, rowOf_digit hi, rowOf_digit hj]

/-- The example is not empty: the reference element of every kind of plane or solid element meets its hypotheses, with every exactly symmetric table. -/
example (k : GeoKind) (hd : k.ndim = 2 ∨ k.ndim = 3) {npt : Nat} {t : GaussTable} (ht : GaussTable.newSized k.classOf npt = .ok t) (he : ExactTable k.classOf npt)
    {A : RefMap} (hA : A ∈ rotations k.classOf) (D : Nat → Nat → ℝ) := C99_example (referencePad k) hd rfl rfl ht he hA (fun p _ => by
    obtain ⟨⟨d, q, hq⟩, _⟩ := exists_gradient k (t.toGauss.coords p) (fun _ => 0)
    exact ⟨_, hq⟩) D

/-- The rotation of a quadrilateral with four nodes lists the nodes 0, 1, 2, 3 from the corner 1: they become 1, 2, 3, 0. -/
example : MovesNodes .qua4 ⟨[0, 0], [[0, -1], [1, 0]]⟩ (fun m => (m + 1) % 4) where
  rot := by simp [rotations, GeoKind.classOf]
  lt := by intro m hm; exact Nat.mod_lt _ (by norm_num)
  nodes := by
    intro m hm i hi
    have hm : m < 4 := hm
    have hi : i < 2 := hi
    interval_cases m <;> interval_cases i <;> decide +kernel

end
end Gemlab.Props.Integ
