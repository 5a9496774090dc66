import Verif.Props.Integ

/-! # C37, continued: the routines with two pads, and those of stresses and stiffness -/
namespace Gemlab.Props.Integ
open Gemlab Gemlab.Shapes Gemlab.Scratchpad Gemlab.Spec.Integ Gemlab.Integ
noncomputable section

variable {inv : MatInverse}

/-- C37, `mat_04_nsb`: adds `∫ Nb_m s ∂N_n/∂x_j` at row `m` and column `j + n·d` of the block (`Nb` are the shape functions of `padB`). -/
theorem C37_mat_04_nsb (hinv : InverseSpec inv) (kk : Mat) (padB : Scratchpad) (args : CommonArgs) (hd : SpaceOk args.pad)
    (fnS : Nat → (Nat → ℝ) → (Nat → ℝ) → (Nat → Nat → ℝ) → Res ℝ) (s : Nat → ℝ) (B : Nat → Nat → Nat → ℝ)
    (hr : args.ii0 + padB.kind.nnode ≤ kk.nrow) (hc : args.jj0 + args.pad.kind.nnode * args.pad.spaceNdim ≤ kk.ncol)
    (hreg : GradRegular inv args.pad args.gauss B)
    (hs : ∀ p < args.gauss.npoint, ∀ bb, Holds args.pad (B p) bb →
      fnS p (Shapes.calcInterp padB.kind (args.gauss.coords p)) (shapeN args p) bb = .ok (s p)) :
    ∃ k' pads', mat04Nsb inv kk padB args fnS = (k', .ok pads') ∧
      IsBlockSum2 kk k' args.clear args.ii0 args.jj0 padB.kind.nnode (args.pad.kind.nnode * args.pad.spaceNdim)
        (fun m b => quadrature args (detJ args.pad) fun p => Shapes.calcInterp padB.kind (args.gauss.coords p) m * s p *
          B p (b / args.pad.spaceNdim) (b % args.pad.spaceNdim)) := by
  unfold mat04Nsb
  dsimp only
  rw [if_neg (by omega), if_neg (by omega)]
  refine runMat_block' (fun pads => SameGeo pads.1 args.pad ∧ SameGeo pads.2 padB) padB.kind.nnode 1 args.pad.kind.nnode args.pad.spaceNdim
    (by omega) hc (fun p m a n b => factor args (detJ args.pad) p * (Shapes.calcInterp padB.kind (args.gauss.coords p) m * s p * B p n b))
    ⟨SameGeo.refl _, SameGeo.refl _⟩ (by omega) rfl (fun i j => by rw [Nat.div_one]; rfl) ?_
  rintro p hp ⟨pad, pB⟩ ⟨hpad, hpB⟩
  refine step_grad2 hinv (hreg p hp) hpad (padB := pB.calcInterp (args.gauss.coords p)) hpB ?_
  intro pad' hi hb hr
  have hi' : pad'.interp = shapeN args p := hi
  have hN : (pB.calcInterp (args.gauss.coords p)).interp = Shapes.calcInterp padB.kind (args.gauss.coords p) := by
    rw [← hpB.1]; rfl
  dsimp only
  rw [hi', hN, hs p hp _ hb]
  simp only [Res.bind_ok]
  rw [hr, coef_s]
  congr 2
  refine bl2_1d hd (fun h2 m hm n hn => ?_) (fun h3 m hm n hn => ?_)
  · rw [hb n hn 0 (by omega), hb n hn 1 (by omega)]
    exact ⟨by ring, by ring⟩
  · rw [hb n hn 0 (by omega), hb n hn 1 (by omega), hb n hn 2 (by omega)]
    exact ⟨by ring, by ring, by ring⟩

/-- C37, `mat_05_btn`: adds `∫ (∇Nb_m · T)_j N_n` at row `m` and column `j + n·d` of the block (`Bb` is the gradient of `padB`). -/
theorem C37_mat_05_btn (hinv : InverseSpec inv) (kk : Mat) (padB : Scratchpad) (args : CommonArgs) (hd : SpaceOk args.pad)
    (hdb : padB.spaceNdim = args.pad.spaceNdim)
    (fnT : Nat → (Nat → Nat → ℝ) → (Nat → ℝ) → (Nat → Nat → ℝ) → Res (Nat → ℝ)) (t : Nat → Nat → ℝ) (B Bb : Nat → Nat → Nat → ℝ)
    (hr : args.ii0 + padB.kind.nnode ≤ kk.nrow) (hc : args.jj0 + args.pad.kind.nnode * args.pad.spaceNdim ≤ kk.ncol)
    (hreg : GradRegular inv args.pad args.gauss B) (hregb : GradRegular inv padB args.gauss Bb)
    (hs : ∀ p < args.gauss.npoint, ∀ gb bb, Holds padB (Bb p) gb → Holds args.pad (B p) bb → fnT p gb (shapeN args p) bb = .ok (t p)) :
    ∃ k' pads', mat05Btn inv kk padB args fnT = (k', .ok pads') ∧
      IsBlockSum2 kk k' args.clear args.ii0 args.jj0 padB.kind.nnode (args.pad.kind.nnode * args.pad.spaceNdim)
        (fun m b => quadrature args (detJ args.pad) fun p =>
          (∑ i ∈ Finset.range args.pad.spaceNdim, Bb p m i * tensor2 (t p) i (b % args.pad.spaceNdim)) * shapeN args p (b / args.pad.spaceNdim)) := by
  unfold mat05Btn
  dsimp only
  rw [if_neg (by omega), if_neg (by omega)]
  refine runMat_block' (fun pads => SameGeo pads.1 args.pad ∧ SameGeo pads.2 padB) padB.kind.nnode 1 args.pad.kind.nnode args.pad.spaceNdim
    (by omega) hc (fun p m a n b => factor args (detJ args.pad) p *
      ((∑ i ∈ Finset.range args.pad.spaceNdim, Bb p m i * tensor2 (t p) i b) * shapeN args p n))
    ⟨SameGeo.refl _, SameGeo.refl _⟩ (by omega) rfl (fun i j => by rw [Nat.div_one]; rfl) ?_
  rintro p hp ⟨pad, pB⟩ ⟨hpad, hpB⟩
  obtain ⟨⟨⟨d0, q0⟩, hq⟩, hBb⟩ := hregb p hp
  obtain ⟨q', e1, e2, e3, e4⟩ := (gradient_geo0 hpB (args.gauss.coords p)).1 d0 q0 hq
  obtain ⟨_, g2⟩ := gradient_eq hinv hq hBb
  dsimp only
  rw [e1]
  simp only [Res.bind_ok]
  refine step_grad2 hinv (hreg p hp) hpad (padB := q') e2 ?_
  intro pad' hi hb hr
  have hi' : pad'.interp = shapeN args p := hi
  have hgb : Holds padB (Bb p) q'.gradient := by rw [e4]; exact g2
  dsimp only
  rw [hi', hs p hp _ _ hgb hb]
  simp only [Res.bind_ok]
  rw [hr, coef_v]
  congr 2
  refine bl2_1d hd (fun h2 m hm n hn => ?_) (fun h3 m hm n hn => ?_)
  · rw [hgb m hm 0 (by omega), hgb m hm 1 (by omega), h2]
    refine ⟨?_, ?_⟩ <;> (simp [Finset.sum_range_succ, tensor2, sqrt2, -mul_eq_mul_left_iff]; ring)
  · rw [hgb m hm 0 (by omega), hgb m hm 1 (by omega), hgb m hm 2 (by omega), h3]
    refine ⟨?_, ?_, ?_⟩ <;> (simp [Finset.sum_range_succ, tensor2, sqrt2, -mul_eq_mul_left_iff]; ring)

/-- C37, `mat_06_nvn`: adds `∫ N_m v_i Nb_n` at row `i + m·d` and column `n` of the block. -/
theorem C37_mat_06_nvn (hinv : InverseSpec inv) (kk : Mat) (args : CommonArgs) (padB : Scratchpad) (hd : SpaceOk args.pad)
    (fnV : Nat → (Nat → ℝ) → (Nat → Nat → ℝ) → (Nat → ℝ) → Res (Nat → ℝ)) (v : Nat → Nat → ℝ) (B : Nat → Nat → Nat → ℝ)
    (hr : args.ii0 + args.pad.kind.nnode * args.pad.spaceNdim ≤ kk.nrow) (hc : args.jj0 + padB.kind.nnode ≤ kk.ncol)
    (hreg : GradRegular inv args.pad args.gauss B)
    (hs : ∀ p < args.gauss.npoint, ∀ bb, Holds args.pad (B p) bb →
      fnV p (shapeN args p) bb (Shapes.calcInterp padB.kind (args.gauss.coords p)) = .ok (v p)) :
    ∃ k' pads', mat06Nvn inv kk args padB fnV = (k', .ok pads') ∧
      IsBlockSum2 kk k' args.clear args.ii0 args.jj0 (args.pad.kind.nnode * args.pad.spaceNdim) padB.kind.nnode
        (fun a n => quadrature args (detJ args.pad) fun p => shapeN args p (a / args.pad.spaceNdim) * v p (a % args.pad.spaceNdim) *
          Shapes.calcInterp padB.kind (args.gauss.coords p) n) := by
  unfold mat06Nvn
  dsimp only
  rw [if_neg (by omega), if_neg (by omega)]
  refine runMat_block' (fun pads => SameGeo pads.1 args.pad ∧ SameGeo pads.2 padB) args.pad.kind.nnode args.pad.spaceNdim padB.kind.nnode 1
    hr (by omega) (fun p m a n b => factor args (detJ args.pad) p * (shapeN args p m * v p a * Shapes.calcInterp padB.kind (args.gauss.coords p) n))
    ⟨SameGeo.refl _, SameGeo.refl _⟩ rfl (by omega) (fun i j => by rw [Nat.div_one]; rfl) ?_
  rintro p hp ⟨pad, pB⟩ ⟨hpad, hpB⟩
  refine step_grad2 hinv (hreg p hp) hpad (padB := pB.calcInterp (args.gauss.coords p)) hpB ?_
  intro pad' hi hb hr
  have hi' : pad'.interp = shapeN args p := hi
  have hN : (pB.calcInterp (args.gauss.coords p)).interp = Shapes.calcInterp padB.kind (args.gauss.coords p) := by
    rw [← hpB.1]; rfl
  dsimp only
  rw [hi', hN, hs p hp _ hb]
  simp only [Res.bind_ok]
  rw [hr, coef_v]
  congr 2
  exact bl2_d1 hd (fun h2 m hm n hn => ⟨by ring, by ring⟩) (fun h3 m hm n hn => ⟨by ring, by ring, by ring⟩)

/-- C37, `mat_07_bsn`: adds `∫ ∂N_m/∂x_i s Nb_n` at row `i + m·d` and column `n` of the block. -/
theorem C37_mat_07_bsn (hinv : InverseSpec inv) (kk : Mat) (args : CommonArgs) (padB : Scratchpad) (hd : SpaceOk args.pad)
    (fnS : Nat → (Nat → ℝ) → (Nat → Nat → ℝ) → (Nat → ℝ) → Res ℝ) (s : Nat → ℝ) (B : Nat → Nat → Nat → ℝ)
    (hr : args.ii0 + args.pad.kind.nnode * args.pad.spaceNdim ≤ kk.nrow) (hc : args.jj0 + padB.kind.nnode ≤ kk.ncol)
    (hreg : GradRegular inv args.pad args.gauss B)
    (hs : ∀ p < args.gauss.npoint, ∀ bb, Holds args.pad (B p) bb →
      fnS p (shapeN args p) bb (Shapes.calcInterp padB.kind (args.gauss.coords p)) = .ok (s p)) :
    ∃ k' pads', mat07Bsn inv kk args padB fnS = (k', .ok pads') ∧
      IsBlockSum2 kk k' args.clear args.ii0 args.jj0 (args.pad.kind.nnode * args.pad.spaceNdim) padB.kind.nnode
        (fun a n => quadrature args (detJ args.pad) fun p => B p (a / args.pad.spaceNdim) (a % args.pad.spaceNdim) * s p *
          Shapes.calcInterp padB.kind (args.gauss.coords p) n) := by
  unfold mat07Bsn
  dsimp only
  rw [if_neg (by omega), if_neg (by omega)]
  refine runMat_block' (fun pads => SameGeo pads.1 args.pad ∧ SameGeo pads.2 padB) args.pad.kind.nnode args.pad.spaceNdim padB.kind.nnode 1
    hr (by omega) (fun p m a n b => factor args (detJ args.pad) p * (B p m a * s p * Shapes.calcInterp padB.kind (args.gauss.coords p) n))
    ⟨SameGeo.refl _, SameGeo.refl _⟩ rfl (by omega) (fun i j => by rw [Nat.div_one]; rfl) ?_
  rintro p hp ⟨pad, pB⟩ ⟨hpad, hpB⟩
  refine step_grad2 hinv (hreg p hp) hpad (padB := pB.calcInterp (args.gauss.coords p)) hpB ?_
  intro pad' hi hb hr
  have hi' : pad'.interp = shapeN args p := hi
  have hN : (pB.calcInterp (args.gauss.coords p)).interp = Shapes.calcInterp padB.kind (args.gauss.coords p) := by
    rw [← hpB.1]; rfl
  dsimp only
  rw [hi', hN, hs p hp _ hb]
  simp only [Res.bind_ok]
  rw [hr, coef_s]
  congr 2
  refine bl2_d1 hd (fun h2 m hm n hn => ?_) (fun h3 m hm n hn => ?_)
  · rw [hb m hm 0 (by omega), hb m hm 1 (by omega)]
    exact ⟨by ring, by ring⟩
  · rw [hb m hm 0 (by omega), hb m hm 1 (by omega), hb m hm 2 (by omega)]
    exact ⟨by ring, by ring, by ring⟩

theorem sqrt2_sq : Real.sqrt 2 * Real.sqrt 2 = 2 := Real.mul_self_sqrt (by norm_num)
theorem sqrt2_ne : Real.sqrt 2 ≠ 0 := by positivity

/-- C37, `vec_04_bt`: adds the virtual work `∫ ε^{(m,i)} : σ` of the stress `σ` in the displacement field "shape function `m` in direction `i`" at entry
`i + m·d` of the block, including the hoop strain in axisymmetric analyses. -/
theorem C37_vec_04_bt (hinv : InverseSpec inv) (dv : Vec) (args : CommonArgs) (hd : SpaceOk args.pad)
    (haxi : args.axisymmetric = true → args.pad.spaceNdim = 2 ∧ ∀ p < args.gauss.npoint, radiusAt args p ≠ 0)
    (fnSig : Nat → (Nat → ℝ) → (Nat → Nat → ℝ) → Res (Nat → ℝ)) (t : Nat → Nat → ℝ) (B : Nat → Nat → Nat → ℝ)
    (hsize : args.ii0 + args.pad.kind.nnode * args.pad.spaceNdim ≤ dv.dim) (hreg : GradRegular inv args.pad args.gauss B)
    (hs : ∀ p < args.gauss.npoint, ∀ bb, Holds args.pad (B p) bb → fnSig p (shapeN args p) bb = .ok (t p)) :
    ∃ d' pad', vec04Bt inv dv args fnSig = (d', .ok pad') ∧
      IsBlockSum1 dv d' args.clear args.ii0 (args.pad.kind.nnode * args.pad.spaceNdim)
        (fun a => quadrature args (detJ args.pad) fun p => ∑ k ∈ Finset.range 3, ∑ l ∈ Finset.range 3,
          strainOp args (B p) p (a / args.pad.spaceNdim) (a % args.pad.spaceNdim) k l * tensor2 (t p) k l) := by
  unfold vec04Bt
  dsimp only
  rw [if_neg (by omega), if_neg (by
    cases h : args.axisymmetric
    · simp
    · simp [(haxi h).1])]
  refine runVec_block' (fun pad => SameGeo pad args.pad) args.pad.kind.nnode args.pad.spaceNdim hsize
    (fun p m i => factor args (detJ args.pad) p * ∑ k ∈ Finset.range 3, ∑ l ∈ Finset.range 3, strainOp args (B p) p m i k l * tensor2 (t p) k l)
    (SameGeo.refl _) rfl (fun k => rfl) ?_
  intro p hp pad hpad
  refine step_grad hinv (hreg p hp) hpad ?_
  intro pad' hi hb hr
  have hi' : pad'.interp = shapeN args p := hi
  dsimp only
  rw [hi', hs p hp _ hb]
  simp only [Res.bind_ok]
  congr 2
  cases hax : args.axisymmetric
  · rw [if_neg (by decide), factor_not hax]
    unfold addToD
    refine bl1d hd (fun h2 m hm => ?_) (fun h3 m hm => ?_)
    · rw [hb m hm 0 (by omega), hb m hm 1 (by omega)]
      refine ⟨?_, ?_⟩ <;> (simp [Finset.sum_range_succ, strainOp, tensor2, sqrt2, hax, h2, -mul_eq_mul_left_iff]; ring)
    · rw [hb m hm 0 (by omega), hb m hm 1 (by omega), hb m hm 2 (by omega)]
      refine ⟨?_, ?_, ?_⟩ <;> (simp [Finset.sum_range_succ, strainOp, tensor2, sqrt2, hax, h3, -mul_eq_mul_left_iff]; ring)
  · obtain ⟨h2, hr0⟩ := haxi hax
    rw [if_pos rfl, factor_axi hax, hr]
    have hR : radAt args.pad (args.gauss.coords p) ≠ 0 := hr0 p hp
    have hRe : radiusAt args p = radAt args.pad (args.gauss.coords p) := rfl
    rw [h2]
    unfold addToDAxisymmetric
    refine bl1_2 fun m hm => ?_
    rw [hb m hm 0 (by omega), hb m hm 1 (by omega)]
    refine ⟨?_, ?_⟩ <;>
      (simp [Finset.sum_range_succ, strainOp, tensor2, sqrt2, hax, h2, hRe, -mul_eq_mul_left_iff]; field_simp; try ring)

/-- The virtual work of the strains of two unit displacement fields: `ε^{(m,i)} : D : ε^{(n,j)}` at point `p`. -/
def stiffness (args : CommonArgs) (B : Nat → Nat → ℝ) (D : Nat → Nat → ℝ) (p m i n j : Nat) : ℝ :=
  ∑ k ∈ Finset.range 3, ∑ l ∈ Finset.range 3, strainOp args B p m i k l *
    ∑ k' ∈ Finset.range 3, ∑ l' ∈ Finset.range 3, tensor4 D k l k' l' * strainOp args B p n j k' l'

theorem strain_plane {args : CommonArgs} (hax : args.axisymmetric = false) (hd : SpaceOk args.pad) (B : Nat → Nat → ℝ) (p m i : Nat) (hi : i < 3)
    (f : Nat → Nat → ℝ) :
    ∑ k ∈ Finset.range 3, ∑ l ∈ Finset.range 3, strainOp args B p m i k l * f k l = ∑ l ∈ Finset.range args.pad.spaceNdim, B m l * f i l := by
  have hi' : i = 0 ∨ i = 1 ∨ i = 2 := by omega
  rcases hd with h | h <;> rcases hi' with rfl | rfl | rfl <;> simp [Finset.sum_range_succ, strainOp, hax, h]

theorem strain_axi {args : CommonArgs} (hax : args.axisymmetric = true) (hd : args.pad.spaceNdim = 2) (B : Nat → Nat → ℝ) (p m i : Nat) (hi : i < 2)
    (f : Nat → Nat → ℝ) :
    ∑ k ∈ Finset.range 3, ∑ l ∈ Finset.range 3, strainOp args B p m i k l * f k l =
      (B m 0 * f i 0 + B m 1 * f i 1) + if i = 0 then shapeN args p m / radiusAt args p * f 2 2 else 0 := by
  have hi' : i = 0 ∨ i = 1 := by omega
  rcases hi' with rfl | rfl <;> simp [Finset.sum_range_succ, strainOp, hax, hd]

theorem stiffness_plane {args : CommonArgs} (hax : args.axisymmetric = false) (hd : SpaceOk args.pad) (B D : Nat → Nat → ℝ) (p m i n j : Nat)
    (hi : i < 3) (hj : j < 3) :
    stiffness args B D p m i n j = ∑ l ∈ Finset.range args.pad.spaceNdim, B m l *
      ∑ l' ∈ Finset.range args.pad.spaceNdim, B n l' * tensor4 D i l j l' := by
  unfold stiffness
  rw [strain_plane hax hd B p m i hi]
  refine Finset.sum_congr rfl fun l _ => ?_
  rw [← strain_plane hax hd B p n j hj (fun k' l' => tensor4 D i l k' l')]
  simp only [mul_comm]

theorem stiffness_axi {args : CommonArgs} (hax : args.axisymmetric = true) (hd : args.pad.spaceNdim = 2) (B D : Nat → Nat → ℝ) (p m i n j : Nat)
    (hi : i < 2) (hj : j < 2) :
    let T := fun k l => (B n 0 * tensor4 D k l j 0 + B n 1 * tensor4 D k l j 1) + if j = 0 then shapeN args p n / radiusAt args p * tensor4 D k l 2 2 else 0
    stiffness args B D p m i n j = (B m 0 * T i 0 + B m 1 * T i 1) + if i = 0 then shapeN args p m / radiusAt args p * T 2 2 else 0 := by
  intro T
  unfold stiffness
  rw [strain_axi hax hd B p m i hi]
  have hT : ∀ k l, ∑ k' ∈ Finset.range 3, ∑ l' ∈ Finset.range 3, tensor4 D k l k' l' * strainOp args B p n j k' l' = T k l := by
    intro k l
    refine Eq.trans ?_ (strain_axi hax hd B p n j hj (fun k' l' => tensor4 D k l k' l'))
    simp only [mul_comm]
  simp only [hT]

theorem inv_sqrt2 : (Real.sqrt 2)⁻¹ = Real.sqrt 2 / 2 := by
  rw [eq_div_iff (by norm_num), inv_mul_eq_iff_eq_mul₀ sqrt2_ne, sqrt2_sq]

theorem sqrt2_pow : Real.sqrt 2 ^ 2 = 2 := Real.sq_sqrt (by norm_num)

/-- C37, `mat_10_bdb`: adds `∫ ε^{(m,i)} : D : ε^{(n,j)}` at entry `(i + m·d, j + n·d)` of the block. -/
theorem C37_mat_10_bdb (hinv : InverseSpec inv) (kk : Mat) (args : CommonArgs) (hd : SpaceOk args.pad)
    (haxi : args.axisymmetric = true → args.pad.spaceNdim = 2 ∧ ∀ p < args.gauss.npoint, radiusAt args p ≠ 0)
    (fnD : Nat → (Nat → ℝ) → (Nat → Nat → ℝ) → Res (Nat → Nat → ℝ)) (D : Nat → Nat → Nat → ℝ) (B : Nat → Nat → Nat → ℝ)
    (hr : args.ii0 + args.pad.kind.nnode * args.pad.spaceNdim ≤ kk.nrow) (hc : args.jj0 + args.pad.kind.nnode * args.pad.spaceNdim ≤ kk.ncol)
    (hreg : GradRegular inv args.pad args.gauss B)
    (hs : ∀ p < args.gauss.npoint, ∀ bb, Holds args.pad (B p) bb → fnD p (shapeN args p) bb = .ok (D p)) :
    ∃ k' pad', mat10Bdb inv kk args fnD = (k', .ok pad') ∧
      IsBlockSum2 kk k' args.clear args.ii0 args.jj0 (args.pad.kind.nnode * args.pad.spaceNdim) (args.pad.kind.nnode * args.pad.spaceNdim)
        (fun a b => quadrature args (detJ args.pad) fun p =>
          stiffness args (B p) (D p) p (a / args.pad.spaceNdim) (a % args.pad.spaceNdim) (b / args.pad.spaceNdim) (b % args.pad.spaceNdim)) := by
  unfold mat10Bdb
  dsimp only
  rw [if_neg (by omega), if_neg (by omega), if_neg (by
    cases h : args.axisymmetric
    · simp
    · simp [(haxi h).1])]
  refine runMat_block' (fun pad => SameGeo pad args.pad) args.pad.kind.nnode args.pad.spaceNdim args.pad.kind.nnode args.pad.spaceNdim hr hc
    (fun p m i n j => factor args (detJ args.pad) p * stiffness args (B p) (D p) p m i n j)
    (SameGeo.refl _) rfl rfl (fun i j => rfl) ?_
  intro p hp pad hpad
  refine step_grad hinv (hreg p hp) hpad ?_
  intro pad' hi hb hr
  have hi' : pad'.interp = shapeN args p := hi
  dsimp only
  rw [hi', hs p hp _ hb]
  simp only [Res.bind_ok]
  congr 2
  have h2' := sqrt2_pow
  cases hax : args.axisymmetric
  · rw [if_neg (by decide), factor_not hax]
    unfold addToKk
    rcases hd with h2 | h3
    · dsimp only
      rw [if_pos h2, h2]
      refine bl2_22 fun m hm n hn => ?_
      simp only [hb m hm 0 (by omega), hb m hm 1 (by omega), hb n hn 0 (by omega), hb n hn 1 (by omega)]
      rw [stiffness_plane hax (Or.inl h2) _ _ _ _ _ _ _ (by decide) (by decide), stiffness_plane hax (Or.inl h2) _ _ _ _ _ _ _ (by decide) (by decide),
        stiffness_plane hax (Or.inl h2) _ _ _ _ _ _ _ (by decide) (by decide), stiffness_plane hax (Or.inl h2) _ _ _ _ _ _ _ (by decide) (by decide)]
      rw [h2]
      refine ⟨?_, ?_, ?_, ?_⟩ <;>
        (simp [Finset.sum_range_succ, tensor4, mandelFac, mandelIdx, sqrt2, inv_sqrt2, -mul_eq_mul_left_iff]
         ring_nf
         try rw [h2']
         try ring)
    · dsimp only
      rw [if_neg (by omega), h3]
      have hSP : ∀ m i n j, i < 3 → j < 3 → stiffness args (B p) (D p) p m i n j = ∑ l ∈ Finset.range 3, B p m l *
          ∑ l' ∈ Finset.range 3, B p n l' * tensor4 (D p) i l j l' := by
        intro m i n j hi hj
        rw [stiffness_plane hax (Or.inr h3) _ _ _ _ _ _ _ hi hj, h3]
      refine bl2_33 ?_ ?_ ?_ <;> intro m hm n hn <;>
      simp only [hb m hm 0 (by omega), hb m hm 1 (by omega), hb n hn 0 (by omega), hb n hn 1 (by omega), hb m hm 2 (by omega), hb n hn 2 (by omega)] <;>
      (rw [hSP _ _ _ _ (by decide) (by decide), hSP _ _ _ _ (by decide) (by decide), hSP _ _ _ _ (by decide) (by decide)]
       refine ⟨?_, ?_, ?_⟩ <;>
        (simp [Finset.sum_range_succ, tensor4, mandelFac, mandelIdx, sqrt2, inv_sqrt2, -mul_eq_mul_left_iff]
         ring_nf
         try rw [h2']
         try ring))
  · obtain ⟨h2, hr0⟩ := haxi hax
    rw [if_pos rfl, factor_axi hax, hr]
    have hR : radAt args.pad (args.gauss.coords p) ≠ 0 := hr0 p hp
    have hRe : radiusAt args p = radAt args.pad (args.gauss.coords p) := rfl
    rw [h2]
    unfold addToKkAxisymmetric
    refine bl2_22 fun m hm n hn => ?_
    simp only [hb m hm 0 (by omega), hb m hm 1 (by omega), hb n hn 0 (by omega), hb n hn 1 (by omega)]
    rw [stiffness_axi hax h2 _ _ _ _ _ _ _ (by decide) (by decide), stiffness_axi hax h2 _ _ _ _ _ _ _ (by decide) (by decide),
        stiffness_axi hax h2 _ _ _ _ _ _ _ (by decide) (by decide), stiffness_axi hax h2 _ _ _ _ _ _ _ (by decide) (by decide)]
    dsimp only
    rw [hRe]
    generalize radAt args.pad (args.gauss.coords p) = R at hR
    refine ⟨?_, ?_, ?_, ?_⟩ <;>
        (simp [tensor4, mandelFac, mandelIdx, sqrt2, inv_sqrt2, -mul_eq_mul_left_iff]
         field_simp
         ring_nf
         try rw [h2']
         try ring)

theorem runMat_sums {σ : Type} {k : Mat} {clear : Bool} {np : Nat} {s : σ} {step : Nat → σ → Res (σ × List ((Nat × Nat) × ℝ))} (Inv : σ → Prop)
    {nr nc : Nat} (hr : nr ≤ k.nrow) (hc : nc ≤ k.ncol) (x : Nat → Nat → Nat → ℝ) (h0 : Inv s) (adds : Nat → List ((Nat × Nat) × ℝ))
    (ha : ∀ p < np, ∀ e ∈ adds p, e.1.1 < nr ∧ e.1.2 < nc)
    (hx : ∀ p < np, ∀ i j, ((adds p).map fun e => if e.1 = (i, j) then e.2 else 0).sum = if i < nr ∧ j < nc then x p i j else 0)
    (h : ∀ p < np, ∀ s, Inv s → ∃ s', step p s = .ok (s', adds p) ∧ Inv s') :
    ∃ k' s', runMat k clear np s step = (k', .ok s') ∧ IsBlockSum2 k k' clear 0 0 nr nc (fun i j => ∑ p ∈ Finset.range np, x p i j) := by
  obtain ⟨s', h1, h2⟩ := runPoints_ok (fun i => decide (i.1 < k.nrow ∧ i.2 < k.ncol)) step Inv adds np 0 s
    (if clear then fun _ => 0 else k.val) h0 (fun q _ hq s hs => h q (by omega) s hs)
    (fun q _ hq e he => by have := ha q (by omega) e he; simp only [decide_eq_true_eq]; omega)
  refine ⟨(runMat k clear np s step).1, s', Prod.ext rfl (by unfold runMat; dsimp only; rw [h2]), rfl, rfl, fun i j => ?_⟩
  unfold runMat
  dsimp only
  rw [h2]
  simp only [Nat.zero_add]
  rw [Finset.sum_congr rfl fun p hp => hx p (Finset.mem_range.1 hp) i j]
  congr 1
  · cases clear <;> rfl
  · by_cases h : i < nr ∧ j < nc
    · simp [h]
    · simp [h]

theorem stiffList_sum (coef : ℝ) (m n i j : Nat) (bb dd : Nat → Nat → ℝ) :
    (((List.range n).flatMap fun i => (List.range n).flatMap fun j => (List.range m).flatMap fun k => (List.range m).map fun l =>
      ((i, j), coef * bb k i * dd k l * bb l j)).map fun e => if e.1 = (i, j) then e.2 else 0).sum =
    if i < n ∧ j < n then ∑ k ∈ Finset.range m, ∑ l ∈ Finset.range m, coef * bb k i * dd k l * bb l j else 0 := by
  have h1 : ∀ i' j', ((((List.range m).flatMap fun k => (List.range m).map fun l =>
      ((i', j'), coef * bb k i' * dd k l * bb l j'))).map fun e => if e.1 = (i, j) then e.2 else 0).sum =
      if i' = i ∧ j' = j then ∑ k ∈ Finset.range m, ∑ l ∈ Finset.range m, coef * bb k i * dd k l * bb l j else 0 := by
    intro i' j'
    rw [sum_flatMap_range]
    by_cases h : i' = i ∧ j' = j
    · obtain ⟨rfl, rfl⟩ := h
      simp only [List.map_map, and_self, if_true]
      refine Finset.sum_congr rfl fun k _ => ?_
      rw [← sum_map_range]
      congr 1
      refine List.map_congr_left fun l _ => ?_
      simp
    · rw [if_neg h]
      refine Finset.sum_eq_zero fun k _ => ?_
      rw [List.map_map, sum_map_range]
      refine Finset.sum_eq_zero fun l _ => ?_
      have : ¬ ((i', j') = (i, j)) := by simpa using h
      simp [this]
  rw [sum_flatMap_range]
  simp only [sum_flatMap_range n, h1]
  by_cases hi : i < n ∧ j < n
  · rw [if_pos hi, Finset.sum_eq_single i, Finset.sum_eq_single j]
    · simp
    · intro j' _ hj'; simp [hj']
    · intro h; exact absurd (Finset.mem_range.2 hi.2) h
    · intro i' _ hi'; simp [hi']
    · intro h; exact absurd (Finset.mem_range.2 hi.1) h
  · rw [if_neg hi]
    refine Finset.sum_eq_zero fun i' hi' => Finset.sum_eq_zero fun j' hj' => ?_
    rw [if_neg]
    rintro ⟨rfl, rfl⟩
    exact hi ⟨Finset.mem_range.1 hi', Finset.mem_range.1 hj'⟩

/-- C37, `mat_10_bdb_alt`: for a matrix of exactly the size of the element (any other size is a run-time panic, or an error, see
`C37_mat_10_bdb_alt_size`) it does the same as `mat_10_bdb`. -/
theorem C37_mat_10_bdb_alt (hinv : InverseSpec inv) (kk : Mat) (args : CommonArgs) (hd : SpaceOk args.pad)
    (haxi : args.axisymmetric = true → args.pad.spaceNdim = 2 ∧ ∀ p < args.gauss.npoint, radiusAt args p ≠ 0)
    (fnD : Nat → (Nat → ℝ) → (Nat → Nat → ℝ) → Res (Nat → Nat → ℝ)) (D : Nat → Nat → Nat → ℝ) (B : Nat → Nat → Nat → ℝ)
    (hr : kk.nrow = args.pad.kind.nnode * args.pad.spaceNdim) (hc : kk.ncol = args.pad.kind.nnode * args.pad.spaceNdim)
    (h00 : args.ii0 = 0 ∧ args.jj0 = 0)
    (hreg : GradRegular inv args.pad args.gauss B)
    (hs : ∀ p < args.gauss.npoint, ∀ bb, Holds args.pad (B p) bb → fnD p (shapeN args p) bb = .ok (D p)) :
    ∃ k' pad', mat10BdbAlt inv kk args fnD = (k', .ok pad') ∧
      IsBlockSum2 kk k' args.clear 0 0 (args.pad.kind.nnode * args.pad.spaceNdim) (args.pad.kind.nnode * args.pad.spaceNdim)
        (fun a b => quadrature args (detJ args.pad) fun p =>
          stiffness args (B p) (D p) p (a / args.pad.spaceNdim) (a % args.pad.spaceNdim) (b / args.pad.spaceNdim) (b % args.pad.spaceNdim)) := by
  unfold mat10BdbAlt
  dsimp only
  rw [if_neg (by omega), if_neg (by omega), if_neg (by
    cases h : args.axisymmetric
    · simp
    · simp [(haxi h).1])]
  -- the matrix `B` of a point, in terms of the gradient
  let BM : Nat → Nat → Nat → Nat → ℝ := fun p row col n => 
    if args.pad.spaceNdim = 3 then match row, col with
      | 0, 0 => B p n 0
      | 1, 1 => B p n 1
      | 2, 2 => B p n 2
      | 3, 0 => B p n 1 / sqrt2
      | 4, 1 => B p n 2 / sqrt2
      | 5, 2 => B p n 0 / sqrt2
      | 3, 1 => B p n 0 / sqrt2
      | 4, 2 => B p n 1 / sqrt2
      | 5, 0 => B p n 2 / sqrt2
      | _, _ => 0
    else match row, col with
      | 0, 0 => B p n 0
      | 1, 1 => B p n 1
      | 2, 0 => if args.axisymmetric then shapeN args p n / radiusAt args p else 0
      | 3, 0 => B p n 1 / sqrt2
      | 3, 1 => B p n 0 / sqrt2
      | _, _ => 0
  refine runMat_sums (fun pad => SameGeo pad args.pad) (by omega) (by omega)
    (fun p a b => factor args (detJ args.pad) p * stiffness args (B p) (D p) p (a / args.pad.spaceNdim) (a % args.pad.spaceNdim) (b / args.pad.spaceNdim) (b % args.pad.spaceNdim))
    (SameGeo.refl _)
    (fun p => (List.range (args.pad.kind.nnode * args.pad.spaceNdim)).flatMap fun i => (List.range (args.pad.kind.nnode * args.pad.spaceNdim)).flatMap fun j =>
      (List.range (2 * args.pad.spaceNdim)).flatMap fun k => (List.range (2 * args.pad.spaceNdim)).map fun l =>
      ((i, j), factor args (detJ args.pad) p * BM p k (i % args.pad.spaceNdim) (i / args.pad.spaceNdim) * D p k l *
        BM p l (j % args.pad.spaceNdim) (j / args.pad.spaceNdim))) ?_ ?_ ?_
  · intro p hp e he
    simp only [List.mem_flatMap, List.mem_map, List.mem_range] at he
    obtain ⟨i, hi, j, hj, k, hk, l, hl, rfl⟩ := he
    exact ⟨hi, hj⟩
  · intro p hp i j
    refine (stiffList_sum (factor args (detJ args.pad) p) _ _ i j (fun k i => BM p k (i % args.pad.spaceNdim) (i / args.pad.spaceNdim)) (D p)).trans ?_
    split
    · have key : ∀ m a n b, a < args.pad.spaceNdim → b < args.pad.spaceNdim →
          ∑ k ∈ Finset.range (2 * args.pad.spaceNdim), ∑ l ∈ Finset.range (2 * args.pad.spaceNdim), BM p k a m * D p k l * BM p l b n =
          stiffness args (B p) (D p) p m a n b := by
        intro m a n b ha hb
        cases hax : args.axisymmetric
        · rw [stiffness_plane hax hd _ _ _ _ _ _ _ (by rcases hd with h | h <;> omega) (by rcases hd with h | h <;> omega)]
          rcases hd with h | h
          · have ha' : a = 0 ∨ a = 1 := by omega
            have hb' : b = 0 ∨ b = 1 := by omega
            rcases ha' with rfl | rfl <;> rcases hb' with rfl | rfl <;>
            · simp [BM, h, Finset.sum_range_succ, tensor4, mandelFac, mandelIdx, sqrt2, hax]
              ring
          · have ha' : a = 0 ∨ a = 1 ∨ a = 2 := by omega
            have hb' : b = 0 ∨ b = 1 ∨ b = 2 := by omega
            rcases ha' with rfl | rfl | rfl <;> rcases hb' with rfl | rfl | rfl <;>
            · simp [BM, h, Finset.sum_range_succ, tensor4, mandelFac, mandelIdx, sqrt2]
              ring
        · obtain ⟨h2, hr0⟩ := haxi hax
          rw [stiffness_axi hax h2 _ _ _ _ _ _ _ (by omega) (by omega)]
          have ha' : a = 0 ∨ a = 1 := by omega
          have hb' : b = 0 ∨ b = 1 := by omega
          rcases ha' with rfl | rfl <;> rcases hb' with rfl | rfl <;>
            · simp [BM, h2, Finset.sum_range_succ, tensor4, mandelFac, mandelIdx, sqrt2, hax]
              ring
      have hd0 : 0 < args.pad.spaceNdim := by rcases hd with h | h <;> omega
      rw [← key _ _ _ _ (Nat.mod_lt _ hd0) (Nat.mod_lt _ hd0), Finset.mul_sum]
      refine Finset.sum_congr rfl fun k _ => ?_
      rw [Finset.mul_sum]
      refine Finset.sum_congr rfl fun l _ => ?_
      ring
    · rfl
  · intro p hp pad hpad
    refine step_grad_geo hinv (hreg p hp) hpad ?_
    intro pad' hg hi hb hrr
    have hi' : pad'.interp = shapeN args p := hi
    dsimp only
    rw [hi', hs p hp _ hb]
    simp only [Res.bind_ok]
    have hR : radius pad' = radiusAt args p := hrr
    have hcoef : detJ args.pad (args.gauss.coords p) * args.gauss.weight p * args.alpha * (calcBbMatrix pad' args.axisymmetric).2 =
        factor args (detJ args.pad) p := by
      unfold calcBbMatrix factor
      cases hax : args.axisymmetric
      · rcases hd with h | h <;> simp [hg.2.1, h] <;> ring
      · simp [hg.2.1, (haxi hax).1, hR, -mul_eq_mul_right_iff]; ring
    have hBM : ∀ row a n, row < 2 * args.pad.spaceNdim → a < args.pad.spaceNdim → n < args.pad.kind.nnode →
        (calcBbMatrix pad' args.axisymmetric).1 row a n = BM p row a n := by
      intro row a n hrow ha hn
      unfold calcBbMatrix
      simp only [BM, hg.2.1, hi', hR]
      rcases hd with h | h
      · have h0 := hb n hn 0 (by omega)
        have h1 := hb n hn 1 (by omega)
        have ha' : a = 0 ∨ a = 1 := by omega
        have hrow' : row = 0 ∨ row = 1 ∨ row = 2 ∨ row = 3 := by omega
        cases hax : args.axisymmetric <;> rcases ha' with rfl | rfl <;> rcases hrow' with rfl | rfl | rfl | rfl <;> simp [h, h0, h1]
      · have h0 := hb n hn 0 (by omega)
        have h1 := hb n hn 1 (by omega)
        have h2 := hb n hn 2 (by omega)
        have ha' : a = 0 ∨ a = 1 ∨ a = 2 := by omega
        have hrow' : row = 0 ∨ row = 1 ∨ row = 2 ∨ row = 3 ∨ row = 4 ∨ row = 5 := by omega
        rcases ha' with rfl | rfl | rfl <;> rcases hrow' with rfl | rfl | rfl | rfl | rfl | rfl <;> simp [h, h0, h1, h2]
    rw [hcoef]
    unfold addToStiffMat
    rw [if_pos ⟨hr, hc⟩]
    simp only [Res.bind_ok]
    have hd0 : 0 < args.pad.spaceNdim := by rcases hd with h | h <;> omega
    congr 2
    refine flatMap_range_congr fun i hi => flatMap_range_congr fun j hj => flatMap_range_congr fun k hk => List.map_congr_left fun l hl => ?_
    rw [hBM _ _ _ hk (Nat.mod_lt _ hd0) ((Nat.div_lt_iff_lt_mul hd0).2 hi), hBM _ _ _ (List.mem_range.1 hl) (Nat.mod_lt _ hd0) ((Nat.div_lt_iff_lt_mul hd0).2 hj)]

end
end Gemlab.Props.Integ
