import Verif.Proofs.Integ2

/-!
# C37: the integration routines add the quadrature to their block

See `Spec/Integ.lean` for the specification: `IsBlockSum1/2`, `quadrature`, `shapeN`, `IsGradient`, `tensor2`, `tensor4`.
-/
namespace Gemlab.Props.Integ
open Gemlab Gemlab.Shapes Gemlab.Scratchpad Gemlab.Spec.Integ Gemlab.Integ
noncomputable section

variable {inv : MatInverse}

theorem factor_axi {args : CommonArgs} {μ : (Nat → ℝ) → ℝ} {p : Nat} (h : args.axisymmetric = true) :
    factor args μ p = args.alpha * args.gauss.weight p * μ (args.gauss.coords p) * radAt args.pad (args.gauss.coords p) := by
  unfold factor; rw [if_pos h]; rfl
theorem factor_not {args : CommonArgs} {μ : (Nat → ℝ) → ℝ} {p : Nat} (h : args.axisymmetric = false) :
    factor args μ p = args.alpha * args.gauss.weight p * μ (args.gauss.coords p) := by
  unfold factor; rw [if_neg (by rw [h]; decide)]; ring

/-- The coefficient of the routines with a scalar coefficient. -/
theorem coef_s {args : CommonArgs} {μ : (Nat → ℝ) → ℝ} {p : Nat} {s : ℝ} :
    (if args.axisymmetric = true then s * μ (args.gauss.coords p) * args.gauss.weight p * args.alpha * radAt args.pad (args.gauss.coords p)
      else s * μ (args.gauss.coords p) * args.gauss.weight p * args.alpha) = factor args μ p * s := by
  cases h : args.axisymmetric
  · rw [factor_not h]; simp only [if_true, Bool.false_eq_true, if_false]; ring
  · rw [factor_axi h]; simp only [if_true, Bool.false_eq_true, if_false]; ring

/-- The coefficient of the other routines. -/
theorem coef_v {args : CommonArgs} {μ : (Nat → ℝ) → ℝ} {p : Nat} :
    (if args.axisymmetric = true then μ (args.gauss.coords p) * args.gauss.weight p * args.alpha * radAt args.pad (args.gauss.coords p)
      else μ (args.gauss.coords p) * args.gauss.weight p * args.alpha) = factor args μ p := by
  cases h : args.axisymmetric
  · rw [factor_not h]; simp only [if_true, Bool.false_eq_true, if_false]; ring
  · rw [factor_axi h]; simp only [if_true, Bool.false_eq_true, if_false]; ring

/-- C37, `vec_01_ns`: adds `∫ N_m s` to the block. -/
theorem C37_vec_01_ns (hinv : InverseSpec inv) (a : Vec) (args : CommonArgs) (fnS : Nat → (Nat → ℝ) → Res ℝ) (s : Nat → ℝ)
    (hsize : args.ii0 + args.pad.kind.nnode ≤ a.dim) (hreg : JacRegular inv args.pad args.gauss)
    (hs : ∀ p < args.gauss.npoint, fnS p (shapeN args p) = .ok (s p)) :
    ∃ a' pad', vec01Ns inv a args fnS = (a', .ok pad') ∧
      IsBlockSum1 a a' args.clear args.ii0 args.pad.kind.nnode
        (fun m => quadrature args (jacMeasure args.pad) fun p => shapeN args p m * s p) := by
  unfold vec01Ns
  dsimp only
  rw [if_neg (by omega)]
  refine runVec_block' (fun pad => SameGeo pad args.pad) args.pad.kind.nnode 1 (by omega)
    (fun p m _ => factor args (jacMeasure args.pad) p * (shapeN args p m * s p)) (SameGeo.refl _) (by omega)
    (fun k => by rw [Nat.div_one]; rfl) ?_
  intro p hp pad hpad
  refine step_jac hinv (hreg p hp) hpad ?_
  intro pad' hi hr
  have hi' : pad'.interp = shapeN args p := hi
  dsimp only
  rw [hi', hs p hp]
  simp only [Res.bind_ok]
  rw [hr, coef_s]
  congr 2
  exact bl1 fun m hm => by ring

/-- C37, `vec_01_ns_bry`: adds `∫ N_m s` over the boundary (`mag` and `un` are the magnitude and the unit normal vector, see C32). -/
theorem C37_vec_01_ns_bry (a : Vec) (args : CommonArgs) (fnS : Nat → (Nat → ℝ) → (Nat → ℝ) → Res ℝ) (s : Nat → ℝ) (mag : (Nat → ℝ) → ℝ) (un : Nat → Nat → ℝ)
    (hgeo : args.pad.kind.ndim + 1 = args.pad.spaceNdim) (hsize : args.ii0 + args.pad.kind.nnode ≤ a.dim)
    (hreg : ∀ p < args.gauss.npoint, ∃ p0, args.pad.calcNormalVector args.pad.spaceNdim (args.gauss.coords p) = .ok (mag (args.gauss.coords p), un p, p0))
    (hs : ∀ p < args.gauss.npoint, fnS p (un p) (shapeN args p) = .ok (s p)) :
    ∃ a' pad', vec01NsBry a args fnS = (a', .ok pad') ∧
      IsBlockSum1 a a' args.clear args.ii0 args.pad.kind.nnode (fun m => quadrature args mag fun p => shapeN args p m * s p) := by
  unfold vec01NsBry
  dsimp only
  rw [if_neg (by omega), if_neg (by omega), if_neg (by omega)]
  refine runVec_block' (fun pad => SameGeo pad args.pad) args.pad.kind.nnode 1 (by omega)
    (fun p m _ => factor args mag p * (shapeN args p m * s p)) (SameGeo.refl _) (by omega)
    (fun k => by rw [Nat.div_one]; rfl) ?_
  intro p hp pad hpad
  obtain ⟨p0, hn⟩ := hreg p hp
  refine step_nrm hn hpad ?_
  intro pad' hi hr
  have hi' : pad'.interp = shapeN args p := hi
  dsimp only
  rw [hi', hs p hp]
  simp only [Res.bind_ok]
  rw [hr, coef_s]
  congr 2
  exact bl1 fun m hm => by ring

/-- C37, `vec_02_nv`: adds `∫ N_m v_i` (entry `i + m·d` of the block). -/
theorem C37_vec_02_nv (hinv : InverseSpec inv) (b : Vec) (args : CommonArgs) (hd : SpaceOk args.pad) (fnV : Nat → (Nat → ℝ) → Res (Nat → ℝ)) (v : Nat → Nat → ℝ)
    (hsize : args.ii0 + args.pad.kind.nnode * args.pad.spaceNdim ≤ b.dim) (hreg : JacRegular inv args.pad args.gauss)
    (hs : ∀ p < args.gauss.npoint, fnV p (shapeN args p) = .ok (v p)) :
    ∃ b' pad', vec02Nv inv b args fnV = (b', .ok pad') ∧
      IsBlockSum1 b b' args.clear args.ii0 (args.pad.kind.nnode * args.pad.spaceNdim)
        (fun k => quadrature args (jacMeasure args.pad) fun p => shapeN args p (k / args.pad.spaceNdim) * v p (k % args.pad.spaceNdim)) := by
  unfold vec02Nv
  dsimp only
  rw [if_neg (by omega)]
  refine runVec_block' (fun pad => SameGeo pad args.pad) args.pad.kind.nnode args.pad.spaceNdim hsize
    (fun p m i => factor args (jacMeasure args.pad) p * (shapeN args p m * v p i)) (SameGeo.refl _) rfl (fun k => rfl) ?_
  intro p hp pad hpad
  refine step_jac hinv (hreg p hp) hpad ?_
  intro pad' hi hr
  have hi' : pad'.interp = shapeN args p := hi
  dsimp only
  rw [hi', hs p hp]
  simp only [Res.bind_ok]
  rw [hr, coef_v]
  congr 2
  exact bl1d hd (fun _ m hm => ⟨by ring, by ring⟩) (fun _ m hm => ⟨by ring, by ring, by ring⟩)

/-- C37, `vec_02_nv_bry`: adds `∫ N_m v_i` over the boundary. -/
theorem C37_vec_02_nv_bry (b : Vec) (args : CommonArgs) (hd : SpaceOk args.pad) (fnV : Nat → (Nat → ℝ) → (Nat → ℝ) → Res (Nat → ℝ)) (v : Nat → Nat → ℝ) (mag : (Nat → ℝ) → ℝ) (un : Nat → Nat → ℝ)
    (hgeo : args.pad.kind.ndim + 1 = args.pad.spaceNdim) (hsize : args.ii0 + args.pad.kind.nnode * args.pad.spaceNdim ≤ b.dim)
    (hreg : ∀ p < args.gauss.npoint, ∃ p0, args.pad.calcNormalVector args.pad.spaceNdim (args.gauss.coords p) = .ok (mag (args.gauss.coords p), un p, p0))
    (hs : ∀ p < args.gauss.npoint, fnV p (un p) (shapeN args p) = .ok (v p)) :
    ∃ b' pad', vec02NvBry b args fnV = (b', .ok pad') ∧
      IsBlockSum1 b b' args.clear args.ii0 (args.pad.kind.nnode * args.pad.spaceNdim)
        (fun k => quadrature args mag fun p => shapeN args p (k / args.pad.spaceNdim) * v p (k % args.pad.spaceNdim)) := by
  unfold vec02NvBry
  dsimp only
  rw [if_neg (by omega), if_neg (by omega), if_neg (by omega)]
  refine runVec_block' (fun pad => SameGeo pad args.pad) args.pad.kind.nnode args.pad.spaceNdim hsize
    (fun p m i => factor args mag p * (shapeN args p m * v p i)) (SameGeo.refl _) rfl (fun k => rfl) ?_
  intro p hp pad hpad
  obtain ⟨p0, hn⟩ := hreg p hp
  refine step_nrm hn hpad ?_
  intro pad' hi hr
  have hi' : pad'.interp = shapeN args p := hi
  dsimp only
  rw [hi', hs p hp]
  simp only [Res.bind_ok]
  rw [hr, coef_v]
  congr 2
  exact bl1d hd (fun _ m hm => ⟨by ring, by ring⟩) (fun _ m hm => ⟨by ring, by ring, by ring⟩)

/-- C37, `vec_03_bv`: adds `∫ w · ∇N_m`. -/
theorem C37_vec_03_bv (hinv : InverseSpec inv) (c : Vec) (args : CommonArgs) (hd : SpaceOk args.pad) (fnW : Nat → (Nat → ℝ) → (Nat → Nat → ℝ) → Res (Nat → ℝ)) (w : Nat → Nat → ℝ)
    (B : Nat → Nat → Nat → ℝ) (hsize : args.ii0 + args.pad.kind.nnode ≤ c.dim) (hreg : GradRegular inv args.pad args.gauss B)
    (hs : ∀ p < args.gauss.npoint, ∀ bb, Holds args.pad (B p) bb → fnW p (shapeN args p) bb = .ok (w p)) :
    ∃ c' pad', vec03Bv inv c args fnW = (c', .ok pad') ∧
      IsBlockSum1 c c' args.clear args.ii0 args.pad.kind.nnode
        (fun m => quadrature args (detJ args.pad) fun p => ∑ i ∈ Finset.range args.pad.spaceNdim, w p i * B p m i) := by
  unfold vec03Bv
  dsimp only
  rw [if_neg (by omega)]
  refine runVec_block' (fun pad => SameGeo pad args.pad) args.pad.kind.nnode 1 (by omega)
    (fun p m _ => factor args (detJ args.pad) p * ∑ i ∈ Finset.range args.pad.spaceNdim, w p i * B p m i) (SameGeo.refl _) (by omega)
    (fun k => by rw [Nat.div_one]; rfl) ?_
  intro p hp pad hpad
  refine step_grad hinv (hreg p hp) hpad ?_
  intro pad' hi hb hr
  have hi' : pad'.interp = shapeN args p := hi
  dsimp only
  rw [hi', hs p hp _ hb]
  simp only [Res.bind_ok]
  rw [hr, coef_v]
  congr 2
  rcases hd with hd | hd
  · rw [if_pos hd]
    refine bl1 fun m hm => ?_
    rw [hb m hm 0 (by omega), hb m hm 1 (by omega), hd]
    simp only [Finset.sum_range_succ, Finset.sum_range_zero]
    ring
  · rw [if_neg (by omega)]
    refine bl1 fun m hm => ?_
    rw [hb m hm 0 (by omega), hb m hm 1 (by omega), hb m hm 2 (by omega), hd]
    simp only [Finset.sum_range_succ, Finset.sum_range_zero]
    ring

/-- C37, `mat_01_nsn`: adds `∫ N_m s N_n`. -/
theorem C37_mat_01_nsn (hinv : InverseSpec inv) (kk : Mat) (args : CommonArgs) (fnS : Nat → (Nat → ℝ) → (Nat → Nat → ℝ) → Res ℝ) (s : Nat → ℝ)
    (B : Nat → Nat → Nat → ℝ) (hr : args.ii0 + args.pad.kind.nnode ≤ kk.nrow) (hc : args.jj0 + args.pad.kind.nnode ≤ kk.ncol) (hreg : GradRegular inv args.pad args.gauss B)
    (hs : ∀ p < args.gauss.npoint, ∀ bb, Holds args.pad (B p) bb → fnS p (shapeN args p) bb = .ok (s p)) :
    ∃ k' pad', mat01Nsn inv kk args fnS = (k', .ok pad') ∧
      IsBlockSum2 kk k' args.clear args.ii0 args.jj0 args.pad.kind.nnode args.pad.kind.nnode
        (fun m n => quadrature args (detJ args.pad) fun p => shapeN args p m * s p * shapeN args p n) := by
  unfold mat01Nsn
  dsimp only
  rw [if_neg (by omega), if_neg (by omega)]
  refine runMat_block' (fun pad => SameGeo pad args.pad) args.pad.kind.nnode 1 args.pad.kind.nnode 1 (by omega) (by omega)
    (fun p m a n b => factor args (detJ args.pad) p * (shapeN args p m * s p * shapeN args p n)) (SameGeo.refl _) (by omega) (by omega)
    (fun i j => by rw [Nat.div_one, Nat.div_one]; rfl) ?_
  intro p hp pad hpad
  refine step_grad hinv (hreg p hp) hpad ?_
  intro pad' hi hb hr
  have hi' : pad'.interp = shapeN args p := hi
  dsimp only
  rw [hi', hs p hp _ hb]
  simp only [Res.bind_ok]
  rw [hr, coef_s]
  congr 2
  exact bl2 fun m hm n hn => by ring

/-- C37, `mat_01_nsn_bry`: adds `∫ N_m s N_n` over the boundary. -/
theorem C37_mat_01_nsn_bry (kk : Mat) (args : CommonArgs) (fnS : Nat → (Nat → ℝ) → (Nat → ℝ) → Res ℝ) (s : Nat → ℝ) (mag : (Nat → ℝ) → ℝ) (un : Nat → Nat → ℝ)
    (hgeo : args.pad.kind.ndim + 1 = args.pad.spaceNdim) (hr : args.ii0 + args.pad.kind.nnode ≤ kk.nrow) (hc : args.jj0 + args.pad.kind.nnode ≤ kk.ncol)
    (hreg : ∀ p < args.gauss.npoint, ∃ p0, args.pad.calcNormalVector args.pad.spaceNdim (args.gauss.coords p) = .ok (mag (args.gauss.coords p), un p, p0))
    (hs : ∀ p < args.gauss.npoint, fnS p (un p) (shapeN args p) = .ok (s p)) :
    ∃ k' pad', mat01NsnBry kk args fnS = (k', .ok pad') ∧
      IsBlockSum2 kk k' args.clear args.ii0 args.jj0 args.pad.kind.nnode args.pad.kind.nnode
        (fun m n => quadrature args mag fun p => shapeN args p m * s p * shapeN args p n) := by
  unfold mat01NsnBry
  dsimp only
  rw [if_neg (by omega), if_neg (by omega), if_neg (by omega), if_neg (by omega)]
  refine runMat_block' (fun pad => SameGeo pad args.pad) args.pad.kind.nnode 1 args.pad.kind.nnode 1 (by omega) (by omega)
    (fun p m a n b => factor args mag p * (shapeN args p m * s p * shapeN args p n)) (SameGeo.refl _) (by omega) (by omega)
    (fun i j => by rw [Nat.div_one, Nat.div_one]; rfl) ?_
  intro p hp pad hpad
  obtain ⟨p0, hn⟩ := hreg p hp
  obtain ⟨p1, e1, e2, e3⟩ := (normal_geo hpad args.pad.spaceNdim (args.gauss.coords p)).1 _ _ _ hn
  rw [e1]
  refine ⟨p1, ?_, e2⟩
  have hi' : p1.interp = shapeN args p := e3
  have hr : radius p1 = radAt args.pad (args.gauss.coords p) := radius_geo e2 e3
  simp only [Res.bind_ok]
  rw [hi', hs p hp]
  simp only [Res.bind_ok]
  rw [hr, coef_s]
  congr 2
  exact bl2 fun m hm n hn => by ring

/-- C37, `mat_02_bvn`: adds `∫ (∇N_m · v) N_n`. -/
theorem C37_mat_02_bvn (hinv : InverseSpec inv) (kk : Mat) (args : CommonArgs) (hd : SpaceOk args.pad) (fnV : Nat → (Nat → ℝ) → (Nat → Nat → ℝ) → Res (Nat → ℝ)) (v : Nat → Nat → ℝ)
    (B : Nat → Nat → Nat → ℝ) (hr : args.ii0 + args.pad.kind.nnode ≤ kk.nrow) (hc : args.jj0 + args.pad.kind.nnode ≤ kk.ncol) (hreg : GradRegular inv args.pad args.gauss B)
    (hs : ∀ p < args.gauss.npoint, ∀ bb, Holds args.pad (B p) bb → fnV p (shapeN args p) bb = .ok (v p)) :
    ∃ k' pad', mat02Bvn inv kk args fnV = (k', .ok pad') ∧
      IsBlockSum2 kk k' args.clear args.ii0 args.jj0 args.pad.kind.nnode args.pad.kind.nnode
        (fun m n => quadrature args (detJ args.pad) fun p => (∑ i ∈ Finset.range args.pad.spaceNdim, B p m i * v p i) * shapeN args p n) := by
  unfold mat02Bvn
  dsimp only
  rw [if_neg (by omega), if_neg (by omega)]
  refine runMat_block' (fun pad => SameGeo pad args.pad) args.pad.kind.nnode 1 args.pad.kind.nnode 1 (by omega) (by omega)
    (fun p m a n b => factor args (detJ args.pad) p * ((∑ i ∈ Finset.range args.pad.spaceNdim, B p m i * v p i) * shapeN args p n)) (SameGeo.refl _) (by omega) (by omega)
    (fun i j => by rw [Nat.div_one, Nat.div_one]; rfl) ?_
  intro p hp pad hpad
  refine step_grad hinv (hreg p hp) hpad ?_
  intro pad' hi hb hr
  have hi' : pad'.interp = shapeN args p := hi
  dsimp only
  rw [hi', hs p hp _ hb]
  simp only [Res.bind_ok]
  rw [hr, coef_v]
  congr 2
  rcases hd with hd | hd
  · rw [if_pos hd]
    refine bl2 fun m hm n hn => ?_
    rw [hb m hm 0 (by omega), hb m hm 1 (by omega), hd]
    simp only [Finset.sum_range_succ, Finset.sum_range_zero]
    ring
  · rw [if_neg (by omega)]
    refine bl2 fun m hm n hn => ?_
    rw [hb m hm 0 (by omega), hb m hm 1 (by omega), hb m hm 2 (by omega), hd]
    simp only [Finset.sum_range_succ, Finset.sum_range_zero]
    ring

/-- C37, `mat_03_btb`: adds `∫ ∇N_m · T · ∇N_n` (`t` is the Mandel vector given by the callback). -/
theorem C37_mat_03_btb (hinv : InverseSpec inv) (kk : Mat) (args : CommonArgs) (hd : SpaceOk args.pad) (fnT : Nat → (Nat → ℝ) → (Nat → Nat → ℝ) → Res (Nat → ℝ)) (t : Nat → Nat → ℝ)
    (B : Nat → Nat → Nat → ℝ) (hr : args.ii0 + args.pad.kind.nnode ≤ kk.nrow) (hc : args.jj0 + args.pad.kind.nnode ≤ kk.ncol) (hreg : GradRegular inv args.pad args.gauss B)
    (hs : ∀ p < args.gauss.npoint, ∀ bb, Holds args.pad (B p) bb → fnT p (shapeN args p) bb = .ok (t p)) :
    ∃ k' pad', mat03Btb inv kk args fnT = (k', .ok pad') ∧
      IsBlockSum2 kk k' args.clear args.ii0 args.jj0 args.pad.kind.nnode args.pad.kind.nnode
        (fun m n => quadrature args (detJ args.pad) fun p => ∑ i ∈ Finset.range args.pad.spaceNdim, ∑ j ∈ Finset.range args.pad.spaceNdim, B p m i * tensor2 (t p) i j * B p n j) := by
  unfold mat03Btb
  dsimp only
  rw [if_neg (by omega), if_neg (by omega)]
  refine runMat_block' (fun pad => SameGeo pad args.pad) args.pad.kind.nnode 1 args.pad.kind.nnode 1 (by omega) (by omega)
    (fun p m a n b => factor args (detJ args.pad) p * ∑ i ∈ Finset.range args.pad.spaceNdim, ∑ j ∈ Finset.range args.pad.spaceNdim, B p m i * tensor2 (t p) i j * B p n j) (SameGeo.refl _) (by omega) (by omega)
    (fun i j => by rw [Nat.div_one, Nat.div_one]; rfl) ?_
  intro p hp pad hpad
  refine step_grad hinv (hreg p hp) hpad ?_
  intro pad' hi hb hr
  have hi' : pad'.interp = shapeN args p := hi
  dsimp only
  rw [hi', hs p hp _ hb]
  simp only [Res.bind_ok]
  rw [hr, coef_v]
  congr 2
  rcases hd with hd | hd
  · rw [if_pos hd]
    refine bl2 fun m hm n hn => ?_
    rw [hb m hm 0 (by omega), hb m hm 1 (by omega), hb n hn 0 (by omega), hb n hn 1 (by omega), hd]
    simp [Finset.sum_range_succ, tensor2, sqrt2, -mul_eq_mul_left_iff]
    ring
  · rw [if_neg (by omega)]
    refine bl2 fun m hm n hn => ?_
    rw [hb m hm 0 (by omega), hb m hm 1 (by omega), hb m hm 2 (by omega), hb n hn 0 (by omega), hb n hn 1 (by omega), hb n hn 2 (by omega), hd]
    simp [Finset.sum_range_succ, tensor2, sqrt2, -mul_eq_mul_left_iff]
    ring

/-- C37, `mat_08_ntn`: adds `∫ N_m T_ij N_n` at row `i + m·d` and column `j + n·d` of the block. -/
theorem C37_mat_08_ntn (hinv : InverseSpec inv) (kk : Mat) (args : CommonArgs) (hd : SpaceOk args.pad) (fnT : Nat → (Nat → ℝ) → (Nat → Nat → ℝ) → Res (Nat → ℝ)) (t : Nat → Nat → ℝ)
    (B : Nat → Nat → Nat → ℝ) (hr : args.ii0 + args.pad.kind.nnode * args.pad.spaceNdim ≤ kk.nrow) (hc : args.jj0 + args.pad.kind.nnode * args.pad.spaceNdim ≤ kk.ncol) (hreg : GradRegular inv args.pad args.gauss B)
    (hs : ∀ p < args.gauss.npoint, ∀ bb, Holds args.pad (B p) bb → fnT p (shapeN args p) bb = .ok (t p)) :
    ∃ k' pad', mat08Ntn inv kk args fnT = (k', .ok pad') ∧
      IsBlockSum2 kk k' args.clear args.ii0 args.jj0 (args.pad.kind.nnode * args.pad.spaceNdim) (args.pad.kind.nnode * args.pad.spaceNdim)
        (fun a b => quadrature args (detJ args.pad) fun p => shapeN args p (a / args.pad.spaceNdim) *
          tensor2 (t p) (a % args.pad.spaceNdim) (b % args.pad.spaceNdim) * shapeN args p (b / args.pad.spaceNdim)) := by
  unfold mat08Ntn
  dsimp only
  rw [if_neg (by omega), if_neg (by omega)]
  refine runMat_block' (fun pad => SameGeo pad args.pad) args.pad.kind.nnode args.pad.spaceNdim args.pad.kind.nnode args.pad.spaceNdim hr hc
    (fun p m a n b => factor args (detJ args.pad) p * (shapeN args p m * tensor2 (t p) a b * shapeN args p n)) (SameGeo.refl _) rfl rfl
    (fun i j => rfl) ?_
  intro p hp pad hpad
  refine step_grad hinv (hreg p hp) hpad ?_
  intro pad' hi hb hr
  have hi' : pad'.interp = shapeN args p := hi
  dsimp only
  rw [hi', hs p hp _ hb]
  simp only [Res.bind_ok]
  rw [hr, coef_v]
  congr 2
  rcases hd with hd | hd
  · rw [if_pos hd, hd]
    refine bl2_22 fun m hm n hn => ?_
    refine ⟨?_, ?_, ?_, ?_⟩ <;> (simp [tensor2, sqrt2]; ring)
  · rw [if_neg (by omega), hd]
    refine bl2_33 (fun m hm n hn => ?_) (fun m hm n hn => ?_) (fun m hm n hn => ?_) <;>
    refine ⟨?_, ?_, ?_⟩ <;> (simp [tensor2, sqrt2]; ring)

/-- C37, `mat_09_nvb`: adds `∫ N_m v_i ∂N_n/∂x_j` at row `i + m·d` and column `j + n·d` of the block. -/
theorem C37_mat_09_nvb (hinv : InverseSpec inv) (kk : Mat) (args : CommonArgs) (hd : SpaceOk args.pad) (fnV : Nat → (Nat → ℝ) → (Nat → Nat → ℝ) → Res (Nat → ℝ)) (v : Nat → Nat → ℝ)
    (B : Nat → Nat → Nat → ℝ) (hr : args.ii0 + args.pad.kind.nnode * args.pad.spaceNdim ≤ kk.nrow) (hc : args.jj0 + args.pad.kind.nnode * args.pad.spaceNdim ≤ kk.ncol) (hreg : GradRegular inv args.pad args.gauss B)
    (hs : ∀ p < args.gauss.npoint, ∀ bb, Holds args.pad (B p) bb → fnV p (shapeN args p) bb = .ok (v p)) :
    ∃ k' pad', mat09Nvb inv kk args fnV = (k', .ok pad') ∧
      IsBlockSum2 kk k' args.clear args.ii0 args.jj0 (args.pad.kind.nnode * args.pad.spaceNdim) (args.pad.kind.nnode * args.pad.spaceNdim)
        (fun a b => quadrature args (detJ args.pad) fun p => shapeN args p (a / args.pad.spaceNdim) *
          v p (a % args.pad.spaceNdim) * B p (b / args.pad.spaceNdim) (b % args.pad.spaceNdim)) := by
  unfold mat09Nvb
  dsimp only
  rw [if_neg (by omega), if_neg (by omega)]
  refine runMat_block' (fun pad => SameGeo pad args.pad) args.pad.kind.nnode args.pad.spaceNdim args.pad.kind.nnode args.pad.spaceNdim hr hc
    (fun p m a n b => factor args (detJ args.pad) p * (shapeN args p m * v p a * B p n b)) (SameGeo.refl _) rfl rfl
    (fun i j => rfl) ?_
  intro p hp pad hpad
  refine step_grad hinv (hreg p hp) hpad ?_
  intro pad' hi hb hr
  have hi' : pad'.interp = shapeN args p := hi
  dsimp only
  rw [hi', hs p hp _ hb]
  simp only [Res.bind_ok]
  rw [hr, coef_v]
  congr 2
  rcases hd with hd | hd
  · rw [if_pos hd, hd]
    refine bl2_22 fun m hm n hn => ?_
    rw [hb n hn 0 (by omega), hb n hn 1 (by omega)]
    refine ⟨?_, ?_, ?_, ?_⟩ <;> ring
  · rw [if_neg (by omega), hd]
    refine bl2_33 (fun m hm n hn => ?_) (fun m hm n hn => ?_) (fun m hm n hn => ?_) <;>
    rw [hb n hn 0 (by omega), hb n hn 1 (by omega), hb n hn 2 (by omega)] <;>
    refine ⟨?_, ?_, ?_⟩ <;> ring

end
end Gemlab.Props.Integ
