import Verif.Props.Exactness3

/-!
# C100, continued: straight edges (2D) and flat faces (3D)
-/
set_option linter.unusedVariables false
namespace Gemlab.Props.Integ
open Gemlab Gemlab.Integ Gemlab.Spec.Integ Gemlab.Scratchpad Gemlab.Analytical Gemlab.Spec.Analytical Gemlab.Spec.Exactness Gemlab.Exactness
open Gemlab.GaussSpec
noncomputable section

variable {args : CommonArgs} {b : Nat → ℝ} {A : Nat → Nat → ℝ}

theorem facet_measure {pad : Scratchpad} (hd : SpaceOk pad) (ha : AffineFacet pad b A) (ξ : Nat → ℝ) : sizeOfMap pad.spaceNdim (jac pad ξ) = sizeOfMap pad.spaceNdim A := by
  have e : ∀ i < pad.spaceNdim, ∀ j < pad.kind.ndim, jac pad ξ i j = A i j := fun i hi j hj =>
    Definite.jac_affine pad (b := b) (fun m hm => ha.coords m hm i hi) ξ hj
  have h1 := ha.facet
  rcases hd with hd | hd
  · unfold sizeOfMap
    rw [if_pos hd, if_pos hd, e 0 (by omega) 0 (by omega), e 1 (by omega) 0 (by omega)]
  · unfold sizeOfMap
    rw [if_neg (by omega), if_neg (by omega), e 0 (by omega) 0 (by omega), e 1 (by omega) 0 (by omega), e 2 (by omega) 0 (by omega),
      e 0 (by omega) 1 (by omega), e 1 (by omega) 1 (by omega), e 2 (by omega) 1 (by omega)]

theorem normal_measure {pad : Scratchpad} (hd : SpaceOk pad) (hf : pad.kind.ndim + 1 = pad.spaceNdim) (ξ : Nat → ℝ) :
    ∃ un p0, pad.calcNormalVector pad.spaceNdim ξ = .ok (sizeOfMap pad.spaceNdim (jac pad ξ), un, p0) := by
  unfold Scratchpad.calcNormalVector
  rw [if_neg (by omega), if_neg (by omega), if_neg (by omega)]
  rcases hd with hd | hd
  · dsimp only
    rw [if_pos (show (pad.fillJacobian ξ).spaceNdim = 2 from hd)]
    refine ⟨_, _, congrArg Res.ok (congrArg (Prod.mk · _) ?_)⟩
    unfold sizeOfMap
    rw [if_pos hd]
    refine congrArg Real.sqrt ?_
    change -jac pad ξ 1 0 * -jac pad ξ 1 0 + jac pad ξ 0 0 * jac pad ξ 0 0 = _
    ring
  · dsimp only
    rw [if_neg (show ¬ (pad.fillJacobian ξ).spaceNdim = 2 by change ¬ pad.spaceNdim = 2; omega)]
    refine ⟨_, _, congrArg Res.ok (congrArg (Prod.mk · _) ?_)⟩
    unfold sizeOfMap
    rw [if_neg (by omega)]
    simp only [pow_two]
    rfl

theorem facet_error (hg : GoodRule args) (hd : SpaceOk args.pad) (ha : AffineFacet args.pad b A) (c : ℝ) (φ ψ : PE)
    (hφ : InFamily args.pad.kind φ) (hψ : InFamily args.pad.kind ψ) {F : (Nat → ℝ) → ℝ} (hF : ∀ ξ, F ξ = c * (PE.eval ξ φ * PE.eval ξ ψ)) {f : Nat → ℝ}
    (hf : ∀ p < args.gauss.npoint, f p = F (args.gauss.coords p)) :
    |Spec.Integ.quadrature args (fun ξ => sizeOfMap args.pad.spaceNdim (jac args.pad ξ)) f - args.alpha * boundaryIntegral args.pad F| ≤
      tol * |args.alpha * sizeOfMap args.pad.spaceNdim A| * |c| := by
  obtain ⟨n, e, t, hr, ht, hgs, he⟩ := hg.table
  have hsome := some_mul (family_some hφ) (family_some hψ)
  have hi : boundaryIntegral args.pad F = sizeOfMap args.pad.spaceNdim A * c *
      refIntegral args.pad.kind.classOf (fun r s w => PE.eval (point r s w) φ * PE.eval (point r s w) ψ) := by
    have h1 := refIntegral_exprs args.pad.kind.classOf ({0} : Finset Nat) (fun _ => 1) (fun _ => φ * ψ) (fun _ _ => hsome)
    have h2 := refIntegral_exprs args.pad.kind.classOf ({0} : Finset Nat) (fun _ => sizeOfMap args.pad.spaceNdim A * c) (fun _ => φ * ψ) (fun _ _ => hsome)
    simp only [Finset.sum_singleton, one_mul, PE.eval_mul] at h1 h2
    rw [h1, ← h2]
    unfold boundaryIntegral
    congr 1
    funext r s w
    rw [facet_measure hd ha, hF]
    ring
  have hq : Spec.Integ.quadrature args (fun ξ => sizeOfMap args.pad.spaceNdim (jac args.pad ξ)) f = args.alpha * sizeOfMap args.pad.spaceNdim A * (c *
      ∑ p ∈ Finset.range t.toGauss.npoint, t.toGauss.weight p * (PE.eval (t.toGauss.coords p) φ * PE.eval (t.toGauss.coords p) ψ)) := by
    unfold Spec.Integ.quadrature factor
    rw [hg.plane]
    simp only [Bool.false_eq_true, if_false, mul_one, Finset.mul_sum]
    rw [← hgs]
    refine Finset.sum_congr rfl fun p hp => ?_
    rw [facet_measure hd ha, hf p (Finset.mem_range.1 hp), hF]
    ring
  have key := product_error hr he ht hφ hψ
  rw [hq, hi, show ∀ a m q i : ℝ, a * m * (c * q) - a * (m * c * i) = (a * m) * c * (q - i) from fun a m q i => by ring, abs_mul, abs_mul,
    show ∀ x y : ℝ, tol * x * y = x * y * tol from fun x y => by ring]
  exact mul_le_mul_of_nonneg_left key (mul_nonneg (abs_nonneg _) (abs_nonneg _))

/-- **C100, `vec_01_ns_bry`.** The callback may use the unit normal vector (which is constant on a flat facet). -/
theorem C100_vec_01_ns_bry (hd : SpaceOk args.pad) (hg : GoodRule args) (ha : AffineFacet args.pad b A) (a : Vec) (fn : Nat → (Nat → ℝ) → (Nat → ℝ) → Res ℝ) (s : ℝ)
    (hsize : args.ii0 + args.pad.kind.nnode ≤ a.dim)
    (hs : ∀ p < args.gauss.npoint, ∀ mag un p0, args.pad.calcNormalVector args.pad.spaceNdim (args.gauss.coords p) = .ok (mag, un, p0) → fn p un (shapeN args p) = .ok s) :
    ∃ a' p', vec01NsBry a args fn = (a', .ok p') ∧ ∀ m < args.pad.kind.nnode,
      |added1 args a a' (args.ii0 + m) - args.alpha * boundaryIntegral args.pad (fun ξ => N args.pad m ξ * s)| ≤ tol * |args.alpha * sizeOfMap args.pad.spaceNdim A| * |s| := by
  choose un p0 hn using fun p => normal_measure hd ha.facet (args.gauss.coords p)
  obtain ⟨a', p', e, h⟩ := C37_vec_01_ns_bry a args fn (fun _ => s) (fun ξ => sizeOfMap args.pad.spaceNdim (jac args.pad ξ)) un ha.facet hsize (fun p _ => ⟨_, hn p⟩)
    (fun p hp => hs p hp _ _ _ (hn p))
  refine ⟨a', p', e, fun m hm => ?_⟩
  rw [added1_eq h hm]
  exact facet_error hg hd ha s (Np args.pad.kind m) 1 (family_N hm) (family_one _) (fun ξ => by rw [PE.eval_one, mul_one, mul_comm]; rfl) (fun p _ => rfl)

/-- **C100, `vec_02_nv_bry`.** -/
theorem C100_vec_02_nv_bry (hd : SpaceOk args.pad) (hg : GoodRule args) (ha : AffineFacet args.pad b A) (a : Vec) (fn : Nat → (Nat → ℝ) → (Nat → ℝ) → Res (Nat → ℝ)) (v : Nat → ℝ)
    (hsize : args.ii0 + args.pad.kind.nnode * args.pad.spaceNdim ≤ a.dim)
    (hs : ∀ p < args.gauss.npoint, ∀ mag un p0, args.pad.calcNormalVector args.pad.spaceNdim (args.gauss.coords p) = .ok (mag, un, p0) → fn p un (shapeN args p) = .ok v) :
    ∃ a' p', vec02NvBry a args fn = (a', .ok p') ∧ ∀ m < args.pad.kind.nnode, ∀ i < args.pad.spaceNdim,
      |added1 args a a' (args.ii0 + (i + m * args.pad.spaceNdim)) - args.alpha * boundaryIntegral args.pad (fun ξ => N args.pad m ξ * v i)| ≤
        tol * |args.alpha * sizeOfMap args.pad.spaceNdim A| * |v i| := by
  choose un p0 hn using fun p => normal_measure hd ha.facet (args.gauss.coords p)
  obtain ⟨a', p', e, h⟩ := C37_vec_02_nv_bry a args hd fn (fun _ => v) (fun ξ => sizeOfMap args.pad.spaceNdim (jac args.pad ξ)) un ha.facet hsize (fun p _ => ⟨_, hn p⟩)
    (fun p hp => hs p hp _ _ _ (hn p))
  refine ⟨a', p', e, fun m hm i hi => ?_⟩
  rw [added1_eq h (digit_lt hm hi), digit_div hi, digit_mod hi]
  exact facet_error hg hd ha (v i) (Np args.pad.kind m) 1 (family_N hm) (family_one _) (fun ξ => by rw [PE.eval_one, mul_one, mul_comm]; rfl) (fun p _ => rfl)

/-- **C100, `mat_01_nsn_bry`.** -/
theorem C100_mat_01_nsn_bry (hd : SpaceOk args.pad) (hg : GoodRule args) (ha : AffineFacet args.pad b A) (k : Mat) (fn : Nat → (Nat → ℝ) → (Nat → ℝ) → Res ℝ) (s : ℝ)
    (hr : args.ii0 + args.pad.kind.nnode ≤ k.nrow) (hc : args.jj0 + args.pad.kind.nnode ≤ k.ncol)
    (hs : ∀ p < args.gauss.npoint, ∀ mag un p0, args.pad.calcNormalVector args.pad.spaceNdim (args.gauss.coords p) = .ok (mag, un, p0) → fn p un (shapeN args p) = .ok s) :
    ∃ k' p', mat01NsnBry k args fn = (k', .ok p') ∧ ∀ m < args.pad.kind.nnode, ∀ n < args.pad.kind.nnode,
      |added2 args k k' (args.ii0 + m) (args.jj0 + n) - args.alpha * boundaryIntegral args.pad (fun ξ => N args.pad m ξ * s * N args.pad n ξ)| ≤
        tol * |args.alpha * sizeOfMap args.pad.spaceNdim A| * |s| := by
  choose un p0 hn using fun p => normal_measure hd ha.facet (args.gauss.coords p)
  obtain ⟨k', p', e, h⟩ := C37_mat_01_nsn_bry k args fn (fun _ => s) (fun ξ => sizeOfMap args.pad.spaceNdim (jac args.pad ξ)) un ha.facet hr hc (fun p _ => ⟨_, hn p⟩)
    (fun p hp => hs p hp _ _ _ (hn p))
  refine ⟨k', p', e, fun m hm n hn' => ?_⟩
  rw [added2_eq h hm hn']
  exact facet_error hg hd ha s (Np args.pad.kind m) (Np args.pad.kind n) (family_N hm) (family_N hn') (fun ξ => by rw [N_eq, N_eq]; ring) (fun p _ => rfl)

/-- The hypotheses are met: a Lin3 edge from (0, 0) to (6, 8) with its default table, with a pressure (a callback that uses the normal vector). -/
example : let pad : Scratchpad := { referencePad .lin3 with spaceNdim := 2, xxt := fun i m => if i = 0 then 3 + 3 * Shapes.refCoord .lin3 m 0 else 4 + 4 * Shapes.refCoord .lin3 m 0 }
    let args := CommonArgs.new pad (GaussTable.new .lin3).toGauss
    let A : Nat → Nat → ℝ := fun i _ => if i = 0 then 3 else 4
    SpaceOk args.pad ∧ GoodRule args ∧ AffineFacet args.pad (fun i => if i = 0 then 3 else 4) A ∧ sizeOfMap args.pad.spaceNdim A = 5 ∧
      ∃ v : Nat → ℝ, v 0 = -4 / 5 ∧ v 1 = 3 / 5 ∧ ∀ p < args.gauss.npoint, ∀ mag un p0,
        args.pad.calcNormalVector args.pad.spaceNdim (args.gauss.coords p) = .ok (mag, un, p0) → un = v := by
  intro pad args A
  have m5 : sizeOfMap 2 A = 5 := by
    unfold sizeOfMap
    rw [if_pos rfl, show (A 0 0) ^ 2 + (A 1 0) ^ 2 = 5 ^ 2 by simp [A]; norm_num]
    exact Real.sqrt_sq (by norm_num)
  have af : AffineFacet pad (fun i => if i = 0 then 3 else 4) A := ⟨rfl, fun m _ i hi => by
    have hi : i < 2 := hi
    change (if i = 0 then _ else _) = _
    rw [show pad.kind.ndim = 1 from rfl, Finset.sum_range_one]
    interval_cases i <;> simp [A, pad, referencePad]⟩
  refine ⟨Or.inl rfl, C100_default args (by decide) rfl rfl, af, m5, fun i => if i = 0 then -4 / 5 else 3 / 5, by simp, by simp, fun p _ mag un p0 h => ?_⟩
  have e : ∀ i < 2, jac pad (args.gauss.coords p) i 0 = A i 0 := fun i hi => Definite.jac_affine pad (b := fun i => if i = 0 then 3 else 4) (fun m hm => af.coords m hm i hi) _
    (by decide)
  rw [normal_eq, if_neg (by intro h; exact h.2 rfl), if_neg (by intro h; exact absurd h.1 (by decide)), if_neg (by simp)] at h
  simp only [Res.ok.injEq, Prod.mk.injEq] at h
  rw [← h.2.1]
  have j0 : (args.pad.fillJacobian (args.gauss.coords p)).jacobian 0 0 = 3 := (e 0 (by decide)).trans (by simp [A])
  have j1 : (args.pad.fillJacobian (args.gauss.coords p)).jacobian 1 0 = 4 := (e 1 (by decide)).trans (by simp [A])
  have s5 : Real.sqrt (-4 * -4 + 3 * 3) = 5 := by rw [show (-4 * -4 + 3 * 3 : ℝ) = 5 ^ 2 by norm_num]; exact Real.sqrt_sq (by norm_num)
  funext i
  unfold nrmOut
  rw [if_pos (show args.pad.spaceNdim = 2 from rfl)]
  dsimp only
  rw [j0, j1, s5]
  simp

end
end Gemlab.Props.Integ
