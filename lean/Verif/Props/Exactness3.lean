import Verif.Props.Exactness2

/-!
# C100, continued: the coupling matrices (two kinds of shape functions on the same cell)
-/
set_option linter.unusedVariables false
namespace Gemlab.Props.Integ
open Gemlab Gemlab.Integ Gemlab.Spec.Integ Gemlab.Scratchpad Gemlab.Analytical Gemlab.Spec.Analytical Gemlab.Spec.Exactness Gemlab.Exactness
open Gemlab.GaussSpec
noncomputable section

variable {args : CommonArgs} {padB : Scratchpad} {inv : MatInverse} {b : Nat → ℝ} {A M : Nat → Nat → ℝ} {B Bb : (Nat → ℝ) → Nat → Nat → ℝ}

/-- **C100, `mat_04_nsb`.** -/
theorem C100_mat_04_nsb (hinv : InverseSpec inv) (hd : SpaceOk args.pad) (hg : GoodRule args) (ha : AffineImage args.pad b A M) (hB : IsGradientField args.pad B)
    (hb : Coupled args padB) (k : Mat) (fn : Nat → (Nat → ℝ) → (Nat → ℝ) → (Nat → Nat → ℝ) → Res ℝ) (s : ℝ)
    (hr : args.ii0 + padB.kind.nnode ≤ k.nrow) (hc : args.jj0 + args.pad.kind.nnode * args.pad.spaceNdim ≤ k.ncol)
    (hok : ∀ p < args.gauss.npoint, ∃ r, args.pad.calcGradient inv (args.gauss.coords p) = .ok r)
    (hs : ∀ p < args.gauss.npoint, ∀ bb, Holds args.pad (B (args.gauss.coords p)) bb →
      fn p (Shapes.calcInterp padB.kind (args.gauss.coords p)) (shapeN args p) bb = .ok s) :
    ∃ k' p', mat04Nsb inv k padB args fn = (k', .ok p') ∧ ∀ m < padB.kind.nnode, ∀ n < args.pad.kind.nnode, ∀ j < args.pad.spaceNdim,
      |added2 args k k' (args.ii0 + m) (args.jj0 + (j + n * args.pad.spaceNdim)) -
          args.alpha * elementIntegral args.pad (fun ξ => N padB m ξ * s * B ξ n j)| ≤
        tol * |args.alpha * detN args.pad.spaceNdim A| * ∑ a ∈ Finset.range args.pad.spaceNdim, |s * M a j| := by
  obtain ⟨k', p', e, h⟩ := C37_mat_04_nsb hinv k padB args hd fn (fun _ => s) (fun p => B (args.gauss.coords p)) hr hc (gradRegular_field hB hok) hs
  refine ⟨k', p', e, fun m hm n hn j hj => ?_⟩
  rw [added2_eq h hm (digit_lt hn hj), digit_div hj, digit_mod hj]
  have := grad_error hg ha hB hn (fun i => if i = j then s else 0) (g := Np padB.kind m) (family_lower hb.cell hb.lower (family_N hm))
    (F := fun ξ => N padB m ξ * s * B ξ n j) (fun ξ => by simp [hj, N_eq]; ring)
    (f := fun p => Shapes.calcInterp padB.kind (args.gauss.coords p) m * s * B (args.gauss.coords p) n j) (fun p _ => rfl)
  simpa [hj] using this

/-- **C100, `mat_05_btn`.** The second element is the image of its reference element under the same map. -/
theorem C100_mat_05_btn (hinv : InverseSpec inv) (hd : SpaceOk args.pad) (hg : GoodRule args) (ha : AffineImage args.pad b A M) (hB : IsGradientField args.pad B)
    (hb : Coupled args padB) (hab : AffineImage padB b A M) (hBb : IsGradientField padB Bb) (k : Mat)
    (fn : Nat → (Nat → Nat → ℝ) → (Nat → ℝ) → (Nat → Nat → ℝ) → Res (Nat → ℝ)) (t : Nat → ℝ)
    (hr : args.ii0 + padB.kind.nnode ≤ k.nrow) (hc : args.jj0 + args.pad.kind.nnode * args.pad.spaceNdim ≤ k.ncol)
    (hok : ∀ p < args.gauss.npoint, ∃ r, args.pad.calcGradient inv (args.gauss.coords p) = .ok r)
    (hokb : ∀ p < args.gauss.npoint, ∃ r, padB.calcGradient inv (args.gauss.coords p) = .ok r)
    (hs : ∀ p < args.gauss.npoint, ∀ gb bb, Holds padB (Bb (args.gauss.coords p)) gb → Holds args.pad (B (args.gauss.coords p)) bb → fn p gb (shapeN args p) bb = .ok t) :
    ∃ k' p', mat05Btn inv k padB args fn = (k', .ok p') ∧ ∀ m < padB.kind.nnode, ∀ n < args.pad.kind.nnode, ∀ j < args.pad.spaceNdim,
      |added2 args k k' (args.ii0 + m) (args.jj0 + (j + n * args.pad.spaceNdim)) -
          args.alpha * elementIntegral args.pad (fun ξ => (∑ i ∈ Finset.range args.pad.spaceNdim, Bb ξ m i * tensor2 t i j) * N args.pad n ξ)| ≤
        tol * |args.alpha * detN args.pad.spaceNdim A| * ∑ a ∈ Finset.range args.pad.spaceNdim, |∑ i ∈ Finset.range args.pad.spaceNdim, M a i * tensor2 t i j| := by
  obtain ⟨k', p', e, h⟩ := C37_mat_05_btn hinv k padB args hd hb.space fn (fun _ => t) (fun p => B (args.gauss.coords p)) (fun p => Bb (args.gauss.coords p)) hr hc
    (gradRegular_field hB hok) (fun p hp => ⟨hokb p hp, hBb _⟩) hs
  refine ⟨k', p', e, fun m hm n hn j hj => ?_⟩
  rw [added2_eq h hm (digit_lt hn hj), digit_div hj, digit_mod hj]
  refine sum_error hg ha (Finset.range args.pad.spaceNdim) (fun a => ∑ i ∈ Finset.range args.pad.spaceNdim, M a i * tensor2 t i j) (fun a => Dp padB.kind m a)
    (fun _ => Np args.pad.kind n)
    (fun a hal => family_lower hb.cell hb.lower (family_D hm (by rw [hab.fills, hb.space]; exact Finset.mem_range.1 hal))) (fun _ _ => family_N hn) (fun ξ => ?_) (image_det ha)
    (fun p _ => rfl)
  rw [N_eq, Finset.sum_congr rfl fun i hi => by
    rw [image_grad hab hBb ξ hm (by rw [hb.space]; exact Finset.mem_range.1 hi), hb.space, Finset.sum_mul], Finset.sum_comm, Finset.sum_mul]
  refine Finset.sum_congr rfl fun a _ => ?_
  rw [Finset.sum_mul, Finset.sum_mul]
  exact Finset.sum_congr rfl fun i _ => by ring

/-- **C100, `mat_06_nvn`.** -/
theorem C100_mat_06_nvn (hinv : InverseSpec inv) (hd : SpaceOk args.pad) (hg : GoodRule args) (ha : AffineImage args.pad b A M) (hB : IsGradientField args.pad B)
    (hb : Coupled args padB) (k : Mat) (fn : Nat → (Nat → ℝ) → (Nat → Nat → ℝ) → (Nat → ℝ) → Res (Nat → ℝ)) (v : Nat → ℝ)
    (hr : args.ii0 + args.pad.kind.nnode * args.pad.spaceNdim ≤ k.nrow) (hc : args.jj0 + padB.kind.nnode ≤ k.ncol)
    (hok : ∀ p < args.gauss.npoint, ∃ r, args.pad.calcGradient inv (args.gauss.coords p) = .ok r)
    (hs : ∀ p < args.gauss.npoint, ∀ bb, Holds args.pad (B (args.gauss.coords p)) bb →
      fn p (shapeN args p) bb (Shapes.calcInterp padB.kind (args.gauss.coords p)) = .ok v) :
    ∃ k' p', mat06Nvn inv k args padB fn = (k', .ok p') ∧ ∀ m < args.pad.kind.nnode, ∀ i < args.pad.spaceNdim, ∀ n < padB.kind.nnode,
      |added2 args k k' (args.ii0 + (i + m * args.pad.spaceNdim)) (args.jj0 + n) -
          args.alpha * elementIntegral args.pad (fun ξ => N args.pad m ξ * v i * N padB n ξ)| ≤ tol * |args.alpha * detN args.pad.spaceNdim A| * |v i| := by
  obtain ⟨k', p', e, h⟩ := C37_mat_06_nvn hinv k args padB hd fn (fun _ => v) (fun p => B (args.gauss.coords p)) hr hc (gradRegular_field hB hok) hs
  refine ⟨k', p', e, fun m hm i hi n hn => ?_⟩
  rw [added2_eq h (digit_lt hm hi) hn, digit_div hi, digit_mod hi]
  have := sum_error hg ha ({0} : Finset Nat) (fun _ => v i) (fun _ => Np args.pad.kind m) (fun _ => Np padB.kind n) (fun _ _ => family_N hm)
    (fun _ _ => family_lower hb.cell hb.lower (family_N hn)) (F := fun ξ => N args.pad m ξ * v i * N padB n ξ)
    (fun ξ => by rw [Finset.sum_singleton, N_eq, N_eq]; ring) (image_det ha)
    (f := fun p => shapeN args p m * v i * Shapes.calcInterp padB.kind (args.gauss.coords p) n) (fun p _ => rfl)
  rwa [Finset.sum_singleton] at this

/-- **C100, `mat_07_bsn`.** -/
theorem C100_mat_07_bsn (hinv : InverseSpec inv) (hd : SpaceOk args.pad) (hg : GoodRule args) (ha : AffineImage args.pad b A M) (hB : IsGradientField args.pad B)
    (hb : Coupled args padB) (k : Mat) (fn : Nat → (Nat → ℝ) → (Nat → Nat → ℝ) → (Nat → ℝ) → Res ℝ) (s : ℝ)
    (hr : args.ii0 + args.pad.kind.nnode * args.pad.spaceNdim ≤ k.nrow) (hc : args.jj0 + padB.kind.nnode ≤ k.ncol)
    (hok : ∀ p < args.gauss.npoint, ∃ r, args.pad.calcGradient inv (args.gauss.coords p) = .ok r)
    (hs : ∀ p < args.gauss.npoint, ∀ bb, Holds args.pad (B (args.gauss.coords p)) bb →
      fn p (shapeN args p) bb (Shapes.calcInterp padB.kind (args.gauss.coords p)) = .ok s) :
    ∃ k' p', mat07Bsn inv k args padB fn = (k', .ok p') ∧ ∀ m < args.pad.kind.nnode, ∀ i < args.pad.spaceNdim, ∀ n < padB.kind.nnode,
      |added2 args k k' (args.ii0 + (i + m * args.pad.spaceNdim)) (args.jj0 + n) -
          args.alpha * elementIntegral args.pad (fun ξ => B ξ m i * s * N padB n ξ)| ≤
        tol * |args.alpha * detN args.pad.spaceNdim A| * ∑ a ∈ Finset.range args.pad.spaceNdim, |s * M a i| := by
  obtain ⟨k', p', e, h⟩ := C37_mat_07_bsn hinv k args padB hd fn (fun _ => s) (fun p => B (args.gauss.coords p)) hr hc (gradRegular_field hB hok) hs
  refine ⟨k', p', e, fun m hm i hi n hn => ?_⟩
  rw [added2_eq h (digit_lt hm hi) hn, digit_div hi, digit_mod hi]
  have := grad_error hg ha hB hm (fun l => if l = i then s else 0) (g := Np padB.kind n) (family_lower hb.cell hb.lower (family_N hn))
    (F := fun ξ => B ξ m i * s * N padB n ξ) (fun ξ => by simp only [ite_mul, zero_mul, Finset.sum_ite_eq', Finset.mem_range, hi, if_true, N_eq]; ring)
    (f := fun p => B (args.gauss.coords p) m i * s * Shapes.calcInterp padB.kind (args.gauss.coords p) n) (fun p _ => rfl)
  simpa [hi] using this

/-- The hypotheses are met: Qua8 with Qua4 and Tet10 with Tet4, reference elements, default tables. -/
example (k k' : GeoKind) (hk : (k = .qua8 ∧ k' = .qua4) ∨ (k = .tet10 ∧ k' = .tet4)) :
    let args := CommonArgs.new (referencePad k) (GaussTable.new k).toGauss
    let padB := referencePad k'
    let I : Nat → Nat → ℝ := fun i j => if i = j then 1 else 0
    GoodRule args ∧ Coupled args padB ∧ AffineImage args.pad (fun _ => 0) I I ∧ AffineImage padB (fun _ => 0) I I ∧ (∃ B, IsGradientField args.pad B) ∧
      (∃ Bb, IsGradientField padB Bb) ∧ ∀ p < args.gauss.npoint, (∃ r, args.pad.calcGradient exactInverse (args.gauss.coords p) = .ok r) ∧
        ∃ r, padB.calcGradient exactInverse (args.gauss.coords p) = .ok r := by
  intro args padB I
  have im : ∀ k : GeoKind, AffineImage (referencePad k) (fun _ => 0) I I := fun k =>
    ⟨rfl, fun m _ i hi => by
      have hi : i < k.ndim := hi
      simp [Scratchpad.X, referencePad, I, hi], fun i hi j hj => by
      have hi : i < k.ndim := hi
      have hj : j < k.ndim := hj
      simp [referencePad, I, hi]
      omega⟩
  have gr : ∀ k : GeoKind, 2 ≤ k.ndim → ∃ B, IsGradientField (referencePad k) B := fun k hd => by
    obtain ⟨_, _, _, B, _, h⟩ := C100_affine (referencePad k) rfl ⟨fun _ => 0, I, fun m hm i hi => (im k).coords m hm i hi⟩ (ξ₀ := fun _ => 0)
      (by rw [detJ_reference k hd]; exact one_ne_zero)
    exact ⟨B, h⟩
  have ok : ∀ (k : GeoKind) ξ, ∃ r, (referencePad k).calcGradient exactInverse ξ = .ok r := fun k ξ => by
    obtain ⟨⟨d, q, hq⟩, _⟩ := exists_gradient k ξ (fun _ => 0)
    exact ⟨_, hq⟩
  rcases hk with ⟨rfl, rfl⟩ | ⟨rfl, rfl⟩
  · exact ⟨C100_default args (by decide) rfl rfl, ⟨rfl, by decide, rfl⟩, im _, im _, gr _ (by decide), gr _ (by decide), fun p _ => ⟨ok _ _, ok _ _⟩⟩
  · exact ⟨C100_default args (by decide) rfl rfl, ⟨rfl, by decide, rfl⟩, im _, im _, gr _ (by decide), gr _ (by decide), fun p _ => ⟨ok _ _, ok _ _⟩⟩

end
end Gemlab.Props.Integ
