import Verif.Proofs.Exactness2
import Verif.Proofs.Definite2
import Verif.Props.Integ3

/-!
# C100: the tables of integration points are good enough for the element matrices

On an affine image of the reference element (straight triangles and tetrahedra with nodes at the regular places, parallelograms, parallelepipeds) and for constant coefficients, the
vectors and matrices computed with a rule of sufficient degree (`Enough`) are the integrals over the element, up to the decimals of the tables.
The default rules are sufficient, except for Qua17.
-/
set_option linter.unusedVariables false
namespace Gemlab.Props.Integ
open Gemlab Gemlab.Integ Gemlab.Spec.Integ Gemlab.Scratchpad Gemlab.Analytical Gemlab.Spec.Analytical Gemlab.Spec.Exactness Gemlab.Exactness
open Gemlab.GaussSpec
noncomputable section

variable {args : CommonArgs} {inv : MatInverse} {b : Nat → ℝ} {A M : Nat → Nat → ℝ} {B : (Nat → ℝ) → Nat → Nat → ℝ}

/-! ## Elements with a constant Jacobian -/

theorem image_jac {pad : Scratchpad} (ha : AffineImage pad b A M) (ξ : Nat → ℝ) {i j : Nat} (hi : i < pad.spaceNdim) (hj : j < pad.spaceNdim) : jac pad ξ i j = A i j := by
  refine Definite.jac_affine pad (b := b) (fun m hm => ?_) ξ (by rw [ha.fills]; exact hj)
  rw [ha.coords m hm i hi, ha.fills]

theorem image_det {pad : Scratchpad} (ha : AffineImage pad b A M) (ξ : Nat → ℝ) : detJ pad ξ = detN pad.spaceNdim A := by
  unfold detJ detN
  congr 1
  ext i j
  exact image_jac ha ξ i.2 j.2

theorem image_grad {pad : Scratchpad} (ha : AffineImage pad b A M) (hB : IsGradientField pad B) (ξ : Nat → ℝ) {m : Nat} (hm : m < pad.kind.nnode) {l : Nat}
    (hl : l < pad.spaceNdim) : B ξ m l = ∑ a ∈ Finset.range pad.spaceNdim, PE.eval ξ (Dp pad.kind m a) * M a l := by
  have e : ∀ a < pad.spaceNdim, PE.eval ξ (Dp pad.kind m a) = ∑ i ∈ Finset.range pad.spaceNdim, B ξ m i * A i a := by
    intro a hal
    rw [show PE.eval ξ (Dp pad.kind m a) = Shapes.calcDeriv pad.kind ξ m a from rfl, ← hB ξ m hm a hal]
    exact Finset.sum_congr rfl fun i hi => by rw [image_jac ha ξ (Finset.mem_range.1 hi) hal]
  rw [Finset.sum_congr rfl fun a hal => by rw [e a (Finset.mem_range.1 hal), Finset.sum_mul], Finset.sum_comm]
  rw [Finset.sum_congr rfl fun i hi => by
    rw [Finset.sum_congr rfl fun a _ => mul_assoc _ _ _, ← Finset.mul_sum, ha.inverse i (Finset.mem_range.1 hi) l hl]]
  simp [hl]

/-- Sums of products of two functions of the family. -/
theorem sum_error (hg : GoodRule args) (ha : AffineImage args.pad b A M) {ι : Type} (S : Finset ι) (c : ι → ℝ) (φ ψ : ι → PE)
    (hφ : ∀ i ∈ S, InFamily args.pad.kind (φ i)) (hψ : ∀ i ∈ S, InFamily args.pad.kind (ψ i)) {F : (Nat → ℝ) → ℝ}
    (hF : ∀ ξ, F ξ = ∑ i ∈ S, c i * (PE.eval ξ (φ i) * PE.eval ξ (ψ i))) {μ : (Nat → ℝ) → ℝ} (hμ : ∀ ξ, μ ξ = detN args.pad.spaceNdim A) {f : Nat → ℝ}
    (hf : ∀ p < args.gauss.npoint, f p = F (args.gauss.coords p)) :
    |Spec.Integ.quadrature args μ f - args.alpha * elementIntegral args.pad F| ≤ tol * |args.alpha * detN args.pad.spaceNdim A| * ∑ i ∈ S, |c i| := by
  obtain ⟨n, e, t, hr, ht, hgs, he⟩ := hg.table
  have hdet := image_det ha
  have hsome : ∀ i ∈ S, (φ i * ψ i).norm.isSome = true := fun i hi => some_mul (family_some (hφ i hi)) (family_some (hψ i hi))
  have hint : ∀ i ∈ S, (intPE args.pad.kind.classOf (φ i * ψ i) : ℝ) =
      refIntegral args.pad.kind.classOf (fun r s w => PE.eval (point r s w) (φ i) * PE.eval (point r s w) (ψ i)) := by
    intro i hi
    have := refIntegral_exprs args.pad.kind.classOf ({0} : Finset Nat) (fun _ => 1) (fun _ => φ i * ψ i) (fun _ _ => hsome i hi)
    simp only [Finset.sum_singleton, one_mul, PE.eval_mul] at this
    exact this.symm
  rw [element_exprs hdet S c (fun i => φ i * ψ i) hsome (f := F) (fun ξ => by rw [hF]; rfl), ← mul_assoc]
  have hq : Spec.Integ.quadrature args μ f = args.alpha * detN args.pad.spaceNdim A * ∑ i ∈ S, c i *
      ∑ p ∈ Finset.range t.toGauss.npoint, t.toGauss.weight p * (PE.eval (t.toGauss.coords p) (φ i) * PE.eval (t.toGauss.coords p) (ψ i)) := by
    unfold Spec.Integ.quadrature factor
    rw [hg.plane, Finset.mul_sum]
    simp only [Bool.false_eq_true, if_false, mul_one, Finset.mul_sum]
    rw [Finset.sum_comm, ← hgs]
    refine Finset.sum_congr rfl fun p hp => ?_
    rw [hμ, hf p (Finset.mem_range.1 hp), hF, Finset.mul_sum]
    exact Finset.sum_congr rfl fun i _ => by ring
  rw [hq, ← mul_sub, ← Finset.sum_sub_distrib, abs_mul, mul_comm tol, mul_assoc]
  refine mul_le_mul_of_nonneg_left ?_ (abs_nonneg _)
  refine le_trans (Finset.abs_sum_le_sum_abs _ _) ?_
  rw [Finset.mul_sum]
  refine Finset.sum_le_sum fun i hi => ?_
  rw [← mul_sub, abs_mul, mul_comm tol, hint i hi]
  exact mul_le_mul_of_nonneg_left (product_error hr he ht (hφ i hi) (hψ i hi)) (abs_nonneg _)

theorem shape_eval {p m : Nat} : shapeN args p m = PE.eval (args.gauss.coords p) (Np args.pad.kind m) := rfl

theorem gradRegular_field (hB : IsGradientField args.pad B) (hok : ∀ p < args.gauss.npoint, ∃ r, args.pad.calcGradient inv (args.gauss.coords p) = .ok r) :
    GradRegular inv args.pad args.gauss (fun p => B (args.gauss.coords p)) := fun p hp => ⟨hok p hp, hB _⟩

/-! ## The routines -/

/-- **C100, `vec_01_ns`.** -/
theorem C100_vec_01_ns (hinv : InverseSpec inv) (hg : GoodRule args) (ha : AffineImage args.pad b A M) (a : Vec) (fn : Nat → (Nat → ℝ) → Res ℝ) (s : ℝ)
    (hsize : args.ii0 + args.pad.kind.nnode ≤ a.dim) (hreg : JacRegular inv args.pad args.gauss) (hs : ∀ p < args.gauss.npoint, fn p (shapeN args p) = .ok s) :
    ∃ a' p', vec01Ns inv a args fn = (a', .ok p') ∧ ∀ m < args.pad.kind.nnode,
      |added1 args a a' (args.ii0 + m) - args.alpha * elementIntegral args.pad (fun ξ => N args.pad m ξ * s)| ≤ tol * |args.alpha * detN args.pad.spaceNdim A| * |s| := by
  obtain ⟨a', p', e, h⟩ := C37_vec_01_ns hinv a args fn (fun _ => s) hsize hreg hs
  refine ⟨a', p', e, fun m hm => ?_⟩
  rw [added1_eq h hm]
  have := sum_error hg ha ({0} : Finset Nat) (fun _ => s) (fun _ => Np args.pad.kind m) (fun _ => 1) (fun _ _ => family_N hm) (fun _ _ => family_one _)
    (F := fun ξ => N args.pad m ξ * s) (fun ξ => by rw [Finset.sum_singleton, PE.eval_one, mul_one, mul_comm]; rfl)
    (μ := jacMeasure args.pad) (fun ξ => by unfold jacMeasure; rw [if_pos ha.fills, image_det ha]) (f := fun p => shapeN args p m * s) (fun p _ => rfl)
  rwa [Finset.sum_singleton] at this

/-- **C100, `vec_02_nv`.** -/
theorem C100_vec_02_nv (hinv : InverseSpec inv) (hd : SpaceOk args.pad) (hg : GoodRule args) (ha : AffineImage args.pad b A M) (a : Vec) (fn : Nat → (Nat → ℝ) → Res (Nat → ℝ))
    (v : Nat → ℝ) (hsize : args.ii0 + args.pad.kind.nnode * args.pad.spaceNdim ≤ a.dim) (hreg : JacRegular inv args.pad args.gauss)
    (hs : ∀ p < args.gauss.npoint, fn p (shapeN args p) = .ok v) :
    ∃ a' p', vec02Nv inv a args fn = (a', .ok p') ∧ ∀ m < args.pad.kind.nnode, ∀ i < args.pad.spaceNdim,
      |added1 args a a' (args.ii0 + (i + m * args.pad.spaceNdim)) - args.alpha * elementIntegral args.pad (fun ξ => N args.pad m ξ * v i)| ≤
        tol * |args.alpha * detN args.pad.spaceNdim A| * |v i| := by
  obtain ⟨a', p', e, h⟩ := C37_vec_02_nv hinv a args hd fn (fun _ => v) hsize hreg hs
  refine ⟨a', p', e, fun m hm i hi => ?_⟩
  rw [added1_eq h (digit_lt hm hi), digit_div hi, digit_mod hi]
  have := sum_error hg ha ({0} : Finset Nat) (fun _ => v i) (fun _ => Np args.pad.kind m) (fun _ => 1) (fun _ _ => family_N hm) (fun _ _ => family_one _)
    (F := fun ξ => N args.pad m ξ * v i) (fun ξ => by rw [Finset.sum_singleton, PE.eval_one, mul_one, mul_comm]; rfl)
    (μ := jacMeasure args.pad) (fun ξ => by unfold jacMeasure; rw [if_pos ha.fills, image_det ha]) (f := fun p => shapeN args p m * v i) (fun p _ => rfl)
  rwa [Finset.sum_singleton] at this

/-- Linear expressions in the gradient of a shape function. -/
theorem grad_error (hg : GoodRule args) (ha : AffineImage args.pad b A M) (hB : IsGradientField args.pad B) {m : Nat} (hm : m < args.pad.kind.nnode) (w : Nat → ℝ) {g : PE}
    (hgf : InFamily args.pad.kind g) {F : (Nat → ℝ) → ℝ} (hF : ∀ ξ, F ξ = (∑ i ∈ Finset.range args.pad.spaceNdim, w i * B ξ m i) * PE.eval ξ g)
    {f : Nat → ℝ} (hf : ∀ p < args.gauss.npoint, f p = F (args.gauss.coords p)) :
    |Spec.Integ.quadrature args (detJ args.pad) f - args.alpha * elementIntegral args.pad F| ≤
      tol * |args.alpha * detN args.pad.spaceNdim A| * ∑ a ∈ Finset.range args.pad.spaceNdim, |∑ i ∈ Finset.range args.pad.spaceNdim, w i * M a i| := by
  refine sum_error hg ha (Finset.range args.pad.spaceNdim) (fun a => ∑ i ∈ Finset.range args.pad.spaceNdim, w i * M a i) (fun a => Dp args.pad.kind m a) (fun _ => g)
    (fun a hal => family_D hm (by rw [ha.fills]; exact Finset.mem_range.1 hal)) (fun _ _ => hgf) (fun ξ => ?_) (image_det ha) hf
  rw [hF, Finset.sum_congr rfl fun i hi => by rw [image_grad ha hB ξ hm (Finset.mem_range.1 hi), Finset.mul_sum], Finset.sum_comm, Finset.sum_mul]
  refine Finset.sum_congr rfl fun a _ => ?_
  rw [Finset.sum_mul, Finset.sum_mul]
  exact Finset.sum_congr rfl fun i _ => by ring

/-- **C100, `vec_03_bv`.** -/
theorem C100_vec_03_bv (hinv : InverseSpec inv) (hd : SpaceOk args.pad) (hg : GoodRule args) (ha : AffineImage args.pad b A M) (hB : IsGradientField args.pad B) (c : Vec)
    (fn : Nat → (Nat → ℝ) → (Nat → Nat → ℝ) → Res (Nat → ℝ)) (w : Nat → ℝ) (hsize : args.ii0 + args.pad.kind.nnode ≤ c.dim)
    (hok : ∀ p < args.gauss.npoint, ∃ r, args.pad.calcGradient inv (args.gauss.coords p) = .ok r)
    (hs : ∀ p < args.gauss.npoint, ∀ bb, Holds args.pad (B (args.gauss.coords p)) bb → fn p (shapeN args p) bb = .ok w) :
    ∃ c' p', vec03Bv inv c args fn = (c', .ok p') ∧ ∀ m < args.pad.kind.nnode,
      |added1 args c c' (args.ii0 + m) - args.alpha * elementIntegral args.pad (fun ξ => ∑ i ∈ Finset.range args.pad.spaceNdim, w i * B ξ m i)| ≤
        tol * |args.alpha * detN args.pad.spaceNdim A| * ∑ a ∈ Finset.range args.pad.spaceNdim, |∑ i ∈ Finset.range args.pad.spaceNdim, w i * M a i| := by
  obtain ⟨c', p', e, h⟩ := C37_vec_03_bv hinv c args hd fn (fun _ => w) (fun p => B (args.gauss.coords p)) hsize (gradRegular_field hB hok) hs
  refine ⟨c', p', e, fun m hm => ?_⟩
  rw [added1_eq h hm]
  exact grad_error hg ha hB hm w (family_one _) (fun ξ => by rw [PE.eval_one, mul_one]) (fun p _ => rfl)

/-- **C100, `vec_04_bt`.** `t` holds the components of a constant stress. -/
theorem C100_vec_04_bt (hinv : InverseSpec inv) (hd : SpaceOk args.pad) (hg : GoodRule args) (ha : AffineImage args.pad b A M) (hB : IsGradientField args.pad B) (c : Vec)
    (fn : Nat → (Nat → ℝ) → (Nat → Nat → ℝ) → Res (Nat → ℝ)) (t : Nat → ℝ) (hsize : args.ii0 + args.pad.kind.nnode * args.pad.spaceNdim ≤ c.dim)
    (hok : ∀ p < args.gauss.npoint, ∃ r, args.pad.calcGradient inv (args.gauss.coords p) = .ok r)
    (hs : ∀ p < args.gauss.npoint, ∀ bb, Holds args.pad (B (args.gauss.coords p)) bb → fn p (shapeN args p) bb = .ok t) :
    ∃ c' p', vec04Bt inv c args fn = (c', .ok p') ∧ ∀ m < args.pad.kind.nnode, ∀ i < args.pad.spaceNdim,
      |added1 args c c' (args.ii0 + (i + m * args.pad.spaceNdim)) -
          args.alpha * elementIntegral args.pad (fun ξ => ∑ l ∈ Finset.range args.pad.spaceNdim, tensor2 t i l * B ξ m l)| ≤
        tol * |args.alpha * detN args.pad.spaceNdim A| * ∑ a ∈ Finset.range args.pad.spaceNdim, |∑ l ∈ Finset.range args.pad.spaceNdim, tensor2 t i l * M a l| := by
  obtain ⟨c', p', e, h⟩ := C37_vec_04_bt hinv c args hd (fun hax => absurd hax (by simp [hg.plane])) fn (fun _ => t) (fun p => B (args.gauss.coords p)) hsize
    (gradRegular_field hB hok) hs
  refine ⟨c', p', e, fun m hm i hi => ?_⟩
  rw [added1_eq h (digit_lt hm hi), digit_div hi, digit_mod hi]
  refine grad_error hg ha hB hm (fun l => tensor2 t i l) (family_one _) (fun ξ => by rw [PE.eval_one, mul_one]) (fun p _ => ?_)
  rw [strain_plane hg.plane hd _ p m i (by rcases hd with hd | hd <;> omega) (fun k l => tensor2 t k l)]
  exact Finset.sum_congr rfl fun l _ => mul_comm _ _

/-- **C100, `mat_01_nsn`.** -/
theorem C100_mat_01_nsn (hinv : InverseSpec inv) (hg : GoodRule args) (ha : AffineImage args.pad b A M) (hB : IsGradientField args.pad B) (k : Mat)
    (fn : Nat → (Nat → ℝ) → (Nat → Nat → ℝ) → Res ℝ) (s : ℝ) (hr : args.ii0 + args.pad.kind.nnode ≤ k.nrow) (hc : args.jj0 + args.pad.kind.nnode ≤ k.ncol)
    (hok : ∀ p < args.gauss.npoint, ∃ r, args.pad.calcGradient inv (args.gauss.coords p) = .ok r)
    (hs : ∀ p < args.gauss.npoint, ∀ bb, Holds args.pad (B (args.gauss.coords p)) bb → fn p (shapeN args p) bb = .ok s) :
    ∃ k' p', mat01Nsn inv k args fn = (k', .ok p') ∧ ∀ m < args.pad.kind.nnode, ∀ n < args.pad.kind.nnode,
      |added2 args k k' (args.ii0 + m) (args.jj0 + n) - args.alpha * elementIntegral args.pad (fun ξ => N args.pad m ξ * s * N args.pad n ξ)| ≤
        tol * |args.alpha * detN args.pad.spaceNdim A| * |s| := by
  obtain ⟨k', p', e, h⟩ := C37_mat_01_nsn hinv k args fn (fun _ => s) (fun p => B (args.gauss.coords p)) hr hc (gradRegular_field hB hok) hs
  refine ⟨k', p', e, fun m hm n hn => ?_⟩
  rw [added2_eq h hm hn]
  have := sum_error hg ha ({0} : Finset Nat) (fun _ => s) (fun _ => Np args.pad.kind m) (fun _ => Np args.pad.kind n) (fun _ _ => family_N hm) (fun _ _ => family_N hn)
    (F := fun ξ => N args.pad m ξ * s * N args.pad n ξ) (fun ξ => by rw [Finset.sum_singleton, N_eq, N_eq]; ring) (image_det ha)
    (f := fun p => shapeN args p m * s * shapeN args p n) (fun p _ => rfl)
  rwa [Finset.sum_singleton] at this

/-- **C100, `mat_02_bvn`.** -/
theorem C100_mat_02_bvn (hinv : InverseSpec inv) (hd : SpaceOk args.pad) (hg : GoodRule args) (ha : AffineImage args.pad b A M) (hB : IsGradientField args.pad B) (k : Mat)
    (fn : Nat → (Nat → ℝ) → (Nat → Nat → ℝ) → Res (Nat → ℝ)) (v : Nat → ℝ) (hr : args.ii0 + args.pad.kind.nnode ≤ k.nrow) (hc : args.jj0 + args.pad.kind.nnode ≤ k.ncol)
    (hok : ∀ p < args.gauss.npoint, ∃ r, args.pad.calcGradient inv (args.gauss.coords p) = .ok r)
    (hs : ∀ p < args.gauss.npoint, ∀ bb, Holds args.pad (B (args.gauss.coords p)) bb → fn p (shapeN args p) bb = .ok v) :
    ∃ k' p', mat02Bvn inv k args fn = (k', .ok p') ∧ ∀ m < args.pad.kind.nnode, ∀ n < args.pad.kind.nnode,
      |added2 args k k' (args.ii0 + m) (args.jj0 + n) -
          args.alpha * elementIntegral args.pad (fun ξ => (∑ i ∈ Finset.range args.pad.spaceNdim, B ξ m i * v i) * N args.pad n ξ)| ≤
        tol * |args.alpha * detN args.pad.spaceNdim A| * ∑ a ∈ Finset.range args.pad.spaceNdim, |∑ i ∈ Finset.range args.pad.spaceNdim, v i * M a i| := by
  obtain ⟨k', p', e, h⟩ := C37_mat_02_bvn hinv k args hd fn (fun _ => v) (fun p => B (args.gauss.coords p)) hr hc (gradRegular_field hB hok) hs
  refine ⟨k', p', e, fun m hm n hn => ?_⟩
  rw [added2_eq h hm hn]
  exact grad_error hg ha hB hm v (family_N hn) (fun ξ => by rw [N_eq]; congr 1; exact Finset.sum_congr rfl fun i _ => mul_comm _ _) (fun p _ => rfl)

/-- Bilinear expressions in the gradients of two shape functions. -/
theorem grad2_error (hg : GoodRule args) (ha : AffineImage args.pad b A M) (hB : IsGradientField args.pad B) {m n : Nat} (hm : m < args.pad.kind.nnode)
    (hn : n < args.pad.kind.nnode) (T : Nat → Nat → ℝ) {F : (Nat → ℝ) → ℝ}
    (hF : ∀ ξ, F ξ = ∑ i ∈ Finset.range args.pad.spaceNdim, ∑ j ∈ Finset.range args.pad.spaceNdim, B ξ m i * T i j * B ξ n j)
    {f : Nat → ℝ} (hf : ∀ p < args.gauss.npoint, f p = F (args.gauss.coords p)) :
    |Spec.Integ.quadrature args (detJ args.pad) f - args.alpha * elementIntegral args.pad F| ≤
      tol * |args.alpha * detN args.pad.spaceNdim A| * ∑ a ∈ Finset.range args.pad.spaceNdim, ∑ c ∈ Finset.range args.pad.spaceNdim,
        |∑ i ∈ Finset.range args.pad.spaceNdim, ∑ j ∈ Finset.range args.pad.spaceNdim, M a i * T i j * M c j| := by
  have := sum_error hg ha (Finset.range args.pad.spaceNdim ×ˢ Finset.range args.pad.spaceNdim)
    (fun x => ∑ i ∈ Finset.range args.pad.spaceNdim, ∑ j ∈ Finset.range args.pad.spaceNdim, M x.1 i * T i j * M x.2 j)
    (fun x => Dp args.pad.kind m x.1) (fun x => Dp args.pad.kind n x.2)
    (fun x hx => family_D hm (by rw [ha.fills]; exact Finset.mem_range.1 (Finset.mem_product.1 hx).1))
    (fun x hx => family_D hn (by rw [ha.fills]; exact Finset.mem_range.1 (Finset.mem_product.1 hx).2)) (F := F) (fun ξ => ?_) (image_det ha) hf
  · rwa [Finset.sum_product] at this
  rw [hF, Finset.sum_product]
  have e : ∀ i ∈ Finset.range args.pad.spaceNdim, ∀ j ∈ Finset.range args.pad.spaceNdim, B ξ m i * T i j * B ξ n j =
      ∑ a ∈ Finset.range args.pad.spaceNdim, ∑ c ∈ Finset.range args.pad.spaceNdim,
        (M a i * T i j * M c j) * (PE.eval ξ (Dp args.pad.kind m a) * PE.eval ξ (Dp args.pad.kind n c)) := by
    intro i hi j hj
    rw [image_grad ha hB ξ hm (Finset.mem_range.1 hi), image_grad ha hB ξ hn (Finset.mem_range.1 hj), Finset.sum_mul, Finset.sum_mul_sum]
    exact Finset.sum_congr rfl fun a _ => Finset.sum_congr rfl fun c _ => by ring
  rw [Finset.sum_congr rfl fun i hi => Finset.sum_congr rfl fun j hj => e i hi j hj]
  simp only [Finset.sum_mul]
  rw [Finset.sum_congr rfl fun i _ => Finset.sum_comm, Finset.sum_comm]
  refine Finset.sum_congr rfl fun a _ => ?_
  rw [Finset.sum_congr rfl fun i _ => Finset.sum_comm, Finset.sum_comm]

/-- **C100, `mat_03_btb`.** `t` holds the components of a constant conductivity tensor. -/
theorem C100_mat_03_btb (hinv : InverseSpec inv) (hd : SpaceOk args.pad) (hg : GoodRule args) (ha : AffineImage args.pad b A M) (hB : IsGradientField args.pad B) (k : Mat)
    (fn : Nat → (Nat → ℝ) → (Nat → Nat → ℝ) → Res (Nat → ℝ)) (t : Nat → ℝ) (hr : args.ii0 + args.pad.kind.nnode ≤ k.nrow) (hc : args.jj0 + args.pad.kind.nnode ≤ k.ncol)
    (hok : ∀ p < args.gauss.npoint, ∃ r, args.pad.calcGradient inv (args.gauss.coords p) = .ok r)
    (hs : ∀ p < args.gauss.npoint, ∀ bb, Holds args.pad (B (args.gauss.coords p)) bb → fn p (shapeN args p) bb = .ok t) :
    ∃ k' p', mat03Btb inv k args fn = (k', .ok p') ∧ ∀ m < args.pad.kind.nnode, ∀ n < args.pad.kind.nnode,
      |added2 args k k' (args.ii0 + m) (args.jj0 + n) - args.alpha * elementIntegral args.pad (fun ξ =>
          ∑ i ∈ Finset.range args.pad.spaceNdim, ∑ j ∈ Finset.range args.pad.spaceNdim, B ξ m i * tensor2 t i j * B ξ n j)| ≤
        tol * |args.alpha * detN args.pad.spaceNdim A| * ∑ a ∈ Finset.range args.pad.spaceNdim, ∑ c ∈ Finset.range args.pad.spaceNdim,
          |∑ i ∈ Finset.range args.pad.spaceNdim, ∑ j ∈ Finset.range args.pad.spaceNdim, M a i * tensor2 t i j * M c j| := by
  obtain ⟨k', p', e, h⟩ := C37_mat_03_btb hinv k args hd fn (fun _ => t) (fun p => B (args.gauss.coords p)) hr hc (gradRegular_field hB hok) hs
  refine ⟨k', p', e, fun m hm n hn => ?_⟩
  rw [added2_eq h hm hn]
  exact grad2_error hg ha hB hm hn (tensor2 t) (fun ξ => rfl) (fun p _ => rfl)

/-- **C100, `mat_08_ntn`.** -/
theorem C100_mat_08_ntn (hinv : InverseSpec inv) (hd : SpaceOk args.pad) (hg : GoodRule args) (ha : AffineImage args.pad b A M) (hB : IsGradientField args.pad B) (k : Mat)
    (fn : Nat → (Nat → ℝ) → (Nat → Nat → ℝ) → Res (Nat → ℝ)) (t : Nat → ℝ) (hr : args.ii0 + args.pad.kind.nnode * args.pad.spaceNdim ≤ k.nrow)
    (hc : args.jj0 + args.pad.kind.nnode * args.pad.spaceNdim ≤ k.ncol)
    (hok : ∀ p < args.gauss.npoint, ∃ r, args.pad.calcGradient inv (args.gauss.coords p) = .ok r)
    (hs : ∀ p < args.gauss.npoint, ∀ bb, Holds args.pad (B (args.gauss.coords p)) bb → fn p (shapeN args p) bb = .ok t) :
    ∃ k' p', mat08Ntn inv k args fn = (k', .ok p') ∧ ∀ m < args.pad.kind.nnode, ∀ i < args.pad.spaceNdim, ∀ n < args.pad.kind.nnode, ∀ j < args.pad.spaceNdim,
      |added2 args k k' (args.ii0 + (i + m * args.pad.spaceNdim)) (args.jj0 + (j + n * args.pad.spaceNdim)) -
          args.alpha * elementIntegral args.pad (fun ξ => N args.pad m ξ * tensor2 t i j * N args.pad n ξ)| ≤
        tol * |args.alpha * detN args.pad.spaceNdim A| * |tensor2 t i j| := by
  obtain ⟨k', p', e, h⟩ := C37_mat_08_ntn hinv k args hd fn (fun _ => t) (fun p => B (args.gauss.coords p)) hr hc (gradRegular_field hB hok) hs
  refine ⟨k', p', e, fun m hm i hi n hn j hj => ?_⟩
  rw [added2_eq h (digit_lt hm hi) (digit_lt hn hj), digit_div hi, digit_mod hi, digit_div hj, digit_mod hj]
  have := sum_error hg ha ({0} : Finset Nat) (fun _ => tensor2 t i j) (fun _ => Np args.pad.kind m) (fun _ => Np args.pad.kind n) (fun _ _ => family_N hm) (fun _ _ => family_N hn)
    (F := fun ξ => N args.pad m ξ * tensor2 t i j * N args.pad n ξ) (fun ξ => by rw [Finset.sum_singleton, N_eq, N_eq]; ring) (image_det ha)
    (f := fun p => shapeN args p m * tensor2 t i j * shapeN args p n) (fun p _ => rfl)
  rwa [Finset.sum_singleton] at this

/-- **C100, `mat_09_nvb`.** -/
theorem C100_mat_09_nvb (hinv : InverseSpec inv) (hd : SpaceOk args.pad) (hg : GoodRule args) (ha : AffineImage args.pad b A M) (hB : IsGradientField args.pad B) (k : Mat)
    (fn : Nat → (Nat → ℝ) → (Nat → Nat → ℝ) → Res (Nat → ℝ)) (v : Nat → ℝ) (hr : args.ii0 + args.pad.kind.nnode * args.pad.spaceNdim ≤ k.nrow)
    (hc : args.jj0 + args.pad.kind.nnode * args.pad.spaceNdim ≤ k.ncol)
    (hok : ∀ p < args.gauss.npoint, ∃ r, args.pad.calcGradient inv (args.gauss.coords p) = .ok r)
    (hs : ∀ p < args.gauss.npoint, ∀ bb, Holds args.pad (B (args.gauss.coords p)) bb → fn p (shapeN args p) bb = .ok v) :
    ∃ k' p', mat09Nvb inv k args fn = (k', .ok p') ∧ ∀ m < args.pad.kind.nnode, ∀ i < args.pad.spaceNdim, ∀ n < args.pad.kind.nnode, ∀ j < args.pad.spaceNdim,
      |added2 args k k' (args.ii0 + (i + m * args.pad.spaceNdim)) (args.jj0 + (j + n * args.pad.spaceNdim)) -
          args.alpha * elementIntegral args.pad (fun ξ => N args.pad m ξ * v i * B ξ n j)| ≤
        tol * |args.alpha * detN args.pad.spaceNdim A| * ∑ a ∈ Finset.range args.pad.spaceNdim, |v i * M a j| := by
  obtain ⟨k', p', e, h⟩ := C37_mat_09_nvb hinv k args hd fn (fun _ => v) (fun p => B (args.gauss.coords p)) hr hc (gradRegular_field hB hok) hs
  refine ⟨k', p', e, fun m hm i hi n hn j hj => ?_⟩
  rw [added2_eq h (digit_lt hm hi) (digit_lt hn hj), digit_div hi, digit_mod hi, digit_div hj, digit_mod hj]
  refine sum_error hg ha (Finset.range args.pad.spaceNdim) (fun a => v i * M a j) (fun _ => Np args.pad.kind m) (fun a => Dp args.pad.kind n a) (fun _ _ => family_N hm)
    (fun a hal => family_D hn (by rw [ha.fills]; exact Finset.mem_range.1 hal)) (fun ξ => ?_) (image_det ha) (fun p _ => rfl)
  rw [image_grad ha hB ξ hn hj, N_eq, Finset.mul_sum]
  exact Finset.sum_congr rfl fun a _ => by ring

/-- **C100, `mat_10_bdb`.** The stiffness matrix; `energy` of the rows of `M` (the gradients of the reference coordinates) measures the size of the coefficients. -/
theorem C100_mat_10_bdb (hinv : InverseSpec inv) (hd : SpaceOk args.pad) (hg : GoodRule args) (ha : AffineImage args.pad b A M) (hB : IsGradientField args.pad B) (k : Mat)
    (fn : Nat → (Nat → ℝ) → (Nat → Nat → ℝ) → Res (Nat → Nat → ℝ)) (D : Nat → Nat → ℝ) (hr : args.ii0 + args.pad.kind.nnode * args.pad.spaceNdim ≤ k.nrow)
    (hc : args.jj0 + args.pad.kind.nnode * args.pad.spaceNdim ≤ k.ncol)
    (hok : ∀ p < args.gauss.npoint, ∃ r, args.pad.calcGradient inv (args.gauss.coords p) = .ok r)
    (hs : ∀ p < args.gauss.npoint, ∀ bb, Holds args.pad (B (args.gauss.coords p)) bb → fn p (shapeN args p) bb = .ok D) :
    ∃ k' p', mat10Bdb inv k args fn = (k', .ok p') ∧ ∀ m < args.pad.kind.nnode, ∀ i < args.pad.spaceNdim, ∀ n < args.pad.kind.nnode, ∀ j < args.pad.spaceNdim,
      |added2 args k k' (args.ii0 + (i + m * args.pad.spaceNdim)) (args.jj0 + (j + n * args.pad.spaceNdim)) -
          args.alpha * elementIntegral args.pad (fun ξ => energy args.pad.spaceNdim (B ξ) D m i n j)| ≤
        tol * |args.alpha * detN args.pad.spaceNdim A| * ∑ a ∈ Finset.range args.pad.spaceNdim, ∑ c ∈ Finset.range args.pad.spaceNdim,
          |energy args.pad.spaceNdim M D a i c j| := by
  obtain ⟨k', p', e, h⟩ := C37_mat_10_bdb hinv k args hd (fun hax => absurd hax (by simp [hg.plane])) fn (fun _ => D) (fun p => B (args.gauss.coords p)) hr hc
    (gradRegular_field hB hok) hs
  refine ⟨k', p', e, fun m hm i hi n hn j hj => ?_⟩
  have hi3 : i < 3 := by rcases hd with hd | hd <;> omega
  have hj3 : j < 3 := by rcases hd with hd | hd <;> omega
  have en : ∀ (C : Nat → Nat → ℝ) (m n : Nat), energy args.pad.spaceNdim C D m i n j =
      ∑ l ∈ Finset.range args.pad.spaceNdim, ∑ l' ∈ Finset.range args.pad.spaceNdim, C m l * tensor4 D i l j l' * C n l' := by
    intro C m n
    rw [energy_eq hd C D m n hi3 hj3]
    refine Finset.sum_congr rfl fun l _ => ?_
    rw [Finset.mul_sum]
    exact Finset.sum_congr rfl fun l' _ => by ring
  rw [added2_eq h (digit_lt hm hi) (digit_lt hn hj), digit_div hi, digit_mod hi, digit_div hj, digit_mod hj]
  have := grad2_error hg ha hB hm hn (fun l l' => tensor4 D i l j l') (F := fun ξ => energy args.pad.spaceNdim (B ξ) D m i n j) (fun ξ => en _ _ _)
    (f := fun p => stiffness args (B (args.gauss.coords p)) D p m i n j) (fun p _ => ?_)
  · simp only [en]
    simpa only [en] using this
  · have es : ∀ m i k l, strainOp args (B (args.gauss.coords p)) p m i k l = gradOp args.pad.spaceNdim (B (args.gauss.coords p)) m i k l := by
      intro m i k l
      unfold strainOp gradOp
      simp [hg.plane]
    unfold stiffness energy
    simp only [es]

end
end Gemlab.Props.Integ
