import Verif.Props.Exactness4

/-!
# C100, continued: axisymmetric analyses

The factor of axisymmetric integrals is the radius, i.e. the first coordinate. In the vector routines it multiplies one shape function (or derivative), and it is itself a combination of
shape functions: the same rules are sufficient.
-/
set_option linter.unusedVariables false
namespace Gemlab.Props.Integ
open Gemlab Gemlab.Integ Gemlab.Spec.Integ Gemlab.Scratchpad Gemlab.Analytical Gemlab.Spec.Analytical Gemlab.Spec.Exactness Gemlab.Exactness
open Gemlab.GaussSpec
noncomputable section

variable {args : CommonArgs} {inv : MatInverse} {b : Nat → ℝ} {A M : Nat → Nat → ℝ} {B : (Nat → ℝ) → Nat → Nat → ℝ}

theorem axi_quadrature (hax : args.axisymmetric = true) (μ : (Nat → ℝ) → ℝ) (f : Nat → ℝ) :
    Spec.Integ.quadrature args μ f = Spec.Integ.quadrature { args with axisymmetric := false } μ (fun p => radiusAt args p * f p) := by
  unfold Spec.Integ.quadrature factor
  refine Finset.sum_congr rfl fun p _ => ?_
  rw [hax]
  simp only [if_true, Bool.false_eq_true, if_false, mul_one]
  ring

theorem coord_eq (pad : Scratchpad) (ξ : Nat → ℝ) : coord pad 0 ξ = ∑ n ∈ Finset.range pad.kind.nnode, pad.X n 0 * PE.eval ξ (Np pad.kind n) := rfl

theorem radius_coord (p : Nat) : radiusAt args p = coord args.pad 0 (args.gauss.coords p) :=
  Finset.sum_congr rfl fun m _ => mul_comm _ _

/-- **C100, axisymmetric `vec_01_ns`.** -/
theorem C100_axisymmetric_vec_01_ns (hinv : InverseSpec inv) (hax : args.axisymmetric = true) (hg : GoodRule { args with axisymmetric := false })
    (ha : AffineImage args.pad b A M) (a : Vec) (fn : Nat → (Nat → ℝ) → Res ℝ) (s : ℝ)
    (hsize : args.ii0 + args.pad.kind.nnode ≤ a.dim) (hreg : JacRegular inv args.pad args.gauss) (hs : ∀ p < args.gauss.npoint, fn p (shapeN args p) = .ok s) :
    ∃ a' p', vec01Ns inv a args fn = (a', .ok p') ∧ ∀ m < args.pad.kind.nnode,
      |added1 args a a' (args.ii0 + m) - args.alpha * elementIntegral args.pad (fun ξ => N args.pad m ξ * s * coord args.pad 0 ξ)| ≤
        tol * |args.alpha * detN args.pad.spaceNdim A| * ∑ n ∈ Finset.range args.pad.kind.nnode, |args.pad.X n 0 * s| := by
  obtain ⟨a', p', e, h⟩ := C37_vec_01_ns hinv a args fn (fun _ => s) hsize hreg hs
  refine ⟨a', p', e, fun m hm => ?_⟩
  rw [added1_eq h hm, axi_quadrature hax]
  refine sum_error (args := { args with axisymmetric := false }) hg ha (Finset.range args.pad.kind.nnode) (fun n => args.pad.X n 0 * s) (fun _ => Np args.pad.kind m)
    (fun n => Np args.pad.kind n) (fun _ _ => family_N hm) (fun n hn => family_N (Finset.mem_range.1 hn)) (fun ξ => ?_)
    (μ := jacMeasure args.pad) (fun ξ => by unfold jacMeasure; rw [if_pos ha.fills, image_det ha]) (fun p _ => ?_)
  · rw [N_eq, coord_eq, Finset.mul_sum]
    exact Finset.sum_congr rfl fun n _ => by ring
  · rw [radius_coord, mul_comm]
    rfl

/-- **C100, axisymmetric `vec_02_nv`.** -/
theorem C100_axisymmetric_vec_02_nv (hinv : InverseSpec inv) (hd : SpaceOk args.pad) (hax : args.axisymmetric = true) (hg : GoodRule { args with axisymmetric := false })
    (ha : AffineImage args.pad b A M) (a : Vec) (fn : Nat → (Nat → ℝ) → Res (Nat → ℝ)) (v : Nat → ℝ)
    (hsize : args.ii0 + args.pad.kind.nnode * args.pad.spaceNdim ≤ a.dim) (hreg : JacRegular inv args.pad args.gauss)
    (hs : ∀ p < args.gauss.npoint, fn p (shapeN args p) = .ok v) :
    ∃ a' p', vec02Nv inv a args fn = (a', .ok p') ∧ ∀ m < args.pad.kind.nnode, ∀ i < args.pad.spaceNdim,
      |added1 args a a' (args.ii0 + (i + m * args.pad.spaceNdim)) - args.alpha * elementIntegral args.pad (fun ξ => N args.pad m ξ * v i * coord args.pad 0 ξ)| ≤
        tol * |args.alpha * detN args.pad.spaceNdim A| * ∑ n ∈ Finset.range args.pad.kind.nnode, |args.pad.X n 0 * v i| := by
  obtain ⟨a', p', e, h⟩ := C37_vec_02_nv hinv a args hd fn (fun _ => v) hsize hreg hs
  refine ⟨a', p', e, fun m hm i hi => ?_⟩
  rw [added1_eq h (digit_lt hm hi), digit_div hi, digit_mod hi, axi_quadrature hax]
  refine sum_error (args := { args with axisymmetric := false }) hg ha (Finset.range args.pad.kind.nnode) (fun n => args.pad.X n 0 * v i) (fun _ => Np args.pad.kind m)
    (fun n => Np args.pad.kind n) (fun _ _ => family_N hm) (fun n hn => family_N (Finset.mem_range.1 hn)) (fun ξ => ?_)
    (μ := jacMeasure args.pad) (fun ξ => by unfold jacMeasure; rw [if_pos ha.fills, image_det ha]) (fun p _ => ?_)
  · rw [N_eq, coord_eq, Finset.mul_sum]
    exact Finset.sum_congr rfl fun n _ => by ring
  · rw [radius_coord, mul_comm]
    rfl

/-- A combination of the components of the gradient of a shape function, times the radius. -/
theorem grad_radius (ha : AffineImage args.pad b A M) (hB : IsGradientField args.pad B) {m : Nat} (hm : m < args.pad.kind.nnode) (w : Nat → ℝ) (ξ : Nat → ℝ) :
    (∑ i ∈ Finset.range args.pad.spaceNdim, w i * B ξ m i) * coord args.pad 0 ξ =
      ∑ x ∈ Finset.range args.pad.spaceNdim ×ˢ Finset.range args.pad.kind.nnode,
        ((∑ i ∈ Finset.range args.pad.spaceNdim, w i * M x.1 i) * args.pad.X x.2 0) * (PE.eval ξ (Dp args.pad.kind m x.1) * PE.eval ξ (Np args.pad.kind x.2)) := by
  rw [Finset.sum_product, coord_eq, Finset.sum_congr rfl fun i hi => by rw [image_grad ha hB ξ hm (Finset.mem_range.1 hi), Finset.mul_sum], Finset.sum_comm, Finset.sum_mul_sum]
  refine Finset.sum_congr rfl fun a _ => Finset.sum_congr rfl fun n _ => ?_
  simp only [Finset.sum_mul]
  exact Finset.sum_congr rfl fun i _ => by ring

/-- **C100, axisymmetric `vec_03_bv`.** -/
theorem C100_axisymmetric_vec_03_bv (hinv : InverseSpec inv) (hd : SpaceOk args.pad) (hax : args.axisymmetric = true) (hg : GoodRule { args with axisymmetric := false })
    (ha : AffineImage args.pad b A M) (hB : IsGradientField args.pad B) (c : Vec) (fn : Nat → (Nat → ℝ) → (Nat → Nat → ℝ) → Res (Nat → ℝ)) (w : Nat → ℝ)
    (hsize : args.ii0 + args.pad.kind.nnode ≤ c.dim) (hok : ∀ p < args.gauss.npoint, ∃ r, args.pad.calcGradient inv (args.gauss.coords p) = .ok r)
    (hs : ∀ p < args.gauss.npoint, ∀ bb, Holds args.pad (B (args.gauss.coords p)) bb → fn p (shapeN args p) bb = .ok w) :
    ∃ c' p', vec03Bv inv c args fn = (c', .ok p') ∧ ∀ m < args.pad.kind.nnode,
      |added1 args c c' (args.ii0 + m) -
          args.alpha * elementIntegral args.pad (fun ξ => (∑ i ∈ Finset.range args.pad.spaceNdim, w i * B ξ m i) * coord args.pad 0 ξ)| ≤
        tol * |args.alpha * detN args.pad.spaceNdim A| * ∑ a ∈ Finset.range args.pad.spaceNdim, ∑ n ∈ Finset.range args.pad.kind.nnode,
          |(∑ i ∈ Finset.range args.pad.spaceNdim, w i * M a i) * args.pad.X n 0| := by
  obtain ⟨c', p', e, h⟩ := C37_vec_03_bv hinv c args hd fn (fun _ => w) (fun p => B (args.gauss.coords p)) hsize (gradRegular_field hB hok) hs
  refine ⟨c', p', e, fun m hm => ?_⟩
  rw [added1_eq h hm, axi_quadrature hax, ← Finset.sum_product']
  refine sum_error (args := { args with axisymmetric := false }) hg ha (Finset.range args.pad.spaceNdim ×ˢ Finset.range args.pad.kind.nnode)
    (fun x => (∑ i ∈ Finset.range args.pad.spaceNdim, w i * M x.1 i) * args.pad.X x.2 0) (fun x => Dp args.pad.kind m x.1) (fun x => Np args.pad.kind x.2)
    (fun x hx => family_D hm (by rw [ha.fills]; exact Finset.mem_range.1 (Finset.mem_product.1 hx).1))
    (fun x hx => family_N (Finset.mem_range.1 (Finset.mem_product.1 hx).2)) (fun ξ => grad_radius ha hB hm w ξ) (image_det ha) (fun p _ => ?_)
  rw [radius_coord, mul_comm]

/-- **C100, axisymmetric `vec_04_bt`.** The second term is the product of the hoop stress and the hoop strain `N / r`, times the radius. -/
theorem C100_axisymmetric_vec_04_bt (hinv : InverseSpec inv) (hd : args.pad.spaceNdim = 2) (hax : args.axisymmetric = true) (hg : GoodRule { args with axisymmetric := false })
    (ha : AffineImage args.pad b A M) (hB : IsGradientField args.pad B) (c : Vec) (fn : Nat → (Nat → ℝ) → (Nat → Nat → ℝ) → Res (Nat → ℝ)) (t : Nat → ℝ)
    (hsize : args.ii0 + args.pad.kind.nnode * args.pad.spaceNdim ≤ c.dim) (hok : ∀ p < args.gauss.npoint, ∃ r, args.pad.calcGradient inv (args.gauss.coords p) = .ok r)
    (hr : ∀ p < args.gauss.npoint, radiusAt args p ≠ 0)
    (hs : ∀ p < args.gauss.npoint, ∀ bb, Holds args.pad (B (args.gauss.coords p)) bb → fn p (shapeN args p) bb = .ok t) :
    ∃ c' p', vec04Bt inv c args fn = (c', .ok p') ∧ ∀ m < args.pad.kind.nnode, ∀ i < args.pad.spaceNdim,
      |added1 args c c' (args.ii0 + (i + m * args.pad.spaceNdim)) -
          args.alpha * elementIntegral args.pad (fun ξ => (∑ l ∈ Finset.range args.pad.spaceNdim, tensor2 t i l * B ξ m l) * coord args.pad 0 ξ +
            (if i = 0 then tensor2 t 2 2 * N args.pad m ξ else 0))| ≤
        tol * |args.alpha * detN args.pad.spaceNdim A| * (∑ a ∈ Finset.range args.pad.spaceNdim, ∑ n ∈ Finset.range args.pad.kind.nnode,
          |(∑ l ∈ Finset.range args.pad.spaceNdim, tensor2 t i l * M a l) * args.pad.X n 0| + |if i = 0 then tensor2 t 2 2 else 0|) := by
  obtain ⟨c', p', e, h⟩ := C37_vec_04_bt hinv c args (Or.inl hd) (fun _ => ⟨hd, hr⟩) fn (fun _ => t) (fun p => B (args.gauss.coords p)) hsize (gradRegular_field hB hok) hs
  refine ⟨c', p', e, fun m hm i hi => ?_⟩
  rw [added1_eq h (digit_lt hm hi), digit_div hi, digit_mod hi, axi_quadrature hax, ← Finset.sum_product']
  have key := sum_error (args := { args with axisymmetric := false }) (μ := detJ args.pad) hg ha
    ((Finset.range args.pad.spaceNdim ×ˢ Finset.range args.pad.kind.nnode).disjSum ({()} : Finset Unit))
    (Sum.elim (fun x => (∑ l ∈ Finset.range args.pad.spaceNdim, tensor2 t i l * M x.1 l) * args.pad.X x.2 0) fun _ => if i = 0 then tensor2 t 2 2 else 0)
    (Sum.elim (fun x => Dp args.pad.kind m x.1) fun _ => Np args.pad.kind m) (Sum.elim (fun x => Np args.pad.kind x.2) fun _ => 1)
    (F := fun ξ => (∑ l ∈ Finset.range args.pad.spaceNdim, tensor2 t i l * B ξ m l) * coord args.pad 0 ξ + (if i = 0 then tensor2 t 2 2 * N args.pad m ξ else 0))
    (f := fun p => radiusAt args p * ∑ k ∈ Finset.range 3, ∑ l ∈ Finset.range 3, strainOp args (B (args.gauss.coords p)) p m i k l * tensor2 t k l)
    ?_ ?_ (fun ξ => ?_) (image_det ha) (fun p hp => ?_)
  · rw [Finset.sum_disjSum] at key
    simpa using key
  · rintro (x | x) hx
    · rw [Finset.inl_mem_disjSum] at hx
      exact family_D hm (by rw [ha.fills]; exact Finset.mem_range.1 (Finset.mem_product.1 hx).1)
    · exact family_N hm
  · rintro (x | x) hx
    · rw [Finset.inl_mem_disjSum] at hx
      exact family_N (Finset.mem_range.1 (Finset.mem_product.1 hx).2)
    · exact family_one _
  · rw [Finset.sum_disjSum, grad_radius ha hB hm]
    congr 1
    rw [Finset.sum_singleton]
    simp only [Sum.elim_inr, PE.eval_one, mul_one, N_eq]
    split <;> simp
  · have hi2 : i < 2 := by omega
    rw [strain_axi hax hd _ p m i hi2 (fun k l => tensor2 t k l)]
    have rp := hr p hp
    have sN : shapeN args p m = N args.pad m (args.gauss.coords p) := rfl
    change _ = (∑ l ∈ Finset.range args.pad.spaceNdim, tensor2 t i l * B (args.gauss.coords p) m l) * coord args.pad 0 (args.gauss.coords p) +
      (if i = 0 then tensor2 t 2 2 * N args.pad m (args.gauss.coords p) else 0)
    rw [hd, ← radius_coord, ← sN, Finset.sum_range_succ, Finset.sum_range_one, mul_add]
    congr 1
    · ring
    · split
      · field_simp
      · simp

/-- The hypotheses are met: the reference Tri6 (the axis of revolution is its left side), with its default table. -/
example : let args := { CommonArgs.new (referencePad .tri6) (GaussTable.new .tri6).toGauss with axisymmetric := true }
    let I : Nat → Nat → ℝ := fun i j => if i = j then 1 else 0
    args.axisymmetric = true ∧ args.pad.spaceNdim = 2 ∧ GoodRule { args with axisymmetric := false } ∧ AffineImage args.pad (fun _ => 0) I I ∧
      (∃ B, IsGradientField args.pad B) ∧ (∀ p < args.gauss.npoint, ∃ r, args.pad.calcGradient exactInverse (args.gauss.coords p) = .ok r) ∧
      ∀ p < args.gauss.npoint, radiusAt args p ≠ 0 := by
  intro args I
  have im : AffineImage (referencePad .tri6) (fun _ => 0) I I :=
    ⟨rfl, fun m _ i hi => by
      have hi : i < GeoKind.tri6.ndim := hi
      simp [Scratchpad.X, referencePad, I, hi], fun i hi j hj => by
      have hi : i < 2 := hi
      have hj : j < 2 := hj
      change ∑ l ∈ Finset.range 2, I i l * I l j = _
      interval_cases i <;> interval_cases j <;> simp [I, Finset.sum_range_succ]⟩
  refine ⟨rfl, rfl, C100_default { args with axisymmetric := false } (by decide) rfl rfl, im, ?_, fun p _ => ?_, fun p hp => ?_⟩
  · obtain ⟨_, _, _, B, _, h⟩ := C100_affine (referencePad .tri6) rfl ⟨fun _ => 0, I, fun m hm i hi => im.coords m hm i hi⟩ (ξ₀ := fun _ => 0)
      (by rw [detJ_reference .tri6 (by decide)]; exact one_ne_zero)
    exact ⟨B, h⟩
  · obtain ⟨⟨d, q, hq⟩, _⟩ := exists_gradient .tri6 (args.gauss.coords p) (fun _ => 0)
    exact ⟨_, hq⟩
  · have hr : radiusAt args p = args.gauss.coords p 0 := by
      rw [radius_coord]
      exact Shapes.linearCoord .tri6 (args.gauss.coords p) 0 (by decide)
    have hp : p < (GaussTable.new .tri6).data.length := hp
    have q : ∀ r ∈ (GaussTable.new .tri6).data, GaussRow.get r 0 ≠ 0 := by decide +kernel
    rw [hr]
    have e : (GaussTable.new .tri6).data.getD p (0, 0, 0, 0) = (GaussTable.new .tri6).data[p] := by rw [List.getD_eq_getElem?_getD, List.getElem?_eq_getElem hp]; rfl
    change ((GaussRow.get ((GaussTable.new .tri6).data.getD p (0, 0, 0, 0)) 0 : ℚ) : ℝ) ≠ 0
    rw [e]
    exact_mod_cast q _ (List.getElem_mem hp)

end
end Gemlab.Props.Integ
