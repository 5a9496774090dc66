import Verif.Props.Integ2

/-!
# Symmetry (C38) and conservation (C39) of the integrals
-/
namespace Gemlab.Props.Integ
open Gemlab Gemlab.Integ Gemlab.Spec.Integ
noncomputable section
variable {inv : MatInverse}

/-- What a routine added to entry `i` of a vector, and to entry `(i, j)` of a matrix. -/
def added1 (args : CommonArgs) (a a' : Vec) (i : Nat) : ℝ := a'.val i - if args.clear then 0 else a.val i
def added2 (args : CommonArgs) (k k' : Mat) (i j : Nat) : ℝ := k'.val (i, j) - if args.clear then 0 else k.val (i, j)

theorem added1_eq {args : CommonArgs} {a a' : Vec} {n : Nat} {S : Nat → ℝ} (h : IsBlockSum1 a a' args.clear args.ii0 n S) {m : Nat} (hm : m < n) :
    added1 args a a' (args.ii0 + m) = S m := by
  unfold added1
  rw [h.2 (args.ii0 + m), if_pos (show args.ii0 ≤ args.ii0 + m ∧ args.ii0 + m < args.ii0 + n by omega)]
  simp

theorem added2_eq {args : CommonArgs} {k k' : Mat} {nr nc : Nat} {S : Nat → Nat → ℝ} (h : IsBlockSum2 k k' args.clear args.ii0 args.jj0 nr nc S)
    {m n : Nat} (hm : m < nr) (hn : n < nc) : added2 args k k' (args.ii0 + m) (args.jj0 + n) = S m n := by
  unfold added2
  rw [h.2.2 (args.ii0 + m) (args.jj0 + n), if_pos (show (args.ii0 ≤ args.ii0 + m ∧ args.ii0 + m < args.ii0 + nr) ∧ (args.jj0 ≤ args.jj0 + n ∧ args.jj0 + n < args.jj0 + nc) by omega)]
  simp

theorem digit_lt {m i d n : Nat} (hm : m < n) (hi : i < d) : i + m * d < n * d := by
  have : (m + 1) * d ≤ n * d := Nat.mul_le_mul_right d hm
  rw [Nat.add_mul] at this
  omega

theorem digit_div {m i d : Nat} (hi : i < d) : (i + m * d) / d = m := by
  rw [Nat.add_mul_div_right _ _ (by omega), Nat.div_eq_of_lt hi, Nat.zero_add]

theorem digit_mod {m i d : Nat} (hi : i < d) : (i + m * d) % d = i := by
  rw [Nat.add_mul_mod_self_right, Nat.mod_eq_of_lt hi]

theorem added1_digit {args : CommonArgs} {a a' : Vec} {n d : Nat} {S : Nat → Nat → ℝ}
    (h : IsBlockSum1 a a' args.clear args.ii0 (n * d) (fun k => S (k / d) (k % d))) {m i : Nat} (hm : m < n) (hi : i < d) :
    added1 args a a' (args.ii0 + (i + m * d)) = S m i := by
  rw [added1_eq h (digit_lt hm hi), digit_div hi, digit_mod hi]

theorem added2_digit {args : CommonArgs} {k k' : Mat} {nr nc d e : Nat} {S : Nat → Nat → Nat → Nat → ℝ}
    (h : IsBlockSum2 k k' args.clear args.ii0 args.jj0 (nr * d) (nc * e) (fun a b => S (a / d) (a % d) (b / e) (b % e)))
    {m i n j : Nat} (hm : m < nr) (hi : i < d) (hn : n < nc) (hj : j < e) :
    added2 args k k' (args.ii0 + (i + m * d)) (args.jj0 + (j + n * e)) = S m i n j := by
  rw [added2_eq h (digit_lt hm hi) (digit_lt hn hj), digit_div hi, digit_mod hi, digit_div hj, digit_mod hj]

theorem quadrature_congr {args : CommonArgs} {μ : (Nat → ℝ) → ℝ} {f g : Nat → ℝ} (h : ∀ p < args.gauss.npoint, f p = g p) :
    quadrature args μ f = quadrature args μ g :=
  Finset.sum_congr rfl fun p hp => by rw [h p (Finset.mem_range.1 hp)]

theorem quadrature_sum {args : CommonArgs} {μ : (Nat → ℝ) → ℝ} {n : Nat} (f : Nat → Nat → ℝ) :
    ∑ m ∈ Finset.range n, quadrature args μ (f m) = quadrature args μ fun p => ∑ m ∈ Finset.range n, f m p := by
  unfold quadrature
  rw [Finset.sum_comm]
  exact Finset.sum_congr rfl fun p _ => by rw [Finset.mul_sum]

theorem quadrature_mul {args : CommonArgs} {μ : (Nat → ℝ) → ℝ} (f : Nat → ℝ) (c : ℝ) :
    quadrature args μ f * c = quadrature args μ fun p => f p * c := by
  unfold quadrature
  rw [Finset.sum_mul]
  exact Finset.sum_congr rfl fun p _ => by ring

theorem quadrature_zero {args : CommonArgs} {μ : (Nat → ℝ) → ℝ} {f : Nat → ℝ} (h : ∀ p < args.gauss.npoint, f p = 0) : quadrature args μ f = 0 :=
  Finset.sum_eq_zero fun p hp => by rw [h p (Finset.mem_range.1 hp), mul_zero]

/-- C37: the integral scales linearly with the thickness `alpha`. -/
theorem C37_alpha (args : CommonArgs) (c : ℝ) (μ : (Nat → ℝ) → ℝ) (f : Nat → ℝ) :
    quadrature { args with alpha := c * args.alpha } μ f = c * quadrature args μ f := by
  unfold quadrature factor
  rw [Finset.mul_sum]
  refine Finset.sum_congr rfl fun p _ => ?_
  have : radiusAt { args with alpha := c * args.alpha } p = radiusAt args p := rfl
  rw [this]
  ring

/-! ## The sum and the first moment of the gradients -/

theorem null_of_jac (hinv : InverseSpec inv) {pad : Scratchpad} {ξ : Nat → ℝ} (hreg : ∃ r, pad.calcGradient inv ξ = .ok r) {v : Nat → ℝ}
    (hv : ∀ j < pad.spaceNdim, ∑ i ∈ Finset.range pad.spaceNdim, v i * jac pad ξ i j = 0) : ∀ i < pad.spaceNdim, v i = 0 := by
  obtain ⟨⟨d, pad'⟩, h⟩ := hreg
  obtain ⟨h1, _, hJ, hr, hG⟩ := Scratchpad.gradient_facts hinv h
  have hJ' : pad'.jacobian = jac pad ξ := by funext i j; exact hJ i j
  rw [hJ'] at hr
  intro l hl
  have e : ∑ k ∈ Finset.range pad.spaceNdim, (∑ i ∈ Finset.range pad.spaceNdim, v i * jac pad ξ i k) * pad'.invJacobian k l = v l := by
    simp only [Finset.sum_mul]
    rw [Finset.sum_comm]
    have : ∀ i ∈ Finset.range pad.spaceNdim, ∑ k ∈ Finset.range pad.spaceNdim, v i * jac pad ξ i k * pad'.invJacobian k l = if i = l then v i else 0 := by
      intro i hi
      simp only [mul_assoc, ← Finset.mul_sum]
      rw [hr i (Finset.mem_range.1 hi) l hl]
      simp
    rw [Finset.sum_congr rfl this]
    simp [hl]
  rw [← e]
  exact Finset.sum_eq_zero fun k hk => by rw [hv k (Finset.mem_range.1 hk), zero_mul]

theorem geo_eq_space {pad : Scratchpad} {ξ : Nat → ℝ} (hreg : ∃ r, pad.calcGradient inv ξ = .ok r) : pad.kind.ndim = pad.spaceNdim := by
  obtain ⟨⟨d, pad'⟩, h⟩ := hreg
  exact (Scratchpad.calcGradient_ok h).2.1

theorem grad_sum (hinv : InverseSpec inv) {pad : Scratchpad} {ξ : Nat → ℝ} {B : Nat → Nat → ℝ}
    (hreg : (∃ r, pad.calcGradient inv ξ = .ok r) ∧ IsGradient pad ξ B) {i : Nat} (hi : i < pad.spaceNdim) :
    ∑ m ∈ Finset.range pad.kind.nnode, B m i = 0 := by
  refine null_of_jac hinv hreg.1 (v := fun i => ∑ m ∈ Finset.range pad.kind.nnode, B m i) (fun j hj => ?_) i hi
  simp only [Finset.sum_mul]
  rw [Finset.sum_comm, Finset.sum_congr rfl fun m hm => hreg.2 m (Finset.mem_range.1 hm) j hj]
  exact Shapes.C25_derivatives_sum_to_zero pad.kind ξ j (by rw [geo_eq_space hreg.1]; exact hj)

theorem grad_moment (hinv : InverseSpec inv) {pad : Scratchpad} {ξ : Nat → ℝ} {B : Nat → Nat → ℝ}
    (hreg : (∃ r, pad.calcGradient inv ξ = .ok r) ∧ IsGradient pad ξ B) {q i : Nat} (hq : q < pad.spaceNdim) (hi : i < pad.spaceNdim) :
    ∑ m ∈ Finset.range pad.kind.nnode, pad.X m q * B m i = if q = i then 1 else 0 := by
  have h := null_of_jac hinv hreg.1 (v := fun i => (∑ m ∈ Finset.range pad.kind.nnode, pad.X m q * B m i) - if q = i then 1 else 0) (fun j hj => ?_) i hi
  · linarith
  · simp only [sub_mul, Finset.sum_sub_distrib, Finset.sum_mul]
    rw [Finset.sum_comm]
    have e : ∀ m ∈ Finset.range pad.kind.nnode, ∑ i ∈ Finset.range pad.spaceNdim, pad.X m q * B m i * jac pad ξ i j = pad.X m q * Shapes.calcDeriv pad.kind ξ m j := by
      intro m hm
      simp only [mul_assoc, ← Finset.mul_sum]
      rw [hreg.2 m (Finset.mem_range.1 hm) j hj]
    rw [Finset.sum_congr rfl e]
    simp [hq, jac]

/-! ## C38 -/

/-- C38: `mat_01_nsn` adds a symmetric matrix. -/
theorem C38_mat_01_nsn (hinv : InverseSpec inv) (kk : Mat) (args : CommonArgs) (fnS : Nat → (Nat → ℝ) → (Nat → Nat → ℝ) → Res ℝ) (s : Nat → ℝ)
    (B : Nat → Nat → Nat → ℝ) (hr : args.ii0 + args.pad.kind.nnode ≤ kk.nrow) (hc : args.jj0 + args.pad.kind.nnode ≤ kk.ncol) (hreg : GradRegular inv args.pad args.gauss B)
    (hs : ∀ p < args.gauss.npoint, ∀ bb, Holds args.pad (B p) bb → fnS p (shapeN args p) bb = .ok (s p)) :
    ∃ k' pad', mat01Nsn inv kk args fnS = (k', .ok pad') ∧ ∀ m < args.pad.kind.nnode, ∀ n < args.pad.kind.nnode,
      added2 args kk k' (args.ii0 + m) (args.jj0 + n) = added2 args kk k' (args.ii0 + n) (args.jj0 + m) := by
  obtain ⟨k', pad', h, h1⟩ := C37_mat_01_nsn hinv kk args fnS s B hr hc hreg hs
  refine ⟨k', pad', h, fun m hm n hn => ?_⟩
  rw [added2_eq h1 hm hn, added2_eq h1 hn hm]
  exact quadrature_congr fun p _ => by ring

theorem tensor2_symm (t : Nat → ℝ) (i j : Nat) : tensor2 t i j = tensor2 t j i := by
  unfold tensor2
  by_cases h : i = j
  · subst h; rfl
  · rw [if_neg h, if_neg (Ne.symm h), Nat.add_comm]

/-- C38: `mat_03_btb` adds a symmetric matrix (the tensors given in Mandel notation are symmetric). -/
theorem C38_mat_03_btb (hinv : InverseSpec inv) (kk : Mat) (args : CommonArgs) (hd : SpaceOk args.pad) (fnT : Nat → (Nat → ℝ) → (Nat → Nat → ℝ) → Res (Nat → ℝ)) (t : Nat → Nat → ℝ)
    (B : Nat → Nat → Nat → ℝ) (hr : args.ii0 + args.pad.kind.nnode ≤ kk.nrow) (hc : args.jj0 + args.pad.kind.nnode ≤ kk.ncol) (hreg : GradRegular inv args.pad args.gauss B)
    (hs : ∀ p < args.gauss.npoint, ∀ bb, Holds args.pad (B p) bb → fnT p (shapeN args p) bb = .ok (t p)) :
    ∃ k' pad', mat03Btb inv kk args fnT = (k', .ok pad') ∧ ∀ m < args.pad.kind.nnode, ∀ n < args.pad.kind.nnode,
      added2 args kk k' (args.ii0 + m) (args.jj0 + n) = added2 args kk k' (args.ii0 + n) (args.jj0 + m) := by
  obtain ⟨k', pad', h, h1⟩ := C37_mat_03_btb hinv kk args hd fnT t B hr hc hreg hs
  refine ⟨k', pad', h, fun m hm n hn => ?_⟩
  rw [added2_eq h1 hm hn, added2_eq h1 hn hm]
  refine quadrature_congr fun p _ => ?_
  rw [Finset.sum_comm]
  refine Finset.sum_congr rfl fun i _ => Finset.sum_congr rfl fun j _ => ?_
  rw [tensor2_symm]
  ring

/-- C38: `mat_08_ntn` adds a symmetric matrix. -/
theorem C38_mat_08_ntn (hinv : InverseSpec inv) (kk : Mat) (args : CommonArgs) (hd : SpaceOk args.pad) (fnT : Nat → (Nat → ℝ) → (Nat → Nat → ℝ) → Res (Nat → ℝ)) (t : Nat → Nat → ℝ)
    (B : Nat → Nat → Nat → ℝ) (hr : args.ii0 + args.pad.kind.nnode * args.pad.spaceNdim ≤ kk.nrow) (hc : args.jj0 + args.pad.kind.nnode * args.pad.spaceNdim ≤ kk.ncol) (hreg : GradRegular inv args.pad args.gauss B)
    (hs : ∀ p < args.gauss.npoint, ∀ bb, Holds args.pad (B p) bb → fnT p (shapeN args p) bb = .ok (t p)) :
    ∃ k' pad', mat08Ntn inv kk args fnT = (k', .ok pad') ∧ ∀ a < args.pad.kind.nnode * args.pad.spaceNdim, ∀ b < args.pad.kind.nnode * args.pad.spaceNdim,
      added2 args kk k' (args.ii0 + a) (args.jj0 + b) = added2 args kk k' (args.ii0 + b) (args.jj0 + a) := by
  obtain ⟨k', pad', h, h1⟩ := C37_mat_08_ntn hinv kk args hd fnT t B hr hc hreg hs
  refine ⟨k', pad', h, fun m hm n hn => ?_⟩
  rw [added2_eq h1 hm hn, added2_eq h1 hn hm]
  refine quadrature_congr fun p _ => ?_
  rw [tensor2_symm]
  ring

theorem tensor4_major {D : Nat → Nat → ℝ} (hD : ∀ i < 6, ∀ j < 6, D i j = D j i) {i j k l : Nat} (hi : i < 3) (hk : k < 3) :
    tensor4 D i j k l = tensor4 D k l i j := by
  unfold tensor4
  rw [hD _ (by unfold mandelIdx; split <;> (try split) <;> (try split) <;> omega) _ (by unfold mandelIdx; split <;> (try split) <;> (try split) <;> omega)]
  ring

theorem stiffness_symm {args : CommonArgs} {B D : Nat → Nat → ℝ} (hD : ∀ i < 6, ∀ j < 6, D i j = D j i) (p m i n j : Nat) :
    stiffness args B D p m i n j = stiffness args B D p n j m i := by
  unfold stiffness
  simp only [Finset.mul_sum]
  have e : ∀ k ∈ Finset.range 3, (∑ l ∈ Finset.range 3, ∑ k' ∈ Finset.range 3, ∑ l' ∈ Finset.range 3,
      strainOp args B p m i k l * (tensor4 D k l k' l' * strainOp args B p n j k' l')) =
      ∑ k' ∈ Finset.range 3, ∑ l' ∈ Finset.range 3, ∑ l ∈ Finset.range 3,
      strainOp args B p n j k' l' * (tensor4 D k' l' k l * strainOp args B p m i k l) := by
    intro k hk
    rw [Finset.sum_comm]
    refine Finset.sum_congr rfl fun k' hk' => ?_
    rw [Finset.sum_comm]
    refine Finset.sum_congr rfl fun l' _ => Finset.sum_congr rfl fun l _ => ?_
    rw [tensor4_major hD (Finset.mem_range.1 hk) (Finset.mem_range.1 hk')]
    ring
  rw [Finset.sum_congr rfl e, Finset.sum_comm]
  refine Finset.sum_congr rfl fun k' _ => ?_
  rw [Finset.sum_comm]

/-- C38: `mat_10_bdb` adds a symmetric matrix if the moduli are (major-)symmetric. -/
theorem C38_mat_10_bdb (hinv : InverseSpec inv) (kk : Mat) (args : CommonArgs) (hd : SpaceOk args.pad)
    (haxi : args.axisymmetric = true → args.pad.spaceNdim = 2 ∧ ∀ p < args.gauss.npoint, radiusAt args p ≠ 0)
    (fnD : Nat → (Nat → ℝ) → (Nat → Nat → ℝ) → Res (Nat → Nat → ℝ)) (D : Nat → Nat → Nat → ℝ) (B : Nat → Nat → Nat → ℝ)
    (hr : args.ii0 + args.pad.kind.nnode * args.pad.spaceNdim ≤ kk.nrow) (hc : args.jj0 + args.pad.kind.nnode * args.pad.spaceNdim ≤ kk.ncol)
    (hreg : GradRegular inv args.pad args.gauss B)
    (hs : ∀ p < args.gauss.npoint, ∀ bb, Holds args.pad (B p) bb → fnD p (shapeN args p) bb = .ok (D p))
    (hD : ∀ p < args.gauss.npoint, ∀ i < 6, ∀ j < 6, D p i j = D p j i) :
    ∃ k' pad', mat10Bdb inv kk args fnD = (k', .ok pad') ∧ ∀ a < args.pad.kind.nnode * args.pad.spaceNdim, ∀ b < args.pad.kind.nnode * args.pad.spaceNdim,
      added2 args kk k' (args.ii0 + a) (args.jj0 + b) = added2 args kk k' (args.ii0 + b) (args.jj0 + a) := by
  obtain ⟨k', pad', h, h1⟩ := C37_mat_10_bdb hinv kk args hd haxi fnD D B hr hc hreg hs
  refine ⟨k', pad', h, fun a ha b hb => ?_⟩
  rw [added2_eq h1 ha hb, added2_eq h1 hb ha]
  exact quadrature_congr fun p hp => stiffness_symm (hD p hp) ..

/-! ## C39 -/

/-- C37, `scalar_field`: the quadrature of the values. -/
theorem C37_scalar_field (hinv : InverseSpec inv) (pad : Scratchpad) (g : Gauss) (fnS : Nat → Res ℝ) (s : Nat → ℝ) (hreg : JacRegular inv pad g)
    (hs : ∀ p < g.npoint, fnS p = .ok (s p)) :
    scalarField inv pad g fnS = .ok (∑ p ∈ Finset.range g.npoint, s p * jacMeasure pad (g.coords p) * g.weight p) := by
  unfold scalarField
  have key : ∀ n ≤ g.npoint, ∃ pad', SameGeo pad' pad ∧ (List.range n).foldlM (fun (acc : ℝ × Scratchpad) p => do
      let (detJac, pad) ← acc.2.calcJacobian inv (g.coords p)
      let s ← fnS p
      Res.ok (acc.1 + s * detJac * g.weight p, pad)) (0, pad) =
      .ok (∑ p ∈ Finset.range n, s p * jacMeasure pad (g.coords p) * g.weight p, pad') := by
    intro n
    induction n with
    | zero => intro _; exact ⟨pad, SameGeo.refl _, by simp⟩
    | succ n ih =>
      intro hn
      obtain ⟨p1, h1, h2⟩ := ih (by omega)
      obtain ⟨⟨d, p0⟩, hr⟩ := hreg n (by omega)
      obtain ⟨p', h3, h4⟩ := jacobian_geo0 h1 (g.coords n) hr
      refine ⟨p', h4, ?_⟩
      rw [List.range_succ, List.foldlM_append, h2]
      simp only [Res.bind_ok, List.foldlM_cons, List.foldlM_nil, hs n (by omega)]
      rw [Finset.sum_range_succ, h3, measure_eq hinv hr]
      rfl
  obtain ⟨pad', _, h⟩ := key g.npoint (le_refl _)
  rw [h]
  rfl

theorem shapeN_sum (args : CommonArgs) (p : Nat) : ∑ m ∈ Finset.range args.pad.kind.nnode, shapeN args p m = 1 :=
  Shapes.C25_partition_of_unity args.pad.kind (args.gauss.coords p)

/-- C39: the entries added by `vec_01_ns` sum to the value of `scalar_field` with the same `s` (unit thickness, not axisymmetric). -/
theorem C39_vec_01_total (hinv : InverseSpec inv) (a : Vec) (args : CommonArgs) (fnS : Nat → (Nat → ℝ) → Res ℝ) (s : Nat → ℝ)
    (hsize : args.ii0 + args.pad.kind.nnode ≤ a.dim) (hreg : JacRegular inv args.pad args.gauss)
    (hs : ∀ p < args.gauss.npoint, fnS p (shapeN args p) = .ok (s p)) (hal : args.alpha = 1) (hax : args.axisymmetric = false) :
    ∃ a' pad', vec01Ns inv a args fnS = (a', .ok pad') ∧
      scalarField inv args.pad args.gauss (fun p => .ok (s p)) =
        .ok (∑ m ∈ Finset.range args.pad.kind.nnode, added1 args a a' (args.ii0 + m)) := by
  obtain ⟨a', pad', h, h1⟩ := C37_vec_01_ns hinv a args fnS s hsize hreg hs
  refine ⟨a', pad', h, ?_⟩
  rw [Finset.sum_congr rfl fun m hm => added1_eq h1 (Finset.mem_range.1 hm), quadrature_sum,
    C37_scalar_field hinv args.pad args.gauss _ s hreg (fun _ _ => rfl)]
  congr 1
  refine Finset.sum_congr rfl fun p _ => ?_
  dsimp only
  rw [← Finset.sum_mul, shapeN_sum, factor_not hax, hal]
  ring

/-- C39: the rows added by `mat_01_nsn` sum to the entries added by `vec_01_ns` with the same coefficient. -/
theorem C39_mat_01_rows (hinv : InverseSpec inv) (kk : Mat) (a : Vec) (args : CommonArgs) (fnS : Nat → (Nat → ℝ) → (Nat → Nat → ℝ) → Res ℝ)
    (fnS' : Nat → (Nat → ℝ) → Res ℝ) (s : Nat → ℝ)
    (B : Nat → Nat → Nat → ℝ) (hsize : args.ii0 + args.pad.kind.nnode ≤ a.dim) (hr : args.ii0 + args.pad.kind.nnode ≤ kk.nrow)
    (hc : args.jj0 + args.pad.kind.nnode ≤ kk.ncol) (hreg : GradRegular inv args.pad args.gauss B)
    (hs : ∀ p < args.gauss.npoint, ∀ bb, Holds args.pad (B p) bb → fnS p (shapeN args p) bb = .ok (s p))
    (hs' : ∀ p < args.gauss.npoint, fnS' p (shapeN args p) = .ok (s p)) :
    ∃ k' pad' a' pad'', mat01Nsn inv kk args fnS = (k', .ok pad') ∧ vec01Ns inv a args fnS' = (a', .ok pad'') ∧
      ∀ m < args.pad.kind.nnode, ∑ n ∈ Finset.range args.pad.kind.nnode, added2 args kk k' (args.ii0 + m) (args.jj0 + n) =
        added1 args a a' (args.ii0 + m) := by
  have hj : JacRegular inv args.pad args.gauss := by
    intro p hp
    obtain ⟨⟨⟨d, p'⟩, h⟩, _⟩ := hreg p hp
    unfold Scratchpad.calcGradient at h
    split at h
    · cases h
    · obtain ⟨r, hr, _⟩ := Res.bind_eq_ok.1 h
      exact ⟨r, hr⟩
  obtain ⟨k', pad', h, h1⟩ := C37_mat_01_nsn hinv kk args fnS s B hr hc hreg hs
  obtain ⟨a', pad'', h', h1'⟩ := C37_vec_01_ns hinv a args fnS' s hsize hj hs'
  refine ⟨k', pad', a', pad'', h, h', fun m hm => ?_⟩
  rw [Finset.sum_congr rfl fun n hn => added2_eq h1 hm (Finset.mem_range.1 hn), quadrature_sum, added1_eq h1' hm]
  unfold quadrature
  refine Finset.sum_congr rfl fun p hp => ?_
  dsimp only
  rw [← Finset.mul_sum, shapeN_sum, mul_one]
  unfold factor jacMeasure
  rw [if_pos (geo_eq_space (hreg p (Finset.mem_range.1 hp)).1)]

/-- C39: the entries added by `vec_03_bv` sum to zero. -/
theorem C39_vec_03_bv (hinv : InverseSpec inv) (c : Vec) (args : CommonArgs) (hd : SpaceOk args.pad) (fnW : Nat → (Nat → ℝ) → (Nat → Nat → ℝ) → Res (Nat → ℝ)) (w : Nat → Nat → ℝ)
    (B : Nat → Nat → Nat → ℝ) (hsize : args.ii0 + args.pad.kind.nnode ≤ c.dim) (hreg : GradRegular inv args.pad args.gauss B)
    (hs : ∀ p < args.gauss.npoint, ∀ bb, Holds args.pad (B p) bb → fnW p (shapeN args p) bb = .ok (w p)) :
    ∃ c' pad', vec03Bv inv c args fnW = (c', .ok pad') ∧ ∑ m ∈ Finset.range args.pad.kind.nnode, added1 args c c' (args.ii0 + m) = 0 := by
  obtain ⟨c', pad', h, h1⟩ := C37_vec_03_bv hinv c args hd fnW w B hsize hreg hs
  refine ⟨c', pad', h, ?_⟩
  rw [Finset.sum_congr rfl fun m hm => added1_eq h1 (Finset.mem_range.1 hm), quadrature_sum]
  refine quadrature_zero fun p hp => ?_
  rw [Finset.sum_comm]
  refine Finset.sum_eq_zero fun i hi => ?_
  rw [← Finset.mul_sum, grad_sum hinv (hreg p hp) (Finset.mem_range.1 hi), mul_zero]

theorem strain_sum (hinv : InverseSpec inv) {args : CommonArgs} {p : Nat} {B : Nat → Nat → ℝ}
    (hreg : (∃ r, args.pad.calcGradient inv (args.gauss.coords p) = .ok r) ∧ IsGradient args.pad (args.gauss.coords p) B)
    {i : Nat} (hi : args.axisymmetric = false ∨ i ≠ 0) (k l : Nat) : ∑ m ∈ Finset.range args.pad.kind.nnode, strainOp args B p m i k l = 0 := by
  unfold strainOp
  by_cases h : k = i ∧ l < args.pad.spaceNdim
  · simp only [if_pos h]
    exact grad_sum hinv hreg h.2
  · have h' : ¬ (args.axisymmetric = true ∧ i = 0 ∧ k = 2 ∧ l = 2) := by
      rintro ⟨h1, h2, _⟩
      rcases hi with h3 | h3
      · rw [h3] at h1; cases h1
      · exact h3 h2
    simp only [if_neg h, if_neg h', Finset.sum_const_zero]

/-- C39: the forces added by `vec_04_bt` are in equilibrium: in each direction they sum to zero (in an axisymmetric analysis only in
the axial direction, since the radial forces are balanced by the hoop stress). -/
theorem C39_vec_04_bt (hinv : InverseSpec inv) (dv : Vec) (args : CommonArgs) (hd : SpaceOk args.pad)
    (haxi : args.axisymmetric = true → args.pad.spaceNdim = 2 ∧ ∀ p < args.gauss.npoint, radiusAt args p ≠ 0)
    (fnSig : Nat → (Nat → ℝ) → (Nat → Nat → ℝ) → Res (Nat → ℝ)) (t : Nat → Nat → ℝ) (B : Nat → Nat → Nat → ℝ)
    (hsize : args.ii0 + args.pad.kind.nnode * args.pad.spaceNdim ≤ dv.dim) (hreg : GradRegular inv args.pad args.gauss B)
    (hs : ∀ p < args.gauss.npoint, ∀ bb, Holds args.pad (B p) bb → fnSig p (shapeN args p) bb = .ok (t p)) :
    ∃ d' pad', vec04Bt inv dv args fnSig = (d', .ok pad') ∧
      ∀ i < args.pad.spaceNdim, (args.axisymmetric = false ∨ i ≠ 0) →
        ∑ m ∈ Finset.range args.pad.kind.nnode, added1 args dv d' (args.ii0 + (i + m * args.pad.spaceNdim)) = 0 := by
  obtain ⟨d', pad', h, h1⟩ := C37_vec_04_bt hinv dv args hd haxi fnSig t B hsize hreg hs
  refine ⟨d', pad', h, fun i hi hax => ?_⟩
  rw [Finset.sum_congr rfl fun m hm => added1_digit (S := fun m i => quadrature args (detJ args.pad) fun p => ∑ k ∈ Finset.range 3, ∑ l ∈ Finset.range 3,
          strainOp args (B p) p m i k l * tensor2 (t p) k l) h1 (Finset.mem_range.1 hm) hi, quadrature_sum]
  refine quadrature_zero fun p hp => ?_
  rw [Finset.sum_comm]
  refine Finset.sum_eq_zero fun k _ => ?_
  rw [Finset.sum_comm]
  refine Finset.sum_eq_zero fun l _ => ?_
  rw [← Finset.sum_mul, strain_sum hinv (hreg p hp) hax, zero_mul]

/-- C39: the rows added by `mat_03_btb` sum to zero (a constant field has no flow). -/
theorem C39_mat_03_btb (hinv : InverseSpec inv) (kk : Mat) (args : CommonArgs) (hd : SpaceOk args.pad) (fnT : Nat → (Nat → ℝ) → (Nat → Nat → ℝ) → Res (Nat → ℝ)) (t : Nat → Nat → ℝ)
    (B : Nat → Nat → Nat → ℝ) (hr : args.ii0 + args.pad.kind.nnode ≤ kk.nrow) (hc : args.jj0 + args.pad.kind.nnode ≤ kk.ncol) (hreg : GradRegular inv args.pad args.gauss B)
    (hs : ∀ p < args.gauss.npoint, ∀ bb, Holds args.pad (B p) bb → fnT p (shapeN args p) bb = .ok (t p)) :
    ∃ k' pad', mat03Btb inv kk args fnT = (k', .ok pad') ∧ ∀ m < args.pad.kind.nnode,
      ∑ n ∈ Finset.range args.pad.kind.nnode, added2 args kk k' (args.ii0 + m) (args.jj0 + n) = 0 ∧
      ∑ n ∈ Finset.range args.pad.kind.nnode, added2 args kk k' (args.ii0 + n) (args.jj0 + m) = 0 := by
  obtain ⟨k', pad', h, h1⟩ := C37_mat_03_btb hinv kk args hd fnT t B hr hc hreg hs
  refine ⟨k', pad', h, fun m hm => ⟨?_, ?_⟩⟩
  · rw [Finset.sum_congr rfl fun n hn => added2_eq h1 hm (Finset.mem_range.1 hn), quadrature_sum]
    refine quadrature_zero fun p hp => ?_
    rw [Finset.sum_comm]
    refine Finset.sum_eq_zero fun i _ => ?_
    rw [Finset.sum_comm]
    refine Finset.sum_eq_zero fun j hj => ?_
    rw [← Finset.mul_sum, grad_sum hinv (hreg p hp) (Finset.mem_range.1 hj), mul_zero]
  · rw [Finset.sum_congr rfl fun n hn => added2_eq h1 (Finset.mem_range.1 hn) hm, quadrature_sum]
    refine quadrature_zero fun p hp => ?_
    rw [Finset.sum_comm]
    refine Finset.sum_eq_zero fun i hi => ?_
    rw [Finset.sum_comm]
    refine Finset.sum_eq_zero fun j _ => ?_
    rw [← Finset.sum_mul, ← Finset.sum_mul, grad_sum hinv (hreg p hp) (Finset.mem_range.1 hi), zero_mul, zero_mul]

/-- The displacement `b + G x` of node `n`. -/
def linearField (pad : Scratchpad) (b : Nat → ℝ) (G : Nat → Nat → ℝ) (n j : Nat) : ℝ := b j + ∑ q ∈ Finset.range pad.spaceNdim, G j q * pad.X n q

theorem strain_linear (hinv : InverseSpec inv) {args : CommonArgs} {p : Nat} {B : Nat → Nat → ℝ} (hax : args.axisymmetric = false)
    (hreg : (∃ r, args.pad.calcGradient inv (args.gauss.coords p) = .ok r) ∧ IsGradient args.pad (args.gauss.coords p) B)
    (b : Nat → ℝ) (G : Nat → Nat → ℝ) (k l : Nat) :
    ∑ n ∈ Finset.range args.pad.kind.nnode, ∑ j ∈ Finset.range args.pad.spaceNdim, strainOp args B p n j k l * linearField args.pad b G n j =
      if k < args.pad.spaceNdim ∧ l < args.pad.spaceNdim then G k l else 0 := by
  have e : ∀ n j, strainOp args B p n j k l = if k = j ∧ l < args.pad.spaceNdim then B n l else 0 := by
    intro n j
    unfold strainOp
    simp [hax]
  simp only [e]
  rw [Finset.sum_comm]
  by_cases hl : l < args.pad.spaceNdim
  · by_cases hk : k < args.pad.spaceNdim
    · rw [if_pos ⟨hk, hl⟩, Finset.sum_eq_single k]
      · simp only [hl, and_self, if_true]
        unfold linearField
        simp only [mul_add, Finset.sum_add_distrib, ← Finset.sum_mul]
        rw [grad_sum hinv hreg hl, zero_mul, zero_add]
        simp only [Finset.mul_sum]
        rw [Finset.sum_comm]
        have e2 : ∀ q ∈ Finset.range args.pad.spaceNdim, ∑ n ∈ Finset.range args.pad.kind.nnode, B n l * (G k q * args.pad.X n q) =
            G k q * if q = l then 1 else 0 := by
          intro q hq
          rw [← grad_moment hinv hreg (Finset.mem_range.1 hq) hl, Finset.mul_sum]
          exact Finset.sum_congr rfl fun n _ => by ring
        rw [Finset.sum_congr rfl e2]
        simp [hl]
      · intro j _ hj
        refine Finset.sum_eq_zero fun n _ => ?_
        rw [if_neg (fun h => hj h.1.symm), zero_mul]
      · intro h; exact absurd (Finset.mem_range.2 hk) h
    · rw [if_neg (fun h => hk h.1)]
      refine Finset.sum_eq_zero fun j hj => Finset.sum_eq_zero fun n _ => ?_
      rw [if_neg, zero_mul]
      rintro ⟨rfl, _⟩
      exact hk (Finset.mem_range.1 hj)
  · rw [if_neg (fun h => hl h.2)]
    refine Finset.sum_eq_zero fun j hj => Finset.sum_eq_zero fun n _ => ?_
    rw [if_neg (fun h => hl h.2), zero_mul]

/-- C39 (patch test): the product of the matrix added by `mat_10_bdb` with the nodal values of the linear displacement field `b + G x` is
the vector of internal forces `∫ ε^{(m,i)} : σ` of the stress `σ = D : G`. -/
theorem C39_mat_10_patch (hinv : InverseSpec inv) (kk : Mat) (args : CommonArgs) (hd : SpaceOk args.pad) (hax : args.axisymmetric = false)
    (fnD : Nat → (Nat → ℝ) → (Nat → Nat → ℝ) → Res (Nat → Nat → ℝ)) (D : Nat → Nat → Nat → ℝ) (B : Nat → Nat → Nat → ℝ)
    (hr : args.ii0 + args.pad.kind.nnode * args.pad.spaceNdim ≤ kk.nrow) (hc : args.jj0 + args.pad.kind.nnode * args.pad.spaceNdim ≤ kk.ncol)
    (hreg : GradRegular inv args.pad args.gauss B)
    (hs : ∀ p < args.gauss.npoint, ∀ bb, Holds args.pad (B p) bb → fnD p (shapeN args p) bb = .ok (D p)) :
    ∃ k' pad', mat10Bdb inv kk args fnD = (k', .ok pad') ∧
      ∀ (b : Nat → ℝ) (G : Nat → Nat → ℝ), ∀ m < args.pad.kind.nnode, ∀ i < args.pad.spaceNdim,
        ∑ n ∈ Finset.range args.pad.kind.nnode, ∑ j ∈ Finset.range args.pad.spaceNdim,
          added2 args kk k' (args.ii0 + (i + m * args.pad.spaceNdim)) (args.jj0 + (j + n * args.pad.spaceNdim)) * linearField args.pad b G n j =
        quadrature args (detJ args.pad) fun p => ∑ k ∈ Finset.range 3, ∑ l ∈ Finset.range 3, strainOp args (B p) p m i k l *
          ∑ k' ∈ Finset.range args.pad.spaceNdim, ∑ l' ∈ Finset.range args.pad.spaceNdim, tensor4 (D p) k l k' l' * G k' l' := by
  obtain ⟨k', pad', h, h1⟩ := C37_mat_10_bdb hinv kk args hd (fun h => by rw [hax] at h; cases h) fnD D B hr hc hreg hs
  refine ⟨k', pad', h, fun b G m hm i hi => ?_⟩
  have e1 : ∀ n ∈ Finset.range args.pad.kind.nnode, ∑ j ∈ Finset.range args.pad.spaceNdim,
      added2 args kk k' (args.ii0 + (i + m * args.pad.spaceNdim)) (args.jj0 + (j + n * args.pad.spaceNdim)) * linearField args.pad b G n j =
      quadrature args (detJ args.pad) fun p => ∑ j ∈ Finset.range args.pad.spaceNdim, stiffness args (B p) (D p) p m i n j * linearField args.pad b G n j := by
    intro n hn
    rw [← quadrature_sum]
    refine Finset.sum_congr rfl fun j hj => ?_
    rw [← quadrature_mul, added2_digit (S := fun m i n j => quadrature args (detJ args.pad) fun p => stiffness args (B p) (D p) p m i n j) h1 hm hi
      (Finset.mem_range.1 hn) (Finset.mem_range.1 hj)]
  rw [Finset.sum_congr rfl e1, quadrature_sum]
  refine quadrature_congr fun p hp => ?_
  unfold stiffness
  simp only [Finset.sum_mul]
  have e2 : ∀ k l, ∑ n ∈ Finset.range args.pad.kind.nnode, ∑ j ∈ Finset.range args.pad.spaceNdim,
      (∑ k' ∈ Finset.range 3, ∑ l' ∈ Finset.range 3, tensor4 (D p) k l k' l' * strainOp args (B p) p n j k' l') * linearField args.pad b G n j =
      ∑ k' ∈ Finset.range args.pad.spaceNdim, ∑ l' ∈ Finset.range args.pad.spaceNdim, tensor4 (D p) k l k' l' * G k' l' := by
    intro k l
    have e3 : ∀ k' l', ∑ n ∈ Finset.range args.pad.kind.nnode, ∑ j ∈ Finset.range args.pad.spaceNdim,
        tensor4 (D p) k l k' l' * strainOp args (B p) p n j k' l' * linearField args.pad b G n j =
        tensor4 (D p) k l k' l' * if k' < args.pad.spaceNdim ∧ l' < args.pad.spaceNdim then G k' l' else 0 := by
      intro k' l'
      rw [← strain_linear hinv hax (hreg p hp) b G k' l']
      simp only [Finset.mul_sum, mul_assoc]
    simp only [Finset.sum_mul]
    have e4 : ∀ n ∈ Finset.range args.pad.kind.nnode, (∑ j ∈ Finset.range args.pad.spaceNdim, ∑ k' ∈ Finset.range 3, ∑ l' ∈ Finset.range 3,
        tensor4 (D p) k l k' l' * strainOp args (B p) p n j k' l' * linearField args.pad b G n j) =
        ∑ k' ∈ Finset.range 3, ∑ l' ∈ Finset.range 3, ∑ j ∈ Finset.range args.pad.spaceNdim,
        tensor4 (D p) k l k' l' * strainOp args (B p) p n j k' l' * linearField args.pad b G n j := by
      intro n _
      rw [Finset.sum_comm]
      exact Finset.sum_congr rfl fun k' _ => Finset.sum_comm
    rw [Finset.sum_congr rfl e4, Finset.sum_comm]
    have e5 : ∀ k' ∈ Finset.range 3, (∑ n ∈ Finset.range args.pad.kind.nnode, ∑ l' ∈ Finset.range 3, ∑ j ∈ Finset.range args.pad.spaceNdim,
        tensor4 (D p) k l k' l' * strainOp args (B p) p n j k' l' * linearField args.pad b G n j) =
        ∑ l' ∈ Finset.range 3, tensor4 (D p) k l k' l' * if k' < args.pad.spaceNdim ∧ l' < args.pad.spaceNdim then G k' l' else 0 := by
      intro k' _
      rw [Finset.sum_comm]
      exact Finset.sum_congr rfl fun l' _ => e3 k' l'
    rw [Finset.sum_congr rfl e5]
    rcases hd with h | h <;> simp [h, Finset.sum_range_succ]
  have e6 : ∀ n ∈ Finset.range args.pad.kind.nnode, (∑ j ∈ Finset.range args.pad.spaceNdim, ∑ k ∈ Finset.range 3, ∑ l ∈ Finset.range 3,
      strainOp args (B p) p m i k l * (∑ k' ∈ Finset.range 3, ∑ l' ∈ Finset.range 3, tensor4 (D p) k l k' l' * strainOp args (B p) p n j k' l') *
        linearField args.pad b G n j) =
      ∑ k ∈ Finset.range 3, ∑ l ∈ Finset.range 3, ∑ j ∈ Finset.range args.pad.spaceNdim, strainOp args (B p) p m i k l *
        (∑ k' ∈ Finset.range 3, ∑ l' ∈ Finset.range 3, tensor4 (D p) k l k' l' * strainOp args (B p) p n j k' l') * linearField args.pad b G n j := by
    intro n _
    rw [Finset.sum_comm]
    exact Finset.sum_congr rfl fun k' _ => Finset.sum_comm
  rw [Finset.sum_congr rfl e6, Finset.sum_comm]
  refine Finset.sum_congr rfl fun k _ => ?_
  rw [Finset.sum_comm]
  refine Finset.sum_congr rfl fun l _ => ?_
  rw [← e2 k l, Finset.mul_sum]
  refine Finset.sum_congr rfl fun n _ => ?_
  rw [Finset.mul_sum]
  exact Finset.sum_congr rfl fun j _ => by ring

/-- C39: rigid motions (translations and infinitesimal rotations) are in the null space of the matrix added by `mat_10_bdb`. -/
theorem C39_mat_10_rigid (hinv : InverseSpec inv) (kk : Mat) (args : CommonArgs) (hd : SpaceOk args.pad) (hax : args.axisymmetric = false)
    (fnD : Nat → (Nat → ℝ) → (Nat → Nat → ℝ) → Res (Nat → Nat → ℝ)) (D : Nat → Nat → Nat → ℝ) (B : Nat → Nat → Nat → ℝ)
    (hr : args.ii0 + args.pad.kind.nnode * args.pad.spaceNdim ≤ kk.nrow) (hc : args.jj0 + args.pad.kind.nnode * args.pad.spaceNdim ≤ kk.ncol)
    (hreg : GradRegular inv args.pad args.gauss B)
    (hs : ∀ p < args.gauss.npoint, ∀ bb, Holds args.pad (B p) bb → fnD p (shapeN args p) bb = .ok (D p)) :
    ∃ k' pad', mat10Bdb inv kk args fnD = (k', .ok pad') ∧
      ∀ (b : Nat → ℝ) (W : Nat → Nat → ℝ), (∀ i j, W i j = - W j i) → ∀ m < args.pad.kind.nnode, ∀ i < args.pad.spaceNdim,
        ∑ n ∈ Finset.range args.pad.kind.nnode, ∑ j ∈ Finset.range args.pad.spaceNdim,
          added2 args kk k' (args.ii0 + (i + m * args.pad.spaceNdim)) (args.jj0 + (j + n * args.pad.spaceNdim)) * linearField args.pad b W n j = 0 := by
  obtain ⟨k', pad', h, h1⟩ := C39_mat_10_patch hinv kk args hd hax fnD D B hr hc hreg hs
  refine ⟨k', pad', h, fun b W hW m hm i hi => ?_⟩
  rw [h1 b W m hm i hi]
  refine quadrature_zero fun p _ => Finset.sum_eq_zero fun k _ => Finset.sum_eq_zero fun l _ => ?_
  have h4 : ∀ k' l', tensor4 (D p) k l k' l' = tensor4 (D p) k l l' k' := by
    intro k' l'
    unfold tensor4 mandelFac mandelIdx
    by_cases h : k' = l'
    · subst h; rfl
    · simp only [if_neg h, if_neg (Ne.symm h), Nat.add_comm l' k']
  have e : ∑ k' ∈ Finset.range args.pad.spaceNdim, ∑ l' ∈ Finset.range args.pad.spaceNdim, tensor4 (D p) k l k' l' * W k' l' =
      - ∑ k' ∈ Finset.range args.pad.spaceNdim, ∑ l' ∈ Finset.range args.pad.spaceNdim, tensor4 (D p) k l k' l' * W k' l' := by
    conv_rhs => rw [Finset.sum_comm]
    rw [← Finset.sum_neg_distrib]
    refine Finset.sum_congr rfl fun k' _ => ?_
    rw [← Finset.sum_neg_distrib]
    refine Finset.sum_congr rfl fun l' _ => ?_
    rw [h4 l' k', hW l' k']
    ring
  rw [show (∑ k' ∈ Finset.range args.pad.spaceNdim, ∑ l' ∈ Finset.range args.pad.spaceNdim, tensor4 (D p) k l k' l' * W k' l') = 0 by linarith, mul_zero]

end
end Gemlab.Props.Integ
