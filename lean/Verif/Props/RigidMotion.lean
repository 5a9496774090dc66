import Verif.Proofs.RigidMotion

/-!
# C94: rigid motions

An element and the same element after the motion `x ↦ Q x + c` (a rotation and a translation). Scalars given to an integration routine are the same in both
runs, vectors and tensors are rotated. Then scalar results are the same, and results with components are rotated.
-/
set_option linter.unusedSimpArgs false
set_option linter.unusedVariables false
namespace Gemlab.Props.Integ
open Gemlab Gemlab.Integ Gemlab.Spec.Integ Gemlab.Scratchpad
noncomputable section

variable {Q : Nat → Nat → ℝ} {c : Nat → ℝ} {pad pad' : Scratchpad} {inv : MatInverse}

/-- **C94, coordinates.** The point of the moved element at `ξ` is the moved point. -/
theorem C94_coords (h : Moved Q c pad pad') {ξ x x' : Nat → ℝ} {p p' : Scratchpad} (hx : pad.calcCoords pad.spaceNdim ξ = .ok (x, p))
    (hx' : pad'.calcCoords pad.spaceNdim ξ = .ok (x', p')) : ∀ i < pad.spaceNdim, x' i = rotV pad.spaceNdim Q x i + c i := by
  intro i hi
  unfold calcCoords at hx hx'
  split at hx
  · exact absurd hx (by simp)
  split at hx
  · exact absurd hx (by simp)
  split at hx'
  · exact absurd hx' (by simp)
  split at hx'
  · exact absurd hx' (by simp)
  simp only [Res.ok.injEq, Prod.mk.injEq] at hx hx'
  rw [← hx.1, ← hx'.1]
  change ∑ m ∈ Finset.range pad'.kind.nnode, pad'.X m i * Shapes.calcInterp pad'.kind ξ m = rotV pad.spaceNdim Q (fun i => ∑ m ∈ Finset.range pad.kind.nnode, pad.X m i * Shapes.calcInterp pad.kind ξ m) i + c i
  rw [h.kind]
  have e : ∀ m ∈ Finset.range pad.kind.nnode, pad'.X m i * Shapes.calcInterp pad.kind ξ m =
      (∑ k ∈ Finset.range pad.spaceNdim, Q i k * (pad.X m k * Shapes.calcInterp pad.kind ξ m)) + c i * Shapes.calcInterp pad.kind ξ m := by
    intro m hm
    rw [h.coords m (Finset.mem_range.1 hm) i hi, rotV, add_mul, Finset.sum_mul]
    congr 1
    exact Finset.sum_congr rfl fun k _ => by ring
  rw [Finset.sum_congr rfl e, Finset.sum_add_distrib, ← Finset.mul_sum, Props.Shapes.C25_partition_of_unity, mul_one, Finset.sum_comm, rotV]
  congr 1
  exact Finset.sum_congr rfl fun k _ => by rw [Finset.mul_sum]

/-- **C94, Jacobian.** The determinant (or length) is the same. -/
theorem C94_jacobian (hinv : InverseSpec inv) (h : Moved Q c pad pad') {ξ : Nat → ℝ} {r r' : ℝ × Scratchpad} (hr : pad.calcJacobian inv ξ = .ok r)
    (hr' : pad'.calcJacobian inv ξ = .ok r') : r'.1 = r.1 := by
  obtain ⟨a, p⟩ := r
  obtain ⟨a', p'⟩ := r'
  rw [measure_eq hinv hr, measure_eq hinv hr', measure_moved h]

/-- **C94, gradient.** The gradients of the shape functions are rotated. -/
theorem C94_gradient (hinv : InverseSpec inv) (h : Moved Q c pad pad') {ξ : Nat → ℝ} {r r' : ℝ × Scratchpad} (hr : pad.calcGradient inv ξ = .ok r)
    (hr' : pad'.calcGradient inv ξ = .ok r') :
    r'.1 = r.1 ∧ ∀ m < pad.kind.nnode, ∀ i < pad.spaceNdim, r'.2.gradient m i = rotV pad.spaceNdim Q (r.2.gradient m) i := by
  obtain ⟨a, p⟩ := r
  obtain ⟨a', p'⟩ := r'
  have hk := gradReg_ndim ⟨_, hr⟩
  have hB := gradient_exists hinv hr
  obtain ⟨e1, e2⟩ := gradient_eq hinv hr' (grad_moved h hk hB)
  refine ⟨?_, fun m hm i hi => e2 m (by rw [h.kind]; exact hm) i (by rw [h.ndim]; exact hi)⟩
  have := (gradient_eq hinv hr hB).1
  simp only at this ⊢
  rw [e1, this, detJ_moved h hk]

/-- **C94, normals.** The magnitude is the same, and the normal vector is rotated. -/
theorem C94_normal (h : Moved Q c pad pad') (hd : SpaceOk pad) (n : Nat) (ξ : Nat → ℝ) {mag : ℝ} {un : Nat → ℝ} {p0 : Scratchpad}
    (hn : pad.calcNormalVector n ξ = .ok (mag, un, p0)) :
    ∃ un' p0', pad'.calcNormalVector n ξ = .ok (mag, un', p0') ∧ ∀ i < pad.spaceNdim, un' i = rotV pad.spaceNdim Q un i := normal_moved h hd n ξ hn

/-- **C94, integral of a scalar field.** -/
theorem C94_scalar_field (hinv : InverseSpec inv) (h : Moved Q c pad pad') (g : Gauss) (fnS fnS' : Nat → Res ℝ) (s : Nat → ℝ) (hreg : JacRegular inv pad g)
    (hreg' : JacRegular inv pad' g) (hs : ∀ p < g.npoint, fnS p = .ok (s p)) (hs' : ∀ p < g.npoint, fnS' p = .ok (s p)) :
    ∃ v, scalarField inv pad g fnS = .ok v ∧ scalarField inv pad' g fnS' = .ok v := by
  refine ⟨_, C37_scalar_field hinv pad g fnS s hreg hs, ?_⟩
  rw [C37_scalar_field hinv pad' g fnS' s hreg' hs']
  simp only [measure_moved h]

/-! ## The routines

`args` are the arguments for the first element; the moved element is used with the same arguments except for the pad. -/

/-- The arguments with another pad. -/
def withPad (args : CommonArgs) (pad' : Scratchpad) : CommonArgs := { args with pad := pad' }

/-- The callback returns `val p` at point `p` if it is given the shape functions and the gradient matrix. -/
def Returns {α : Type} (args : CommonArgs) (B : Nat → Nat → Nat → ℝ) (fn : Nat → (Nat → ℝ) → (Nat → Nat → ℝ) → Res α) (val : Nat → α) : Prop :=
  ∀ p < args.gauss.npoint, ∀ bb, Holds args.pad (B p) bb → fn p (shapeN args p) bb = .ok (val p)

/-- The rotated gradients. -/
def rotB (d : Nat) (Q : Nat → Nat → ℝ) (B : Nat → Nat → Nat → ℝ) : Nat → Nat → Nat → ℝ := fun p m => rotV d Q (B p m)

variable {args : CommonArgs}

theorem shapeN_moved (h : Moved Q c args.pad pad') : shapeN (withPad args pad') = shapeN args := by
  funext p m
  unfold shapeN withPad
  rw [h.kind]

theorem gradRegular_moved (h : Moved Q c args.pad pad') {B : Nat → Nat → Nat → ℝ} (hreg : GradRegular inv args.pad args.gauss B)
    (hreg' : ∀ p < args.gauss.npoint, ∃ r, pad'.calcGradient inv (args.gauss.coords p) = .ok r) :
    GradRegular inv pad' args.gauss (rotB args.pad.spaceNdim Q B) :=
  fun p hp => ⟨hreg' p hp, grad_moved h (gradReg_ndim (hreg p hp).1) (hreg p hp).2⟩

theorem quad_moved (hax : args.axisymmetric = false) {μ μ' : (Nat → ℝ) → ℝ} {f f' : Nat → ℝ}
    (hμ : ∀ p < args.gauss.npoint, μ' (args.gauss.coords p) = μ (args.gauss.coords p)) (hf : ∀ p < args.gauss.npoint, f' p = f p) :
    quadrature (withPad args pad') μ' f' = quadrature args μ f := quad_eq hax hμ hf

/-- The two vectors are equal. -/
def Same1 (a1 a2 : Vec) : Prop := a2.dim = a1.dim ∧ ∀ i, a2.val i = a1.val i

/-- The two matrices are equal. -/
def Same2 (k1 k2 : Mat) : Prop := k2.nrow = k1.nrow ∧ k2.ncol = k1.ncol ∧ ∀ i j, k2.val (i, j) = k1.val (i, j)

/-- What was added to `a` in the second run is what was added in the first run, rotated at each of the `n` nodes. -/
def Rot1 (args : CommonArgs) (d n : Nat) (Q : Nat → Nat → ℝ) (a a1 a2 : Vec) : Prop :=
  ∀ m < n, ∀ i < d, added1 args a a2 (args.ii0 + (i + m * d)) = rotV d Q (fun j => added1 args a a1 (args.ii0 + (j + m * d))) i

/-- What was added to `k` in the second run is what was added in the first run, with the rows rotated at each of the `nr` nodes. -/
def RotRows (args : CommonArgs) (d nr nc : Nat) (Q : Nat → Nat → ℝ) (k k1 k2 : Mat) : Prop :=
  ∀ m < nr, ∀ i < d, ∀ n < nc, added2 args k k2 (args.ii0 + (i + m * d)) (args.jj0 + n) = rotV d Q (fun j => added2 args k k1 (args.ii0 + (j + m * d)) (args.jj0 + n)) i

/-- The same for the columns. -/
def RotCols (args : CommonArgs) (d nr nc : Nat) (Q : Nat → Nat → ℝ) (k k1 k2 : Mat) : Prop :=
  ∀ m < nr, ∀ n < nc, ∀ i < d, added2 args k k2 (args.ii0 + m) (args.jj0 + (i + n * d)) = rotV d Q (fun j => added2 args k k1 (args.ii0 + m) (args.jj0 + (j + n * d))) i

/-- The same for the rows and the columns: each block of `d × d` components is `Q K Qᵀ`. -/
def RotBoth (args : CommonArgs) (d nn : Nat) (Q : Nat → Nat → ℝ) (k k1 k2 : Mat) : Prop :=
  ∀ m < nn, ∀ i < d, ∀ n < nn, ∀ j < d, added2 args k k2 (args.ii0 + (i + m * d)) (args.jj0 + (j + n * d)) =
    rotT d Q (fun i' j' => added2 args k k1 (args.ii0 + (i' + m * d)) (args.jj0 + (j' + n * d))) i j

theorem same1 {a a1 a2 : Vec} {cl : Bool} {ii0 n : Nat} {S1 S2 : Nat → ℝ} (h1 : IsBlockSum1 a a1 cl ii0 n S1) (h2 : IsBlockSum1 a a2 cl ii0 n S2)
    (h : ∀ m < n, S2 m = S1 m) : Same1 a1 a2 := by
  refine ⟨h2.1.trans h1.1.symm, fun i => ?_⟩
  rw [h1.2, h2.2]
  congr 1
  split
  · rw [h _ (by omega)]
  · rfl

theorem same2 {a a1 a2 : Mat} {cl : Bool} {ii0 jj0 nr nc : Nat} {S1 S2 : Nat → Nat → ℝ} (h1 : IsBlockSum2 a a1 cl ii0 jj0 nr nc S1)
    (h2 : IsBlockSum2 a a2 cl ii0 jj0 nr nc S2) (h : ∀ m < nr, ∀ n < nc, S2 m n = S1 m n) : Same2 a1 a2 := by
  refine ⟨h2.1.trans h1.1.symm, h2.2.1.trans h1.2.1.symm, fun i j => ?_⟩
  rw [h1.2.2, h2.2.2]
  congr 1
  split
  · rw [h _ (by omega) _ (by omega)]
  · rfl

theorem rot1 {a a1 a2 : Vec} {d n : Nat} {S1 S2 : Nat → ℝ} (h1 : IsBlockSum1 a a1 args.clear args.ii0 (n * d) S1)
    (h2 : IsBlockSum1 a a2 args.clear args.ii0 (n * d) S2) (h : ∀ m < n, ∀ i < d, S2 (i + m * d) = rotV d Q (fun j => S1 (j + m * d)) i) : Rot1 args d n Q a a1 a2 := by
  intro m hm i hi
  rw [added1_eq h2 (digit_lt hm hi), h m hm i hi]
  exact rotV_congr (fun j hj => (added1_eq h1 (digit_lt hm hj)).symm) i

theorem rotRows {a a1 a2 : Mat} {d nr nc : Nat} {S1 S2 : Nat → Nat → ℝ} (h1 : IsBlockSum2 a a1 args.clear args.ii0 args.jj0 (nr * d) nc S1)
    (h2 : IsBlockSum2 a a2 args.clear args.ii0 args.jj0 (nr * d) nc S2)
    (h : ∀ m < nr, ∀ i < d, ∀ n < nc, S2 (i + m * d) n = rotV d Q (fun j => S1 (j + m * d) n) i) : RotRows args d nr nc Q a a1 a2 := by
  intro m hm i hi n hn
  rw [added2_eq h2 (digit_lt hm hi) hn, h m hm i hi n hn]
  exact rotV_congr (fun j hj => (added2_eq h1 (digit_lt hm hj) hn).symm) i

theorem rotCols {a a1 a2 : Mat} {d nr nc : Nat} {S1 S2 : Nat → Nat → ℝ} (h1 : IsBlockSum2 a a1 args.clear args.ii0 args.jj0 nr (nc * d) S1)
    (h2 : IsBlockSum2 a a2 args.clear args.ii0 args.jj0 nr (nc * d) S2)
    (h : ∀ m < nr, ∀ n < nc, ∀ i < d, S2 m (i + n * d) = rotV d Q (fun j => S1 m (j + n * d)) i) : RotCols args d nr nc Q a a1 a2 := by
  intro m hm n hn i hi
  rw [added2_eq h2 hm (digit_lt hn hi), h m hm n hn i hi]
  exact rotV_congr (fun j hj => (added2_eq h1 hm (digit_lt hn hj)).symm) i

theorem rotT_congr {d : Nat} {u v : Nat → Nat → ℝ} (h : ∀ k < d, ∀ l < d, u k l = v k l) (i j : Nat) : rotT d Q u i j = rotT d Q v i j := by
  rw [rotT_eq, rotT_eq]
  exact rotV_congr (fun k hk => rotV_congr (h k hk) j) i

theorem rotBoth {a a1 a2 : Mat} {d n : Nat} {S1 S2 : Nat → Nat → ℝ} (h1 : IsBlockSum2 a a1 args.clear args.ii0 args.jj0 (n * d) (n * d) S1)
    (h2 : IsBlockSum2 a a2 args.clear args.ii0 args.jj0 (n * d) (n * d) S2)
    (h : ∀ m < n, ∀ i < d, ∀ m' < n, ∀ j < d, S2 (i + m * d) (j + m' * d) = rotT d Q (fun i' j' => S1 (i' + m * d) (j' + m' * d)) i j) :
    RotBoth args d n Q a a1 a2 := by
  intro m hm i hi m' hm' j hj
  rw [added2_eq h2 (digit_lt hm hi) (digit_lt hm' hj), h m hm i hi m' hm' j hj]
  exact rotT_congr (fun k hk l hl => (added2_eq h1 (digit_lt hm hk) (digit_lt hm' hl)).symm) i j

/-- **C94, `vec_01_ns`.** -/
theorem C94_vec_01_ns (hinv : InverseSpec inv) (h : Moved Q c args.pad pad') (hax : args.axisymmetric = false) (a : Vec) (fn fn' : Nat → (Nat → ℝ) → Res ℝ) (s : Nat → ℝ)
    (hsize : args.ii0 + args.pad.kind.nnode ≤ a.dim) (hreg : JacRegular inv args.pad args.gauss) (hreg' : JacRegular inv pad' args.gauss)
    (hs : ∀ p < args.gauss.npoint, fn p (shapeN args p) = .ok (s p)) (hs' : ∀ p < args.gauss.npoint, fn' p (shapeN args p) = .ok (s p)) :
    ∃ a1 p1 a2 p2, vec01Ns inv a args fn = (a1, .ok p1) ∧ vec01Ns inv a (withPad args pad') fn' = (a2, .ok p2) ∧ Same1 a1 a2 := by
  have hk : (withPad args pad').pad.kind = args.pad.kind := h.kind
  obtain ⟨a1, p1, e1, b1⟩ := C37_vec_01_ns hinv a args fn s hsize hreg hs
  obtain ⟨a2, p2, e2, b2⟩ := C37_vec_01_ns hinv a (withPad args pad') fn' s (by rw [hk]; exact hsize) hreg' (by rw [shapeN_moved h]; exact hs')
  rw [shapeN_moved h, hk] at b2
  exact ⟨a1, p1, a2, p2, e1, e2, same1 b1 b2 fun m _ => quad_moved hax (fun p _ => measure_moved h _) (fun _ _ => rfl)⟩

/-- **C94, `vec_02_nv`** with the vectors `v` and `Q v`. -/
theorem C94_vec_02_nv (hinv : InverseSpec inv) (h : Moved Q c args.pad pad') (hd : SpaceOk args.pad) (hax : args.axisymmetric = false) (b : Vec)
    (fn fn' : Nat → (Nat → ℝ) → Res (Nat → ℝ)) (v v' : Nat → Nat → ℝ) (hv : ∀ p < args.gauss.npoint, ∀ i < args.pad.spaceNdim, v' p i = rotV args.pad.spaceNdim Q (v p) i)
    (hsize : args.ii0 + args.pad.kind.nnode * args.pad.spaceNdim ≤ b.dim) (hreg : JacRegular inv args.pad args.gauss) (hreg' : JacRegular inv pad' args.gauss)
    (hs : ∀ p < args.gauss.npoint, fn p (shapeN args p) = .ok (v p)) (hs' : ∀ p < args.gauss.npoint, fn' p (shapeN args p) = .ok (v' p)) :
    ∃ b1 p1 b2 p2, vec02Nv inv b args fn = (b1, .ok p1) ∧ vec02Nv inv b (withPad args pad') fn' = (b2, .ok p2) ∧
      Rot1 args args.pad.spaceNdim args.pad.kind.nnode Q b b1 b2 := by
  have hk : (withPad args pad').pad.kind = args.pad.kind := h.kind
  have hn : (withPad args pad').pad.spaceNdim = args.pad.spaceNdim := h.ndim
  obtain ⟨a1, p1, e1, b1⟩ := C37_vec_02_nv hinv b args hd fn v hsize hreg hs
  obtain ⟨a2, p2, e2, b2⟩ := C37_vec_02_nv hinv b (withPad args pad') (by unfold SpaceOk; rw [hn]; exact hd) fn' v' (by rw [hk, hn]; exact hsize) hreg' (by rw [shapeN_moved h]; exact hs')
  simp only [shapeN_moved h, hk, hn] at b2
  refine ⟨a1, p1, a2, p2, e1, e2, rot1 b1 b2 fun m hm i hi => ?_⟩
  rw [quad_rotV]
  refine quad_moved hax (fun p _ => measure_moved h _) (fun p hp => ?_)
  rw [digit_div hi, digit_mod hi, hv p hp i hi]
  unfold rotV
  rw [Finset.mul_sum]
  exact Finset.sum_congr rfl fun j hj => by beta_reduce; rw [digit_div (Finset.mem_range.1 hj), digit_mod (Finset.mem_range.1 hj)]; ring

/-- **C94, `vec_03_bv`** with the vectors `w` and `Q w`. -/
theorem C94_vec_03_bv (hinv : InverseSpec inv) (h : Moved Q c args.pad pad') (hd : SpaceOk args.pad) (hax : args.axisymmetric = false) (k : Vec)
    (fn fn' : Nat → (Nat → ℝ) → (Nat → Nat → ℝ) → Res (Nat → ℝ)) (w w' : Nat → Nat → ℝ) (B : Nat → Nat → Nat → ℝ)
    (hv : ∀ p < args.gauss.npoint, ∀ i < args.pad.spaceNdim, w' p i = rotV args.pad.spaceNdim Q (w p) i)
    (hsize : args.ii0 + args.pad.kind.nnode ≤ k.dim) (hreg : GradRegular inv args.pad args.gauss B)
    (hreg' : ∀ p < args.gauss.npoint, ∃ r, pad'.calcGradient inv (args.gauss.coords p) = .ok r)
    (hs : Returns args B fn w) (hs' : Returns (withPad args pad') (rotB args.pad.spaceNdim Q B) fn' w') :
    ∃ k1 p1 k2 p2, vec03Bv inv k args fn = (k1, .ok p1) ∧ vec03Bv inv k (withPad args pad') fn' = (k2, .ok p2) ∧ Same1 k1 k2 := by
  have hk : (withPad args pad').pad.kind = args.pad.kind := h.kind
  have hn : (withPad args pad').pad.spaceNdim = args.pad.spaceNdim := h.ndim
  obtain ⟨k1, p1, e1, b1⟩ := C37_vec_03_bv hinv k args hd fn w B hsize hreg hs
  obtain ⟨k2, p2, e2, b2⟩ := C37_vec_03_bv hinv k (withPad args pad') (by unfold SpaceOk; rw [hn]; exact hd) fn' w' _ (by rw [hk]; exact hsize) (gradRegular_moved h hreg hreg') hs'
  simp only [shapeN_moved h, hk, hn] at b2
  refine ⟨k1, p1, k2, p2, e1, e2, same1 b1 b2 fun m _ => quad_moved hax (fun p hp => detJ_moved h (gradReg_ndim (hreg p hp).1) _) fun p hp => ?_⟩
  rw [← rot_dot h.rot (w p) (B p m)]
  exact Finset.sum_congr rfl fun i hi => by rw [hv p hp i (Finset.mem_range.1 hi)]; rfl
/-- **C94, `vec_04_bt`** with the tensors `σ` and `Q σ Qᵀ`. -/
theorem C94_vec_04_bt (hinv : InverseSpec inv) (h : Moved Q c args.pad pad') (hd : SpaceOk args.pad) (hax : args.axisymmetric = false) (k : Vec)
    (fn fn' : Nat → (Nat → ℝ) → (Nat → Nat → ℝ) → Res (Nat → ℝ)) (t t' : Nat → Nat → ℝ) (B : Nat → Nat → Nat → ℝ)
    (hv : ∀ p < args.gauss.npoint, ∀ i < args.pad.spaceNdim, ∀ j < args.pad.spaceNdim, tensor2 (t' p) i j = rotT args.pad.spaceNdim Q (tensor2 (t p)) i j)
    (hsize : args.ii0 + args.pad.kind.nnode * args.pad.spaceNdim ≤ k.dim) (hreg : GradRegular inv args.pad args.gauss B)
    (hreg' : ∀ p < args.gauss.npoint, ∃ r, pad'.calcGradient inv (args.gauss.coords p) = .ok r)
    (hs : Returns args B fn t) (hs' : Returns (withPad args pad') (rotB args.pad.spaceNdim Q B) fn' t') :
    ∃ k1 p1 k2 p2, vec04Bt inv k args fn = (k1, .ok p1) ∧ vec04Bt inv k (withPad args pad') fn' = (k2, .ok p2) ∧ Rot1 args args.pad.spaceNdim args.pad.kind.nnode Q k k1 k2 := by
  have hk : (withPad args pad').pad.kind = args.pad.kind := h.kind
  have hn : (withPad args pad').pad.spaceNdim = args.pad.spaceNdim := h.ndim
  obtain ⟨k1, p1, e1, b1⟩ := C37_vec_04_bt hinv k args hd (by simp [hax]) fn t B hsize hreg hs
  obtain ⟨k2, p2, e2, b2⟩ := C37_vec_04_bt hinv k (withPad args pad') (by unfold SpaceOk; rw [hn]; exact hd) (by simp [withPad, hax]) fn' t' _ (by rw [hk, hn]; exact hsize) (gradRegular_moved h hreg hreg') hs'
  simp only [shapeN_moved h, hk, hn] at b2
  refine ⟨k1, p1, k2, p2, e1, e2, rot1 b1 b2 fun m hm i hi => ?_⟩
  have h3 : ∀ i < args.pad.spaceNdim, i < 3 := fun i hi => by rcases hd with hd | hd <;> omega
  rw [quad_rotV]
  refine quad_moved hax (fun p hp => detJ_moved h (gradReg_ndim (hreg p hp).1) _) fun p hp => ?_
  rw [digit_div hi, digit_mod hi, strain_plane (args := withPad args pad') hax (by unfold SpaceOk; rw [hn]; exact hd) _ p m i (h3 i hi), hn]
  have e : ∀ j < args.pad.spaceNdim, ∑ k ∈ Finset.range 3, ∑ l ∈ Finset.range 3, strainOp args (B p) p ((j + m * args.pad.spaceNdim) / args.pad.spaceNdim) ((j + m * args.pad.spaceNdim) % args.pad.spaceNdim) k l * tensor2 (t p) k l =
      ∑ l ∈ Finset.range args.pad.spaceNdim, tensor2 (t p) j l * B p m l := by
    intro j hj
    rw [digit_div hj, digit_mod hj, strain_plane hax hd _ p m j (h3 j hj)]
    exact Finset.sum_congr rfl fun l _ => mul_comm _ _
  rw [rotV_congr e, ← rotT_rotV h.rot (tensor2 (t p)) (B p m) i]
  exact Finset.sum_congr rfl fun j hj => by rw [hv p hp i hi j (Finset.mem_range.1 hj), mul_comm]; rfl
/-- **C94, `mat_01_nsn`.** -/
theorem C94_mat_01_nsn (hinv : InverseSpec inv) (h : Moved Q c args.pad pad') (hd : SpaceOk args.pad) (hax : args.axisymmetric = false) (k : Mat)
    (fn fn' : Nat → (Nat → ℝ) → (Nat → Nat → ℝ) → Res ℝ) (s : Nat → ℝ) (B : Nat → Nat → Nat → ℝ)
    (hr : args.ii0 + args.pad.kind.nnode ≤ k.nrow) (hc : args.jj0 + args.pad.kind.nnode ≤ k.ncol) (hreg : GradRegular inv args.pad args.gauss B)
    (hreg' : ∀ p < args.gauss.npoint, ∃ r, pad'.calcGradient inv (args.gauss.coords p) = .ok r)
    (hs : Returns args B fn s) (hs' : Returns (withPad args pad') (rotB args.pad.spaceNdim Q B) fn' s) :
    ∃ k1 p1 k2 p2, mat01Nsn inv k args fn = (k1, .ok p1) ∧ mat01Nsn inv k (withPad args pad') fn' = (k2, .ok p2) ∧ Same2 k1 k2 := by
  have hk : (withPad args pad').pad.kind = args.pad.kind := h.kind
  have hn : (withPad args pad').pad.spaceNdim = args.pad.spaceNdim := h.ndim
  obtain ⟨k1, p1, e1, b1⟩ := C37_mat_01_nsn hinv k args fn s B hr hc hreg hs
  obtain ⟨k2, p2, e2, b2⟩ := C37_mat_01_nsn hinv k (withPad args pad') fn' s _ (by rw [hk]; exact hr) (by rw [hk]; exact hc) (gradRegular_moved h hreg hreg') hs'
  simp only [shapeN_moved h, hk, hn] at b2
  exact ⟨k1, p1, k2, p2, e1, e2, same2 b1 b2 fun m _ n _ => quad_moved hax (fun p hp => detJ_moved h (gradReg_ndim (hreg p hp).1) _) fun p hp => rfl⟩
/-- **C94, `mat_02_bvn`** with the vectors `v` and `Q v`. -/
theorem C94_mat_02_bvn (hinv : InverseSpec inv) (h : Moved Q c args.pad pad') (hd : SpaceOk args.pad) (hax : args.axisymmetric = false) (k : Mat)
    (fn fn' : Nat → (Nat → ℝ) → (Nat → Nat → ℝ) → Res (Nat → ℝ)) (v v' : Nat → Nat → ℝ) (B : Nat → Nat → Nat → ℝ)
    (hv : ∀ p < args.gauss.npoint, ∀ i < args.pad.spaceNdim, v' p i = rotV args.pad.spaceNdim Q (v p) i)
    (hr : args.ii0 + args.pad.kind.nnode ≤ k.nrow) (hc : args.jj0 + args.pad.kind.nnode ≤ k.ncol) (hreg : GradRegular inv args.pad args.gauss B)
    (hreg' : ∀ p < args.gauss.npoint, ∃ r, pad'.calcGradient inv (args.gauss.coords p) = .ok r)
    (hs : Returns args B fn v) (hs' : Returns (withPad args pad') (rotB args.pad.spaceNdim Q B) fn' v') :
    ∃ k1 p1 k2 p2, mat02Bvn inv k args fn = (k1, .ok p1) ∧ mat02Bvn inv k (withPad args pad') fn' = (k2, .ok p2) ∧ Same2 k1 k2 := by
  have hk : (withPad args pad').pad.kind = args.pad.kind := h.kind
  have hn : (withPad args pad').pad.spaceNdim = args.pad.spaceNdim := h.ndim
  obtain ⟨k1, p1, e1, b1⟩ := C37_mat_02_bvn hinv k args hd fn v B hr hc hreg hs
  obtain ⟨k2, p2, e2, b2⟩ := C37_mat_02_bvn hinv k (withPad args pad') (by unfold SpaceOk; rw [hn]; exact hd) fn' v' _ (by rw [hk]; exact hr) (by rw [hk]; exact hc) (gradRegular_moved h hreg hreg') hs'
  simp only [shapeN_moved h, hk, hn] at b2
  refine ⟨k1, p1, k2, p2, e1, e2, same2 b1 b2 fun m _ n _ => quad_moved hax (fun p hp => detJ_moved h (gradReg_ndim (hreg p hp).1) _) fun p hp => ?_⟩
  rw [← rot_dot h.rot (B p m) (v p)]
  congr 1
  exact Finset.sum_congr rfl fun i hi => by rw [hv p hp i (Finset.mem_range.1 hi)]; rfl
/-- **C94, `mat_03_btb`** with the tensors `T` and `Q T Qᵀ`. -/
theorem C94_mat_03_btb (hinv : InverseSpec inv) (h : Moved Q c args.pad pad') (hd : SpaceOk args.pad) (hax : args.axisymmetric = false) (k : Mat)
    (fn fn' : Nat → (Nat → ℝ) → (Nat → Nat → ℝ) → Res (Nat → ℝ)) (t t' : Nat → Nat → ℝ) (B : Nat → Nat → Nat → ℝ)
    (hv : ∀ p < args.gauss.npoint, ∀ i < args.pad.spaceNdim, ∀ j < args.pad.spaceNdim, tensor2 (t' p) i j = rotT args.pad.spaceNdim Q (tensor2 (t p)) i j)
    (hr : args.ii0 + args.pad.kind.nnode ≤ k.nrow) (hc : args.jj0 + args.pad.kind.nnode ≤ k.ncol) (hreg : GradRegular inv args.pad args.gauss B)
    (hreg' : ∀ p < args.gauss.npoint, ∃ r, pad'.calcGradient inv (args.gauss.coords p) = .ok r)
    (hs : Returns args B fn t) (hs' : Returns (withPad args pad') (rotB args.pad.spaceNdim Q B) fn' t') :
    ∃ k1 p1 k2 p2, mat03Btb inv k args fn = (k1, .ok p1) ∧ mat03Btb inv k (withPad args pad') fn' = (k2, .ok p2) ∧ Same2 k1 k2 := by
  have hk : (withPad args pad').pad.kind = args.pad.kind := h.kind
  have hn : (withPad args pad').pad.spaceNdim = args.pad.spaceNdim := h.ndim
  obtain ⟨k1, p1, e1, b1⟩ := C37_mat_03_btb hinv k args hd fn t B hr hc hreg hs
  obtain ⟨k2, p2, e2, b2⟩ := C37_mat_03_btb hinv k (withPad args pad') (by unfold SpaceOk; rw [hn]; exact hd) fn' t' _ (by rw [hk]; exact hr) (by rw [hk]; exact hc) (gradRegular_moved h hreg hreg') hs'
  simp only [shapeN_moved h, hk, hn] at b2
  refine ⟨k1, p1, k2, p2, e1, e2, same2 b1 b2 fun m _ n _ => quad_moved hax (fun p hp => detJ_moved h (gradReg_ndim (hreg p hp).1) _) fun p hp => ?_⟩
  have e1 : ∑ i ∈ Finset.range args.pad.spaceNdim, ∑ j ∈ Finset.range args.pad.spaceNdim, rotB args.pad.spaceNdim Q B p m i * tensor2 (t' p) i j * rotB args.pad.spaceNdim Q B p n j =
      ∑ i ∈ Finset.range args.pad.spaceNdim, rotV args.pad.spaceNdim Q (B p m) i * rotV args.pad.spaceNdim Q (fun k => ∑ l ∈ Finset.range args.pad.spaceNdim, tensor2 (t p) k l * B p n l) i := by
    refine Finset.sum_congr rfl fun i hi => ?_
    rw [← rotT_rotV h.rot, Finset.mul_sum]
    exact Finset.sum_congr rfl fun j hj => by rw [hv p hp i (Finset.mem_range.1 hi) j (Finset.mem_range.1 hj)]; unfold rotB; ring
  rw [e1, rot_dot h.rot]
  refine Finset.sum_congr rfl fun i _ => ?_
  rw [Finset.mul_sum]
  exact Finset.sum_congr rfl fun j _ => by ring
/-- **C94, `mat_08_ntn`** with the tensors `T` and `Q T Qᵀ`. -/
theorem C94_mat_08_ntn (hinv : InverseSpec inv) (h : Moved Q c args.pad pad') (hd : SpaceOk args.pad) (hax : args.axisymmetric = false) (k : Mat)
    (fn fn' : Nat → (Nat → ℝ) → (Nat → Nat → ℝ) → Res (Nat → ℝ)) (t t' : Nat → Nat → ℝ) (B : Nat → Nat → Nat → ℝ)
    (hv : ∀ p < args.gauss.npoint, ∀ i < args.pad.spaceNdim, ∀ j < args.pad.spaceNdim, tensor2 (t' p) i j = rotT args.pad.spaceNdim Q (tensor2 (t p)) i j)
    (hr : args.ii0 + args.pad.kind.nnode * args.pad.spaceNdim ≤ k.nrow) (hc : args.jj0 + args.pad.kind.nnode * args.pad.spaceNdim ≤ k.ncol) (hreg : GradRegular inv args.pad args.gauss B)
    (hreg' : ∀ p < args.gauss.npoint, ∃ r, pad'.calcGradient inv (args.gauss.coords p) = .ok r)
    (hs : Returns args B fn t) (hs' : Returns (withPad args pad') (rotB args.pad.spaceNdim Q B) fn' t') :
    ∃ k1 p1 k2 p2, mat08Ntn inv k args fn = (k1, .ok p1) ∧ mat08Ntn inv k (withPad args pad') fn' = (k2, .ok p2) ∧ RotBoth args args.pad.spaceNdim args.pad.kind.nnode Q k k1 k2 := by
  have hk : (withPad args pad').pad.kind = args.pad.kind := h.kind
  have hn : (withPad args pad').pad.spaceNdim = args.pad.spaceNdim := h.ndim
  obtain ⟨k1, p1, e1, b1⟩ := C37_mat_08_ntn hinv k args hd fn t B hr hc hreg hs
  obtain ⟨k2, p2, e2, b2⟩ := C37_mat_08_ntn hinv k (withPad args pad') (by unfold SpaceOk; rw [hn]; exact hd) fn' t' _ (by rw [hk, hn]; exact hr) (by rw [hk, hn]; exact hc) (gradRegular_moved h hreg hreg') hs'
  simp only [shapeN_moved h, hk, hn] at b2
  refine ⟨k1, p1, k2, p2, e1, e2, rotBoth b1 b2 fun m hm i hi n hn j hj => ?_⟩
  rw [quad_rotT]
  refine quad_moved hax (fun p hp => detJ_moved h (gradReg_ndim (hreg p hp).1) _) fun p hp => ?_
  rw [digit_div hi, digit_mod hi, digit_div hj, digit_mod hj, hv p hp i hi j hj]
  unfold rotT
  rw [Finset.mul_sum, Finset.sum_mul]
  refine Finset.sum_congr rfl fun k hk => ?_
  rw [Finset.mul_sum, Finset.sum_mul]
  refine Finset.sum_congr rfl fun l hl => ?_
  beta_reduce
  rw [digit_div (Finset.mem_range.1 hk), digit_mod (Finset.mem_range.1 hk), digit_div (Finset.mem_range.1 hl), digit_mod (Finset.mem_range.1 hl)]
  ring
/-- **C94, `mat_09_nvb`** with the vectors `v` and `Q v`. -/
theorem C94_mat_09_nvb (hinv : InverseSpec inv) (h : Moved Q c args.pad pad') (hd : SpaceOk args.pad) (hax : args.axisymmetric = false) (k : Mat)
    (fn fn' : Nat → (Nat → ℝ) → (Nat → Nat → ℝ) → Res (Nat → ℝ)) (v v' : Nat → Nat → ℝ) (B : Nat → Nat → Nat → ℝ)
    (hv : ∀ p < args.gauss.npoint, ∀ i < args.pad.spaceNdim, v' p i = rotV args.pad.spaceNdim Q (v p) i)
    (hr : args.ii0 + args.pad.kind.nnode * args.pad.spaceNdim ≤ k.nrow) (hc : args.jj0 + args.pad.kind.nnode * args.pad.spaceNdim ≤ k.ncol) (hreg : GradRegular inv args.pad args.gauss B)
    (hreg' : ∀ p < args.gauss.npoint, ∃ r, pad'.calcGradient inv (args.gauss.coords p) = .ok r)
    (hs : Returns args B fn v) (hs' : Returns (withPad args pad') (rotB args.pad.spaceNdim Q B) fn' v') :
    ∃ k1 p1 k2 p2, mat09Nvb inv k args fn = (k1, .ok p1) ∧ mat09Nvb inv k (withPad args pad') fn' = (k2, .ok p2) ∧ RotBoth args args.pad.spaceNdim args.pad.kind.nnode Q k k1 k2 := by
  have hk : (withPad args pad').pad.kind = args.pad.kind := h.kind
  have hn : (withPad args pad').pad.spaceNdim = args.pad.spaceNdim := h.ndim
  obtain ⟨k1, p1, e1, b1⟩ := C37_mat_09_nvb hinv k args hd fn v B hr hc hreg hs
  obtain ⟨k2, p2, e2, b2⟩ := C37_mat_09_nvb hinv k (withPad args pad') (by unfold SpaceOk; rw [hn]; exact hd) fn' v' _ (by rw [hk, hn]; exact hr) (by rw [hk, hn]; exact hc) (gradRegular_moved h hreg hreg') hs'
  simp only [shapeN_moved h, hk, hn] at b2
  refine ⟨k1, p1, k2, p2, e1, e2, rotBoth b1 b2 fun m hm i hi n hn j hj => ?_⟩
  rw [quad_rotT]
  refine quad_moved hax (fun p hp => detJ_moved h (gradReg_ndim (hreg p hp).1) _) fun p hp => ?_
  rw [digit_div hi, digit_mod hi, digit_div hj, digit_mod hj, hv p hp i hi]
  unfold rotT rotB rotV
  rw [mul_assoc, Finset.sum_mul_sum, Finset.mul_sum]
  refine Finset.sum_congr rfl fun k hk => ?_
  rw [Finset.mul_sum]
  refine Finset.sum_congr rfl fun l hl => ?_
  beta_reduce
  rw [digit_div (Finset.mem_range.1 hk), digit_mod (Finset.mem_range.1 hk), digit_div (Finset.mem_range.1 hl), digit_mod (Finset.mem_range.1 hl)]
  ring
/-- **C94, `mat_10_bdb`** with the tensors `D` and `D` rotated. -/
theorem C94_mat_10_bdb (hinv : InverseSpec inv) (h : Moved Q c args.pad pad') (hd : SpaceOk args.pad) (hax : args.axisymmetric = false) (k : Mat)
    (fn fn' : Nat → (Nat → ℝ) → (Nat → Nat → ℝ) → Res (Nat → Nat → ℝ)) (D D' : Nat → Nat → Nat → ℝ) (B : Nat → Nat → Nat → ℝ)
    (hv : ∀ p < args.gauss.npoint, ∀ i < args.pad.spaceNdim, ∀ j < args.pad.spaceNdim, ∀ k < args.pad.spaceNdim, ∀ l < args.pad.spaceNdim, tensor4 (D' p) i j k l = rotD args.pad.spaceNdim Q (tensor4 (D p)) i j k l)
    (hr : args.ii0 + args.pad.kind.nnode * args.pad.spaceNdim ≤ k.nrow) (hc : args.jj0 + args.pad.kind.nnode * args.pad.spaceNdim ≤ k.ncol) (hreg : GradRegular inv args.pad args.gauss B)
    (hreg' : ∀ p < args.gauss.npoint, ∃ r, pad'.calcGradient inv (args.gauss.coords p) = .ok r)
    (hs : Returns args B fn D) (hs' : Returns (withPad args pad') (rotB args.pad.spaceNdim Q B) fn' D') :
    ∃ k1 p1 k2 p2, mat10Bdb inv k args fn = (k1, .ok p1) ∧ mat10Bdb inv k (withPad args pad') fn' = (k2, .ok p2) ∧ RotBoth args args.pad.spaceNdim args.pad.kind.nnode Q k k1 k2 := by
  have hk : (withPad args pad').pad.kind = args.pad.kind := h.kind
  have hn : (withPad args pad').pad.spaceNdim = args.pad.spaceNdim := h.ndim
  obtain ⟨k1, p1, e1, b1⟩ := C37_mat_10_bdb hinv k args hd (by simp [hax]) fn D B hr hc hreg hs
  obtain ⟨k2, p2, e2, b2⟩ := C37_mat_10_bdb hinv k (withPad args pad') (by unfold SpaceOk; rw [hn]; exact hd) (by simp [withPad, hax]) fn' D' _ (by rw [hk, hn]; exact hr) (by rw [hk, hn]; exact hc) (gradRegular_moved h hreg hreg') hs'
  simp only [shapeN_moved h, hk, hn] at b2
  refine ⟨k1, p1, k2, p2, e1, e2, rotBoth b1 b2 fun m hm i hi n hn' j hj => ?_⟩
  have h3 : ∀ i < args.pad.spaceNdim, i < 3 := fun i hi => by rcases hd with hd | hd <;> omega
  rw [quad_rotT]
  refine quad_moved hax (fun p hp => detJ_moved h (gradReg_ndim (hreg p hp).1) _) fun p hp => ?_
  rw [digit_div hi, digit_mod hi, digit_div hj, digit_mod hj,
    stiffness_plane (args := withPad args pad') hax (by unfold SpaceOk; rw [hn]; exact hd) _ _ p m i n j (h3 i hi) (h3 j hj), hn]
  have e : ∀ i < args.pad.spaceNdim, ∀ j < args.pad.spaceNdim, stiffness args (B p) (D p) p ((i + m * args.pad.spaceNdim) / args.pad.spaceNdim) ((i + m * args.pad.spaceNdim) % args.pad.spaceNdim) ((j + n * args.pad.spaceNdim) / args.pad.spaceNdim) ((j + n * args.pad.spaceNdim) % args.pad.spaceNdim) =
      ∑ l ∈ Finset.range args.pad.spaceNdim, B p m l * ∑ l' ∈ Finset.range args.pad.spaceNdim, B p n l' * tensor4 (D p) i l j l' := by
    intro i hi j hj
    rw [digit_div hi, digit_mod hi, digit_div hj, digit_mod hj, stiffness_plane hax hd _ _ p m i n j (h3 i hi) (h3 j hj)]
  rw [rotT_congr e, ← rotD_rotV h.rot (tensor4 (D p)) (B p m) (B p n) i j]
  refine Finset.sum_congr rfl fun k hk => ?_
  congr 1
  refine Finset.sum_congr rfl fun l hl => ?_
  rw [hv p hp i hi k (Finset.mem_range.1 hk) j hj l (Finset.mem_range.1 hl)]
  rfl

end
end Gemlab.Props.Integ
