import Verif.Proofs.Renumber2

/-!
# C99: another starting corner for the same element

An element whose nodes are listed from another starting corner (a rotation of the reference cell) gives the same vectors and matrices, with rows and columns
exchanged like the nodes. `σ m` is the number in the first element of the node `m` of the second element; `π p` is the integration point of the first element which has the
place of the integration point `p` of the second element. The callbacks give the same values at the same places.
-/
set_option linter.unusedVariables false
namespace Gemlab.Props.Integ
open Gemlab Gemlab.Integ Gemlab.Spec.Integ Gemlab.Scratchpad Gemlab.Spec.Renumber Gemlab.Renumber
noncomputable section

variable {A : RefMap} {σ σB π : Nat → Nat} {pad pad' padB padB' : Scratchpad} {inv : MatInverse} {args : CommonArgs}

/-- What was added in the second run at row `r` of the block is what was added in the first run at row `τ r`. -/
def Renum1 (args : CommonArgs) (n : Nat) (τ : Nat → Nat) (a a1 a2 : Vec) : Prop :=
  a2.dim = a1.dim ∧ (∀ r < n, τ r < n) ∧ ∀ r < n, added1 args a a2 (args.ii0 + r) = added1 args a a1 (args.ii0 + τ r)

/-- The same for matrices, with the rows moved by `τ` and the columns by `θ`. -/
def Renum2 (args : CommonArgs) (nr nc : Nat) (τ θ : Nat → Nat) (k k1 k2 : Mat) : Prop :=
  k2.nrow = k1.nrow ∧ k2.ncol = k1.ncol ∧ (∀ r < nr, τ r < nr) ∧ (∀ c < nc, θ c < nc) ∧
  ∀ r < nr, ∀ c < nc, added2 args k k2 (args.ii0 + r) (args.jj0 + c) = added2 args k k1 (args.ii0 + τ r) (args.jj0 + θ c)

theorem renum1 {a a1 a2 : Vec} {n : Nat} {τ : Nat → Nat} {S1 S2 : Nat → ℝ} (h1 : IsBlockSum1 a a1 args.clear args.ii0 n S1)
    (h2 : IsBlockSum1 a a2 args.clear args.ii0 n S2) (ht : ∀ r < n, τ r < n) (h : ∀ r < n, S2 r = S1 (τ r)) : Renum1 args n τ a a1 a2 := by
  refine ⟨h2.1.trans h1.1.symm, ht, fun r hr => ?_⟩
  have := ht r hr
  unfold added1
  rw [h1.2, h2.2, add_sub_cancel_left, add_sub_cancel_left, if_pos ⟨by omega, by omega⟩, if_pos ⟨by omega, by omega⟩, Nat.add_sub_cancel_left, Nat.add_sub_cancel_left, h r hr]

theorem renum2 {a a1 a2 : Mat} {nr nc : Nat} {τ θ : Nat → Nat} {S1 S2 : Nat → Nat → ℝ} (h1 : IsBlockSum2 a a1 args.clear args.ii0 args.jj0 nr nc S1)
    (h2 : IsBlockSum2 a a2 args.clear args.ii0 args.jj0 nr nc S2) (ht : ∀ r < nr, τ r < nr) (hq : ∀ c < nc, θ c < nc)
    (h : ∀ r < nr, ∀ c < nc, S2 r c = S1 (τ r) (θ c)) : Renum2 args nr nc τ θ a a1 a2 := by
  refine ⟨h2.1.trans h1.1.symm, h2.2.1.trans h1.2.1.symm, ht, hq, fun r hr c hc => ?_⟩
  have := ht r hr
  have := hq c hc
  unfold added2
  rw [h1.2.2, h2.2.2, add_sub_cancel_left, add_sub_cancel_left, if_pos (by omega), if_pos (by omega),
    Nat.add_sub_cancel_left, Nat.add_sub_cancel_left, Nat.add_sub_cancel_left, Nat.add_sub_cancel_left, h r hr c hc]

theorem shapeB_point {g : Gauss} (hB : MovesNodes padB.kind A σB) (hpB : MovesPoints padB.kind.ndim g A π) {p : Nat} (hp : p < g.npoint) {m : Nat} (hm : m < padB.kind.nnode) :
    Shapes.calcInterp padB.kind (g.coords p) m = Shapes.calcInterp padB.kind (g.coords (π p)) (σB m) := interp_point hB hpB hp hm

/-! ## The hypotheses are met -/

/-- **C99, nodes.** Every rotation of the reference cell moves nodes to nodes, for all kinds of elements. -/
theorem C99_nodes (k : GeoKind) {A : RefMap} (hA : A ∈ rotations k.classOf) : ∃ σ, MovesNodes k A σ := nodes_exist k hA

/-- **C99, integration points.** Every rotation of the reference cell moves the integration points to integration points with the same weight. -/
theorem C99_points (k : GeoKind) {n : Nat} {t : GaussTable} (h : GaussTable.newSized k.classOf n = .ok t) (he : ExactTable k.classOf n) {A : RefMap}
    (hA : A ∈ rotations k.classOf) : ∃ π, MovesPoints k.ndim t.toGauss A π := points_exist k h he hA

/-- The element of `pad`, with the nodes renumbered. -/
def renumber (σ : Nat → Nat) (pad : Scratchpad) : Scratchpad := { pad with xxt := fun i m => pad.xxt i (σ m) }

theorem renumber_ok (σ : Nat → Nat) (h : pad.kind.ndim ≤ pad.spaceNdim) : Renumbered σ pad (renumber σ pad) := ⟨rfl, rfl, h, fun _ _ _ _ => rfl⟩

/-! ## The element -/

/-- **C99, integral of a scalar field** (lengths, areas, volumes). -/
theorem C99_scalar_field (hinv : InverseSpec inv) (g : Gauss) (h : MovesNodes pad.kind A σ) (hren : Renumbered σ pad pad') (hpts : MovesPoints pad.kind.ndim g A π)
    (hd : SpaceOk pad) (fnS fnS' : Nat → Res ℝ) (s : Nat → ℝ) (hreg : JacRegular inv pad g)
    (hreg' : JacRegular inv pad' g) (hs1 : ∀ p < g.npoint, fnS p = .ok (s p)) (hs2 : ∀ p < g.npoint, fnS' p = .ok (s (π p))) :
    ∃ v, scalarField inv pad g fnS = .ok v ∧ scalarField inv pad' g fnS' = .ok v := by
  refine ⟨_, C37_scalar_field hinv pad g fnS s hreg hs1, ?_⟩
  rw [C37_scalar_field hinv pad' g fnS' (fun p => s (π p)) hreg' hs2]
  rw [← sum_points hpts (fun p => s p * jacMeasure pad (g.coords p) * g.weight p)]
  congr 1
  refine Finset.sum_congr rfl fun p hp => ?_
  have hp := Finset.mem_range.1 hp
  rw [measure_point h hren hpts hd hp, hpts.weight p hp]

/-- With an exact inverse, the renumbered element can be integrated if the first one can. -/
theorem C99_regular {g : Gauss} (h : MovesNodes pad.kind A σ) (hren : Renumbered σ pad pad') (hpts : MovesPoints pad.kind.ndim g A π) (hd : SpaceOk pad)
    (hok : pad'.okXxt = true) (hr : ∀ p < g.npoint, ∃ r, pad.calcGradient exactInverse (g.coords p) = .ok r) :
    ∀ p < g.npoint, ∃ r, pad'.calcGradient exactInverse (g.coords p) = .ok r := by
  intro p0 hp0
  have hk := gradReg_ndim (hr p0 hp0)
  obtain ⟨⟨d, p⟩, hr⟩ := hr (π p0) (hpts.lt p0 hp0)
  obtain ⟨h1, h2, hJ, _⟩ := gradient_facts exactInverse_spec hr
  have h3 : detJ pad' (g.coords p0) ≠ 0 := by
    rw [detJ_point h hren hpts hd hk hp0]
    have : detJ pad (g.coords (π p0)) = detN pad.spaceNdim p.jacobian := by unfold detJ; congr 1; funext i j; exact (hJ i j).symm
    rw [this, ← h1]
    exact h2
  have hk' : pad'.kind.ndim = pad'.spaceNdim := by rw [hren.kind, hren.ndim]; exact hk
  unfold calcGradient calcJacobian
  rw [if_neg (not_not.2 hk'), if_neg (by simp [hok])]
  dsimp only
  have e : exactInverse (pad'.fillJacobian (g.coords p0)).spaceNdim (pad'.fillJacobian (g.coords p0)).jacobian = .ok (_, _) := if_neg h3
  rw [if_pos (show (pad'.fillJacobian (g.coords p0)).kind.ndim = (pad'.fillJacobian (g.coords p0)).spaceNdim from hk'), e]
  exact ⟨_, rfl⟩

/-! ## The routines

`args` are the arguments for the first element; the second element is used with the same arguments except for the pad. -/

/-- **C99, `vec_01_ns`.** -/
theorem C99_vec_01_ns (hinv : InverseSpec inv) (h : MovesNodes args.pad.kind A σ) (hren : Renumbered σ args.pad pad') (hpts : MovesPoints args.pad.kind.ndim args.gauss A π) (hd : SpaceOk args.pad) (k : Vec)
    (fn fn' : Nat → (Nat → ℝ) → Res ℝ) (s : Nat → ℝ)
    (hsize : args.ii0 + args.pad.kind.nnode ≤ k.dim) (hreg : JacRegular inv args.pad args.gauss) (hreg' : JacRegular inv pad' args.gauss)
    (hs : ∀ p < args.gauss.npoint, fn p (shapeN args p) = .ok (s p)) (hs' : ∀ p < args.gauss.npoint, fn' p (shapeN (withPad args pad') p) = .ok (s (π p))) :
    ∃ k1 p1 k2 p2, vec01Ns inv k args fn = (k1, .ok p1) ∧ vec01Ns inv k (withPad args pad') fn' = (k2, .ok p2) ∧
      Renum1 args (args.pad.kind.nnode) σ k k1 k2 := by
  have hk : (withPad args pad').pad.kind = args.pad.kind := hren.kind
  have hn : (withPad args pad').pad.spaceNdim = args.pad.spaceNdim := hren.ndim
  have hsp : SpaceOk (withPad args pad').pad := by unfold SpaceOk; rw [hn]; exact hd
  have hpos : 0 < args.pad.spaceNdim := by rcases hd with hd | hd <;> omega
  obtain ⟨k1, p1, e1, b1⟩ := C37_vec_01_ns hinv k args fn s hsize hreg hs
  obtain ⟨k2, p2, e2, b2⟩ := C37_vec_01_ns hinv k (withPad args pad') fn' (fun p => s (π p)) (by rw [hk]; exact hsize) hreg' hs'
  simp only [hk, hn] at b2
  refine ⟨k1, p1, k2, p2, e1, e2, renum1 b1 b2 h.lt fun m hm => ?_⟩
  refine quad_point h hren hpts hd (fun p hp => measure_point h hren hpts hd hp) fun p hp => ?_
  simp only [rowOf_div hpos, rowOf_mod hpos, shape_point h hren hpts hp hm, turnB]

/-- **C99, `vec_02_nv`.** -/
theorem C99_vec_02_nv (hinv : InverseSpec inv) (h : MovesNodes args.pad.kind A σ) (hren : Renumbered σ args.pad pad') (hpts : MovesPoints args.pad.kind.ndim args.gauss A π) (hd : SpaceOk args.pad) (k : Vec)
    (fn fn' : Nat → (Nat → ℝ) → Res (Nat → ℝ)) (s : Nat → Nat → ℝ)
    (hsize : args.ii0 + args.pad.kind.nnode * args.pad.spaceNdim ≤ k.dim) (hreg : JacRegular inv args.pad args.gauss) (hreg' : JacRegular inv pad' args.gauss)
    (hs : ∀ p < args.gauss.npoint, fn p (shapeN args p) = .ok (s p)) (hs' : ∀ p < args.gauss.npoint, fn' p (shapeN (withPad args pad') p) = .ok (s (π p))) :
    ∃ k1 p1 k2 p2, vec02Nv inv k args fn = (k1, .ok p1) ∧ vec02Nv inv k (withPad args pad') fn' = (k2, .ok p2) ∧
      Renum1 args (args.pad.kind.nnode * args.pad.spaceNdim) (rowOf args.pad.spaceNdim σ) k k1 k2 := by
  have hk : (withPad args pad').pad.kind = args.pad.kind := hren.kind
  have hn : (withPad args pad').pad.spaceNdim = args.pad.spaceNdim := hren.ndim
  have hsp : SpaceOk (withPad args pad').pad := by unfold SpaceOk; rw [hn]; exact hd
  have hpos : 0 < args.pad.spaceNdim := by rcases hd with hd | hd <;> omega
  obtain ⟨k1, p1, e1, b1⟩ := C37_vec_02_nv hinv k args hd fn s hsize hreg hs
  obtain ⟨k2, p2, e2, b2⟩ := C37_vec_02_nv hinv k (withPad args pad') hsp fn' (fun p => s (π p)) (by rw [hk, hn]; exact hsize) hreg' hs'
  simp only [hk, hn] at b2
  refine ⟨k1, p1, k2, p2, e1, e2, renum1 b1 b2 (fun r hr => rowOf_lt hpos h.lt hr) fun m hm => ?_⟩
  refine quad_point h hren hpts hd (fun p hp => measure_point h hren hpts hd hp) fun p hp => ?_
  simp only [rowOf_div hpos, rowOf_mod hpos, shape_point h hren hpts hp (div_lt' hm), turnB]

/-- **C99, `vec_03_bv`.** -/
theorem C99_vec_03_bv (hinv : InverseSpec inv) (h : MovesNodes args.pad.kind A σ) (hren : Renumbered σ args.pad pad') (hpts : MovesPoints args.pad.kind.ndim args.gauss A π) (hd : SpaceOk args.pad) (k : Vec)
    (fn fn' : Nat → (Nat → ℝ) → (Nat → Nat → ℝ) → Res (Nat → ℝ)) (s : Nat → Nat → ℝ) (B : Nat → Nat → Nat → ℝ)
    (hsize : args.ii0 + args.pad.kind.nnode ≤ k.dim) (hreg : GradRegular inv args.pad args.gauss B)
    (hreg' : ∀ p < args.gauss.npoint, ∃ r, pad'.calcGradient inv (args.gauss.coords p) = .ok r)
    (hs : Returns args B fn s) (hs' : Returns (withPad args pad') (turnB σ π B) fn' (fun p => s (π p))) :
    ∃ k1 p1 k2 p2, vec03Bv inv k args fn = (k1, .ok p1) ∧ vec03Bv inv k (withPad args pad') fn' = (k2, .ok p2) ∧
      Renum1 args (args.pad.kind.nnode) σ k k1 k2 := by
  have hk : (withPad args pad').pad.kind = args.pad.kind := hren.kind
  have hn : (withPad args pad').pad.spaceNdim = args.pad.spaceNdim := hren.ndim
  have hsp : SpaceOk (withPad args pad').pad := by unfold SpaceOk; rw [hn]; exact hd
  have hpos : 0 < args.pad.spaceNdim := by rcases hd with hd | hd <;> omega
  obtain ⟨k1, p1, e1, b1⟩ := C37_vec_03_bv hinv k args hd fn s B hsize hreg hs
  obtain ⟨k2, p2, e2, b2⟩ := C37_vec_03_bv hinv k (withPad args pad') hsp fn' (fun p => s (π p)) (turnB σ π B) (by rw [hk]; exact hsize) (gradRegular_turn h hren hpts hreg hreg') hs'
  simp only [hk, hn] at b2
  refine ⟨k1, p1, k2, p2, e1, e2, renum1 b1 b2 h.lt fun m hm => ?_⟩
  refine quad_point h hren hpts hd (fun p hp => detJ_point h hren hpts hd (gradReg_ndim (hreg p hp).1) hp) fun p hp => ?_
  simp only [rowOf_div hpos, rowOf_mod hpos, shape_point h hren hpts hp hm, turnB]

/-- **C99, `vec_04_bt`.** -/
theorem C99_vec_04_bt (hinv : InverseSpec inv) (h : MovesNodes args.pad.kind A σ) (hren : Renumbered σ args.pad pad') (hpts : MovesPoints args.pad.kind.ndim args.gauss A π) (hd : SpaceOk args.pad)
    (haxi : args.axisymmetric = true → args.pad.spaceNdim = 2 ∧ ∀ p < args.gauss.npoint, radiusAt args p ≠ 0) (k : Vec)
    (fn fn' : Nat → (Nat → ℝ) → (Nat → Nat → ℝ) → Res (Nat → ℝ)) (s : Nat → Nat → ℝ) (B : Nat → Nat → Nat → ℝ)
    (hsize : args.ii0 + args.pad.kind.nnode * args.pad.spaceNdim ≤ k.dim) (hreg : GradRegular inv args.pad args.gauss B)
    (hreg' : ∀ p < args.gauss.npoint, ∃ r, pad'.calcGradient inv (args.gauss.coords p) = .ok r)
    (hs : Returns args B fn s) (hs' : Returns (withPad args pad') (turnB σ π B) fn' (fun p => s (π p))) :
    ∃ k1 p1 k2 p2, vec04Bt inv k args fn = (k1, .ok p1) ∧ vec04Bt inv k (withPad args pad') fn' = (k2, .ok p2) ∧
      Renum1 args (args.pad.kind.nnode * args.pad.spaceNdim) (rowOf args.pad.spaceNdim σ) k k1 k2 := by
  have hk : (withPad args pad').pad.kind = args.pad.kind := hren.kind
  have hn : (withPad args pad').pad.spaceNdim = args.pad.spaceNdim := hren.ndim
  have hsp : SpaceOk (withPad args pad').pad := by unfold SpaceOk; rw [hn]; exact hd
  have hpos : 0 < args.pad.spaceNdim := by rcases hd with hd | hd <;> omega
  have haxi' : (withPad args pad').axisymmetric = true → (withPad args pad').pad.spaceNdim = 2 ∧ ∀ p < (withPad args pad').gauss.npoint, radiusAt (withPad args pad') p ≠ 0 := by
    intro ha
    obtain ⟨h1, h2⟩ := haxi ha
    exact ⟨by rw [hn]; exact h1, fun p hp => by rw [radius_point h hren hpts hd hp]; exact h2 _ (hpts.lt p hp)⟩
  obtain ⟨k1, p1, e1, b1⟩ := C37_vec_04_bt hinv k args hd haxi fn s B hsize hreg hs
  obtain ⟨k2, p2, e2, b2⟩ := C37_vec_04_bt hinv k (withPad args pad') hsp haxi' fn' (fun p => s (π p)) (turnB σ π B) (by rw [hk, hn]; exact hsize) (gradRegular_turn h hren hpts hreg hreg') hs'
  simp only [hk, hn] at b2
  refine ⟨k1, p1, k2, p2, e1, e2, renum1 b1 b2 (fun r hr => rowOf_lt hpos h.lt hr) fun m hm => ?_⟩
  refine quad_point h hren hpts hd (fun p hp => detJ_point h hren hpts hd (gradReg_ndim (hreg p hp).1) hp) fun p hp => ?_
  simp only [rowOf_div hpos, rowOf_mod hpos, strain_point h hren hpts hd B hp (div_lt' hm), stiffness]

/-- **C99, `mat_01_nsn`.** -/
theorem C99_mat_01_nsn (hinv : InverseSpec inv) (h : MovesNodes args.pad.kind A σ) (hren : Renumbered σ args.pad pad') (hpts : MovesPoints args.pad.kind.ndim args.gauss A π) (hd : SpaceOk args.pad) (k : Mat)
    (fn fn' : Nat → (Nat → ℝ) → (Nat → Nat → ℝ) → Res ℝ) (s : Nat → ℝ) (B : Nat → Nat → Nat → ℝ)
    (hr : args.ii0 + args.pad.kind.nnode ≤ k.nrow) (hc : args.jj0 + args.pad.kind.nnode ≤ k.ncol) (hreg : GradRegular inv args.pad args.gauss B)
    (hreg' : ∀ p < args.gauss.npoint, ∃ r, pad'.calcGradient inv (args.gauss.coords p) = .ok r)
    (hs : Returns args B fn s) (hs' : Returns (withPad args pad') (turnB σ π B) fn' (fun p => s (π p))) :
    ∃ k1 p1 k2 p2, mat01Nsn inv k args fn = (k1, .ok p1) ∧ mat01Nsn inv k (withPad args pad') fn' = (k2, .ok p2) ∧
      Renum2 args (args.pad.kind.nnode) (args.pad.kind.nnode) σ σ k k1 k2 := by
  have hk : (withPad args pad').pad.kind = args.pad.kind := hren.kind
  have hn : (withPad args pad').pad.spaceNdim = args.pad.spaceNdim := hren.ndim
  have hsp : SpaceOk (withPad args pad').pad := by unfold SpaceOk; rw [hn]; exact hd
  have hpos : 0 < args.pad.spaceNdim := by rcases hd with hd | hd <;> omega
  obtain ⟨k1, p1, e1, b1⟩ := C37_mat_01_nsn hinv k args fn s B hr hc hreg hs
  obtain ⟨k2, p2, e2, b2⟩ := C37_mat_01_nsn hinv k (withPad args pad') fn' (fun p => s (π p)) (turnB σ π B) (by rw [hk]; exact hr) (by rw [hk]; exact hc) (gradRegular_turn h hren hpts hreg hreg') hs'
  simp only [hk, hn] at b2
  refine ⟨k1, p1, k2, p2, e1, e2, renum2 b1 b2 h.lt h.lt fun m hm n hn0 => ?_⟩
  refine quad_point h hren hpts hd (fun p hp => detJ_point h hren hpts hd (gradReg_ndim (hreg p hp).1) hp) fun p hp => ?_
  simp only [rowOf_div hpos, rowOf_mod hpos, shape_point h hren hpts hp hm, shape_point h hren hpts hp hn0, turnB]

/-- **C99, `mat_02_bvn`.** -/
theorem C99_mat_02_bvn (hinv : InverseSpec inv) (h : MovesNodes args.pad.kind A σ) (hren : Renumbered σ args.pad pad') (hpts : MovesPoints args.pad.kind.ndim args.gauss A π) (hd : SpaceOk args.pad) (k : Mat)
    (fn fn' : Nat → (Nat → ℝ) → (Nat → Nat → ℝ) → Res (Nat → ℝ)) (s : Nat → Nat → ℝ) (B : Nat → Nat → Nat → ℝ)
    (hr : args.ii0 + args.pad.kind.nnode ≤ k.nrow) (hc : args.jj0 + args.pad.kind.nnode ≤ k.ncol) (hreg : GradRegular inv args.pad args.gauss B)
    (hreg' : ∀ p < args.gauss.npoint, ∃ r, pad'.calcGradient inv (args.gauss.coords p) = .ok r)
    (hs : Returns args B fn s) (hs' : Returns (withPad args pad') (turnB σ π B) fn' (fun p => s (π p))) :
    ∃ k1 p1 k2 p2, mat02Bvn inv k args fn = (k1, .ok p1) ∧ mat02Bvn inv k (withPad args pad') fn' = (k2, .ok p2) ∧
      Renum2 args (args.pad.kind.nnode) (args.pad.kind.nnode) σ σ k k1 k2 := by
  have hk : (withPad args pad').pad.kind = args.pad.kind := hren.kind
  have hn : (withPad args pad').pad.spaceNdim = args.pad.spaceNdim := hren.ndim
  have hsp : SpaceOk (withPad args pad').pad := by unfold SpaceOk; rw [hn]; exact hd
  have hpos : 0 < args.pad.spaceNdim := by rcases hd with hd | hd <;> omega
  obtain ⟨k1, p1, e1, b1⟩ := C37_mat_02_bvn hinv k args hd fn s B hr hc hreg hs
  obtain ⟨k2, p2, e2, b2⟩ := C37_mat_02_bvn hinv k (withPad args pad') hsp fn' (fun p => s (π p)) (turnB σ π B) (by rw [hk]; exact hr) (by rw [hk]; exact hc) (gradRegular_turn h hren hpts hreg hreg') hs'
  simp only [hk, hn] at b2
  refine ⟨k1, p1, k2, p2, e1, e2, renum2 b1 b2 h.lt h.lt fun m hm n hn0 => ?_⟩
  refine quad_point h hren hpts hd (fun p hp => detJ_point h hren hpts hd (gradReg_ndim (hreg p hp).1) hp) fun p hp => ?_
  simp only [rowOf_div hpos, rowOf_mod hpos, shape_point h hren hpts hp hm, shape_point h hren hpts hp hn0, turnB]

/-- **C99, `mat_03_btb`.** -/
theorem C99_mat_03_btb (hinv : InverseSpec inv) (h : MovesNodes args.pad.kind A σ) (hren : Renumbered σ args.pad pad') (hpts : MovesPoints args.pad.kind.ndim args.gauss A π) (hd : SpaceOk args.pad) (k : Mat)
    (fn fn' : Nat → (Nat → ℝ) → (Nat → Nat → ℝ) → Res (Nat → ℝ)) (s : Nat → Nat → ℝ) (B : Nat → Nat → Nat → ℝ)
    (hr : args.ii0 + args.pad.kind.nnode ≤ k.nrow) (hc : args.jj0 + args.pad.kind.nnode ≤ k.ncol) (hreg : GradRegular inv args.pad args.gauss B)
    (hreg' : ∀ p < args.gauss.npoint, ∃ r, pad'.calcGradient inv (args.gauss.coords p) = .ok r)
    (hs : Returns args B fn s) (hs' : Returns (withPad args pad') (turnB σ π B) fn' (fun p => s (π p))) :
    ∃ k1 p1 k2 p2, mat03Btb inv k args fn = (k1, .ok p1) ∧ mat03Btb inv k (withPad args pad') fn' = (k2, .ok p2) ∧
      Renum2 args (args.pad.kind.nnode) (args.pad.kind.nnode) σ σ k k1 k2 := by
  have hk : (withPad args pad').pad.kind = args.pad.kind := hren.kind
  have hn : (withPad args pad').pad.spaceNdim = args.pad.spaceNdim := hren.ndim
  have hsp : SpaceOk (withPad args pad').pad := by unfold SpaceOk; rw [hn]; exact hd
  have hpos : 0 < args.pad.spaceNdim := by rcases hd with hd | hd <;> omega
  obtain ⟨k1, p1, e1, b1⟩ := C37_mat_03_btb hinv k args hd fn s B hr hc hreg hs
  obtain ⟨k2, p2, e2, b2⟩ := C37_mat_03_btb hinv k (withPad args pad') hsp fn' (fun p => s (π p)) (turnB σ π B) (by rw [hk]; exact hr) (by rw [hk]; exact hc) (gradRegular_turn h hren hpts hreg hreg') hs'
  simp only [hk, hn] at b2
  refine ⟨k1, p1, k2, p2, e1, e2, renum2 b1 b2 h.lt h.lt fun m hm n hn0 => ?_⟩
  refine quad_point h hren hpts hd (fun p hp => detJ_point h hren hpts hd (gradReg_ndim (hreg p hp).1) hp) fun p hp => ?_
  simp only [rowOf_div hpos, rowOf_mod hpos, shape_point h hren hpts hp hm, shape_point h hren hpts hp hn0, turnB]

/-- **C99, `mat_04_nsb`.** -/
theorem C99_mat_04_nsb (hinv : InverseSpec inv) (h : MovesNodes args.pad.kind A σ) (hren : Renumbered σ args.pad pad') (hpts : MovesPoints args.pad.kind.ndim args.gauss A π) (hd : SpaceOk args.pad)
    (hB : MovesNodes padB.kind A σB) (hpB : MovesPoints padB.kind.ndim args.gauss A π) (hkB : padB'.kind = padB.kind) (k : Mat)
    (fn fn' : Nat → (Nat → ℝ) → (Nat → ℝ) → (Nat → Nat → ℝ) → Res ℝ) (s : Nat → ℝ) (B : Nat → Nat → Nat → ℝ)
    (hr : args.ii0 + padB.kind.nnode ≤ k.nrow) (hc : args.jj0 + args.pad.kind.nnode * args.pad.spaceNdim ≤ k.ncol) (hreg : GradRegular inv args.pad args.gauss B)
    (hreg' : ∀ p < args.gauss.npoint, ∃ r, pad'.calcGradient inv (args.gauss.coords p) = .ok r)
    (hs : ∀ p < args.gauss.npoint, ∀ bb, Holds args.pad (B p) bb → fn p (shapeB args padB p) (shapeN args p) bb = .ok (s p))
    (hs' : ∀ p < args.gauss.npoint, ∀ bb, Holds pad' (turnB σ π B p) bb → fn' p (shapeB args padB' p) (shapeN (withPad args pad') p) bb = .ok (s (π p))) :
    ∃ k1 p1 k2 p2, mat04Nsb inv k padB args fn = (k1, .ok p1) ∧ mat04Nsb inv k padB' (withPad args pad') fn' = (k2, .ok p2) ∧
      Renum2 args (padB.kind.nnode) (args.pad.kind.nnode * args.pad.spaceNdim) σB (rowOf args.pad.spaceNdim σ) k k1 k2 := by
  have hk : (withPad args pad').pad.kind = args.pad.kind := hren.kind
  have hn : (withPad args pad').pad.spaceNdim = args.pad.spaceNdim := hren.ndim
  have hsp : SpaceOk (withPad args pad').pad := by unfold SpaceOk; rw [hn]; exact hd
  have hpos : 0 < args.pad.spaceNdim := by rcases hd with hd | hd <;> omega
  obtain ⟨k1, p1, e1, b1⟩ := C37_mat_04_nsb hinv k padB args hd fn s B hr hc hreg hs
  obtain ⟨k2, p2, e2, b2⟩ := C37_mat_04_nsb hinv k padB' (withPad args pad') hsp fn' (fun p => s (π p)) (turnB σ π B) (by rw [hkB]; exact hr) (by rw [hk, hn]; exact hc) (gradRegular_turn h hren hpts hreg hreg') hs'
  simp only [hk, hn, hkB, show (withPad args pad').gauss = args.gauss from rfl] at b2
  refine ⟨k1, p1, k2, p2, e1, e2, renum2 b1 b2 hB.lt (fun r hr => rowOf_lt hpos h.lt hr) fun m hm n hn0 => ?_⟩
  refine quad_point h hren hpts hd (fun p hp => detJ_point h hren hpts hd (gradReg_ndim (hreg p hp).1) hp) fun p hp => ?_
  simp only [rowOf_div hpos, rowOf_mod hpos, shapeB_point hB hpB hp hm, shape_point h hren hpts hp (div_lt' hn0), turnB]

/-- **C99, `mat_05_btn`.** -/
theorem C99_mat_05_btn (hinv : InverseSpec inv) (h : MovesNodes args.pad.kind A σ) (hren : Renumbered σ args.pad pad') (hpts : MovesPoints args.pad.kind.ndim args.gauss A π) (hd : SpaceOk args.pad)
    (hB : MovesNodes padB.kind A σB) (hpB : MovesPoints padB.kind.ndim args.gauss A π) (hrenB : Renumbered σB padB padB') (hdb : padB.spaceNdim = args.pad.spaceNdim) (k : Mat)
    (fn fn' : Nat → (Nat → Nat → ℝ) → (Nat → ℝ) → (Nat → Nat → ℝ) → Res (Nat → ℝ)) (s : Nat → Nat → ℝ) (B : Nat → Nat → Nat → ℝ) (Bb : Nat → Nat → Nat → ℝ)
    (hr : args.ii0 + padB.kind.nnode ≤ k.nrow) (hc : args.jj0 + args.pad.kind.nnode * args.pad.spaceNdim ≤ k.ncol) (hreg : GradRegular inv args.pad args.gauss B)
    (hreg' : ∀ p < args.gauss.npoint, ∃ r, pad'.calcGradient inv (args.gauss.coords p) = .ok r)
    (hregb : GradRegular inv padB args.gauss Bb) (hregb' : ∀ p < args.gauss.npoint, ∃ r, padB'.calcGradient inv (args.gauss.coords p) = .ok r)
    (hs : ∀ p < args.gauss.npoint, ∀ gb bb, Holds padB (Bb p) gb → Holds args.pad (B p) bb → fn p gb (shapeN args p) bb = .ok (s p))
    (hs' : ∀ p < args.gauss.npoint, ∀ gb bb, Holds padB' (turnB σB π Bb p) gb → Holds pad' (turnB σ π B p) bb → fn' p gb (shapeN (withPad args pad') p) bb = .ok (s (π p))) :
    ∃ k1 p1 k2 p2, mat05Btn inv k padB args fn = (k1, .ok p1) ∧ mat05Btn inv k padB' (withPad args pad') fn' = (k2, .ok p2) ∧
      Renum2 args (padB.kind.nnode) (args.pad.kind.nnode * args.pad.spaceNdim) σB (rowOf args.pad.spaceNdim σ) k k1 k2 := by
  have hk : (withPad args pad').pad.kind = args.pad.kind := hren.kind
  have hn : (withPad args pad').pad.spaceNdim = args.pad.spaceNdim := hren.ndim
  have hsp : SpaceOk (withPad args pad').pad := by unfold SpaceOk; rw [hn]; exact hd
  have hpos : 0 < args.pad.spaceNdim := by rcases hd with hd | hd <;> omega
  have hkB : padB'.kind = padB.kind := hrenB.kind
  obtain ⟨k1, p1, e1, b1⟩ := C37_mat_05_btn hinv k padB args hd hdb fn s B Bb hr hc hreg hregb hs
  obtain ⟨k2, p2, e2, b2⟩ := C37_mat_05_btn hinv k padB' (withPad args pad') hsp (by rw [hn, hrenB.ndim]; exact hdb) fn' (fun p => s (π p)) (turnB σ π B) (turnB σB π Bb) (by rw [hkB]; exact hr) (by rw [hk, hn]; exact hc) (gradRegular_turn h hren hpts hreg hreg') (gradRegular_turn hB hrenB hpB hregb hregb') hs'
  simp only [hk, hn, hkB, show (withPad args pad').gauss = args.gauss from rfl] at b2
  refine ⟨k1, p1, k2, p2, e1, e2, renum2 b1 b2 hB.lt (fun r hr => rowOf_lt hpos h.lt hr) fun m hm n hn0 => ?_⟩
  refine quad_point h hren hpts hd (fun p hp => detJ_point h hren hpts hd (gradReg_ndim (hreg p hp).1) hp) fun p hp => ?_
  simp only [rowOf_div hpos, rowOf_mod hpos, shapeB_point hB hpB hp hm, shape_point h hren hpts hp (div_lt' hn0), turnB]

end
end Gemlab.Props.Integ
