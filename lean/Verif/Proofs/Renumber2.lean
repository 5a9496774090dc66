import Verif.Proofs.Renumber
import Verif.Props.RigidMotion2
import Verif.Props.Divergence

set_option linter.unusedSimpArgs false
namespace Gemlab.Props.Integ
open Gemlab Gemlab.Integ Gemlab.Spec.Integ Gemlab.Scratchpad Gemlab.Spec.Renumber Gemlab.Renumber
noncomputable section

variable {A : RefMap} {σ σB π : Nat → Nat} {pad pad' padB padB' : Scratchpad} {args : CommonArgs}

/-! ## Quadratures -/

theorem sum_points {d : Nat} {g : Gauss} (h : MovesPoints d g A π) (f : Nat → ℝ) : ∑ p ∈ Finset.range g.npoint, f (π p) = ∑ p ∈ Finset.range g.npoint, f p := by
  have inj : Set.InjOn π (Finset.range g.npoint : Set Nat) := fun a ha b hb e => h.inj a (by simpa using ha) b (by simpa using hb) e
  refine Finset.sum_nbij π (fun m hm => Finset.mem_range.2 (h.lt m (Finset.mem_range.1 hm))) inj ?_ (fun m _ => rfl)
  exact Finset.surjOn_of_injOn_of_card_le π (fun m hm => by simpa using h.lt m (by simpa using hm)) inj le_rfl

/-- The shape functions of the renumbered element at a point are those of the first element at the image of the point. -/
theorem interp_point {k : GeoKind} {g : Gauss} (h : MovesNodes k A σ) (hp : MovesPoints k.ndim g A π) {p : Nat} (hpt : p < g.npoint) {m : Nat} (hm : m < k.nnode) :
    Shapes.calcInterp k (g.coords p) m = Shapes.calcInterp k (g.coords (π p)) (σ m) := by
  rw [← interp_turn h hm (g.coords p)]
  exact Shapes.calcInterp_congr k (fun i hi => (hp.coords p hpt i hi).symm) (h.lt m hm)

theorem shape_point (h : MovesNodes args.pad.kind A σ) (hr : Renumbered σ args.pad pad') (hp : MovesPoints args.pad.kind.ndim args.gauss A π) {p : Nat}
    (hpt : p < args.gauss.npoint) {m : Nat} (hm : m < args.pad.kind.nnode) : shapeN (withPad args pad') p m = shapeN args (π p) (σ m) := by
  unfold shapeN withPad
  rw [hr.kind]
  exact interp_point h hp hpt hm

theorem radius_point (h : MovesNodes args.pad.kind A σ) (hr : Renumbered σ args.pad pad') (hp : MovesPoints args.pad.kind.ndim args.gauss A π) (hd : SpaceOk args.pad)
    {p : Nat} (hpt : p < args.gauss.npoint) : radiusAt (withPad args pad') p = radiusAt args (π p) := by
  unfold radiusAt
  rw [← sum_nodes h (fun m => shapeN args (π p) m * args.pad.X m 0)]
  rw [show (withPad args pad').pad.kind = args.pad.kind from hr.kind]
  refine Finset.sum_congr rfl fun m hm => ?_
  have hm := Finset.mem_range.1 hm
  rw [shape_point h hr hp hpt hm, show (withPad args pad').pad.X m 0 = args.pad.X (σ m) 0 from hr.coords m hm 0 (by rcases hd with hd | hd <;> omega)]

theorem quad_point (h : MovesNodes args.pad.kind A σ) (hr : Renumbered σ args.pad pad') (hp : MovesPoints args.pad.kind.ndim args.gauss A π) (hd : SpaceOk args.pad)
    {μ μ' : (Nat → ℝ) → ℝ} {f f' : Nat → ℝ}
    (hμ : ∀ p < args.gauss.npoint, μ' (args.gauss.coords p) = μ (args.gauss.coords (π p))) (hf : ∀ p < args.gauss.npoint, f' p = f (π p)) :
    quadrature (withPad args pad') μ' f' = quadrature args μ f := by
  unfold quadrature
  rw [← sum_points hp]
  refine Finset.sum_congr rfl fun p hp0 => ?_
  have hpt : p < args.gauss.npoint := Finset.mem_range.1 hp0
  rw [hf p hpt]
  congr 1
  unfold factor
  rw [radius_point h hr hp hd hpt]
  change args.alpha * args.gauss.weight p * μ' (args.gauss.coords p) * _ = _
  rw [hμ p hpt, hp.weight p hpt]
  rfl

/-! ## The measures at the points -/

theorem jac_congr (pad : Scratchpad) {ξ ξ' : Nat → ℝ} (h : ∀ i < pad.kind.ndim, ξ i = ξ' i) (i : Nat) {j : Nat} (hj : j < pad.kind.ndim) : jac pad ξ i j = jac pad ξ' i j := by
  unfold jac
  exact Finset.sum_congr rfl fun m hm => by rw [Scratchpad.calcDeriv_congr pad.kind h (Finset.mem_range.1 hm) hj]

theorem detJ_congr (pad : Scratchpad) (hk : pad.kind.ndim = pad.spaceNdim) {ξ ξ' : Nat → ℝ} (h : ∀ i < pad.kind.ndim, ξ i = ξ' i) : detJ pad ξ = detJ pad ξ' := by
  unfold detJ detN
  congr 1
  ext i j
  exact jac_congr pad h i (by rw [hk]; exact j.2)

theorem measure_congr (pad : Scratchpad) {ξ ξ' : Nat → ℝ} (h : ∀ i < pad.kind.ndim, ξ i = ξ' i) : jacMeasure pad ξ = jacMeasure pad ξ' := by
  unfold jacMeasure
  split
  · exact detJ_congr pad ‹_› h
  split
  · congr 1
    exact Finset.sum_congr rfl fun i _ => by rw [jac_congr pad h i (by omega)]
  · rfl

theorem measure_point {g : Gauss} (h : MovesNodes pad.kind A σ) (hr : Renumbered σ pad pad') (hp : MovesPoints pad.kind.ndim g A π) (hd : SpaceOk pad)
    {p : Nat} (hpt : p < g.npoint) : jacMeasure pad' (g.coords p) = jacMeasure pad (g.coords (π p)) := by
  rw [measure_turn h hr (by rcases hd with hd | hd <;> omega)]
  exact measure_congr pad fun i hi => (hp.coords p hpt i hi).symm

theorem detJ_point {g : Gauss} (h : MovesNodes pad.kind A σ) (hr : Renumbered σ pad pad') (hp : MovesPoints pad.kind.ndim g A π) (hd : SpaceOk pad)
    (hk : pad.kind.ndim = pad.spaceNdim) {p : Nat} (hpt : p < g.npoint) : detJ pad' (g.coords p) = detJ pad (g.coords (π p)) := by
  rw [detJ_turn h hr hk (by rcases hd with hd | hd <;> omega)]
  exact detJ_congr pad hk fun i hi => (hp.coords p hpt i hi).symm

/-- The gradients of the renumbered element. -/
def turnB (σ π : Nat → Nat) (B : Nat → Nat → Nat → ℝ) : Nat → Nat → Nat → ℝ := fun p m => B (π p) (σ m)

theorem gradRegular_turn {inv : MatInverse} {g : Gauss} (h : MovesNodes pad.kind A σ) (hr : Renumbered σ pad pad') (hp : MovesPoints pad.kind.ndim g A π)
    {B : Nat → Nat → Nat → ℝ} (hreg : GradRegular inv pad g B) (hreg' : ∀ p < g.npoint, ∃ r, pad'.calcGradient inv (g.coords p) = .ok r) :
    GradRegular inv pad' g (turnB σ π B) := by
  intro p hpt
  have hk := gradReg_ndim (hreg p hpt).1
  refine ⟨hreg' p hpt, grad_turn h hr hk ?_⟩
  intro m hm j hj
  rw [Scratchpad.calcDeriv_congr pad.kind (fun i hi => (hp.coords p hpt i hi).symm) hm (by omega), ← (hreg (π p) (hp.lt p hpt)).2 m hm j hj]
  exact Finset.sum_congr rfl fun i _ => by rw [jac_congr pad (fun i hi => (hp.coords p hpt i hi).symm) i (by omega)]

/-! ## Normal vectors -/

theorem nrmMag_raw (pad : Scratchpad) (hd : SpaceOk pad) (ξ : Nat → ℝ) :
    nrmMag pad ξ = Real.sqrt (∑ i ∈ Finset.range pad.spaceNdim, nrmRaw pad.spaceNdim (jac pad ξ) i * nrmRaw pad.spaceNdim (jac pad ξ) i) :=
  (nrmOut_raw hd _).1

theorem nrmMag_point {g : Gauss} (h : MovesNodes pad.kind A σ) (hr : Renumbered σ pad pad') (hp : MovesPoints pad.kind.ndim g A π) (hd : SpaceOk pad)
    (hgeo : pad.kind.ndim + 1 = pad.spaceNdim) {p : Nat} (hpt : p < g.npoint) : nrmMag pad' (g.coords p) = nrmMag pad (g.coords (π p)) := by
  have hd' : SpaceOk pad' := by unfold SpaceOk; rw [hr.ndim]; exact hd
  have e : ∀ i < pad.spaceNdim, ∀ j < pad.kind.ndim,
      jac pad' (g.coords p) i j = ∑ l ∈ Finset.range pad.kind.ndim, jac pad (g.coords (π p)) i l * (A.entry l j : ℝ) := by
    intro i hi j hj
    rw [jac_turn h hr _ hi hj]
    exact Finset.sum_congr rfl fun l hl => by
      rw [jac_congr pad (fun i hi => (hp.coords p hpt i hi).symm) i (Finset.mem_range.1 hl)]
  rw [nrmMag_raw _ hd', nrmMag_raw _ hd, hr.ndim]
  congr 1
  rcases hd with hd | hd
  · have h1 : pad.kind.ndim = 1 := by omega
    have h2 := entry_lin h.rot h1
    rw [hd] at e ⊢
    rw [h1] at e
    have e0 := e 0 (by norm_num) 0 (by norm_num)
    have e1 := e 1 (by norm_num) 0 (by norm_num)
    rw [Finset.sum_range_one, h2] at e0 e1
    simp [Finset.sum_range_succ, nrmRaw, e0, e1]
  · have h1 : pad.kind.ndim = 2 := by omega
    have h2 := det_turn h.rot (by omega)
    rw [h1] at h2 e
    unfold detN at h2
    rw [Matrix.det_fin_two] at h2
    simp only [Matrix.of_apply, Fin.val_zero, Fin.val_one] at h2
    rw [hd] at e ⊢
    have raw : ∀ i, nrmRaw 3 (jac pad' (g.coords p)) i = nrmRaw 3 (jac pad (g.coords (π p))) i := by
      intro i
      unfold nrmRaw
      have h32 : ¬ (3 : Nat) = 2 := by norm_num
      simp only [if_neg h32, e 0 (by norm_num) 0 (by norm_num), e 0 (by norm_num) 1 (by norm_num), e 1 (by norm_num) 0 (by norm_num),
        e 1 (by norm_num) 1 (by norm_num), e 2 (by norm_num) 0 (by norm_num), e 2 (by norm_num) 1 (by norm_num), Finset.sum_range_succ, Finset.sum_range_zero, zero_add]
      have d := h2
      split
      · linear_combination (jac pad (g.coords (π p)) 1 0 * jac pad (g.coords (π p)) 2 1 - jac pad (g.coords (π p)) 2 0 * jac pad (g.coords (π p)) 1 1) * d
      split
      · linear_combination (jac pad (g.coords (π p)) 2 0 * jac pad (g.coords (π p)) 0 1 - jac pad (g.coords (π p)) 0 0 * jac pad (g.coords (π p)) 2 1) * d
      · linear_combination (jac pad (g.coords (π p)) 0 0 * jac pad (g.coords (π p)) 1 1 - jac pad (g.coords (π p)) 1 0 * jac pad (g.coords (π p)) 0 1) * d
    exact Finset.sum_congr rfl fun i _ => by rw [raw i]

/-! ## Rows -/

/-- The row of component `i` of node `σ m`, if `r` is the row of component `i` of node `m`. -/
def rowOf (d : Nat) (σ : Nat → Nat) (r : Nat) : Nat := r % d + σ (r / d) * d

theorem rowOf_div {d : Nat} (hd : 0 < d) (r : Nat) : rowOf d σ r / d = σ (r / d) := digit_div (Nat.mod_lt _ hd)
theorem rowOf_mod {d : Nat} (hd : 0 < d) (r : Nat) : rowOf d σ r % d = r % d := digit_mod (Nat.mod_lt _ hd)
theorem rowOf_lt {d n : Nat} (hd : 0 < d) (hσ : ∀ m < n, σ m < n) {r : Nat} (hr : r < n * d) : rowOf d σ r < n * d :=
  digit_lt (hσ _ (Nat.div_lt_of_lt_mul (by rw [mul_comm]; exact hr))) (Nat.mod_lt _ hd)
theorem rowOf_digit {d m i : Nat} (hi : i < d) : rowOf d σ (i + m * d) = i + σ m * d := by
  unfold rowOf
  rw [digit_div hi, digit_mod hi]
theorem div_lt' {d n r : Nat} (hr : r < n * d) : r / d < n := Nat.div_lt_of_lt_mul (by rw [mul_comm]; exact hr)

theorem strain_point (h : MovesNodes args.pad.kind A σ) (hr : Renumbered σ args.pad pad') (hp : MovesPoints args.pad.kind.ndim args.gauss A π) (hd : SpaceOk args.pad)
    (B : Nat → Nat → Nat → ℝ) {p : Nat} (hpt : p < args.gauss.npoint) {m : Nat} (hm : m < args.pad.kind.nnode) (i k l : Nat) :
    strainOp (withPad args pad') (turnB σ π B p) p m i k l = strainOp args (B (π p)) (π p) (σ m) i k l := by
  unfold strainOp
  rw [radius_point h hr hp hd hpt, shape_point h hr hp hpt hm, show (withPad args pad').pad.spaceNdim = args.pad.spaceNdim from hr.ndim]
  rfl

end
end Gemlab.Props.Integ
