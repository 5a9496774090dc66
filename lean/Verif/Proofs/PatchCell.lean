import Verif.Proofs.PatchDegree
import Verif.Props.Integ2

/-! # The patch test for one cell, edge or face: the vectors of `integ` as integrals of polynomials -/
namespace Gemlab.Scratchpad
open MvPolynomial Gemlab Gemlab.Shapes Gemlab.GaussSpec Gemlab.Spec Gemlab.Spec.Analytical Gemlab.Spec.Integ
open Gemlab.Integ Gemlab.Props.Integ
noncomputable section

variable {inv : MatInverse} {pad : Scratchpad} {g : Gauss} {ε : ℝ}

theorem deriv_vars (k : GeoKind) : ((Shapes.deriv k).all fun l => l.all fun e => e.varsLt 3) = true := by cases k <;> decide +kernel

theorem getD_prop {α : Type} {P : α → Prop} {l : List α} {d : α} (hd : P d) (h : ∀ x ∈ l, P x) (m : Nat) : P (l.getD m d) := by
  by_cases hm : m < l.length
  · rw [List.getD_eq_getElem _ _ hm]; exact h _ (List.getElem_mem hm)
  · rw [List.getD_eq_default _ _ (by omega)]; exact hd

theorem calcDeriv_point (k : GeoKind) (ξ : Nat → ℝ) : Shapes.calcDeriv k ξ = Shapes.calcDeriv k (point (ξ 0) (ξ 1) (ξ 2)) := by
  funext m j
  unfold Shapes.calcDeriv
  refine PE.eval_congr_vars (n := 3) (fun i hi => ?_) _ ?_
  · rcases (by omega : i = 0 ∨ i = 1 ∨ i = 2) with rfl | rfl | rfl <;> rfl
  · have h := deriv_vars k
    simp only [List.all_eq_true] at h
    exact getD_prop (P := fun e : PE => e.varsLt 3 = true) rfl
      (getD_prop (P := fun l : List PE => ∀ e ∈ l, e.varsLt 3 = true) (fun e he => by simp at he) h m) j

theorem fillJacobian_point (pad : Scratchpad) (ξ : Nat → ℝ) : pad.fillJacobian ξ = pad.fillJacobian (point (ξ 0) (ξ 1) (ξ 2)) := by
  unfold fillJacobian; rw [calcDeriv_point]

theorem calcGradient_point (inv : MatInverse) (pad : Scratchpad) (ξ : Nat → ℝ) : pad.calcGradient inv ξ = pad.calcGradient inv (point (ξ 0) (ξ 1) (ξ 2)) := by
  unfold calcGradient calcJacobian; rw [fillJacobian_point]

theorem calcNormalVector_point (pad : Scratchpad) (n : Nat) (ξ : Nat → ℝ) : pad.calcNormalVector n ξ = pad.calcNormalVector n (point (ξ 0) (ξ 1) (ξ 2)) := by
  unfold calcNormalVector; rw [fillJacobian_point]

theorem point_agree (ξ : Nat → ℝ) {n : Nat} (hn : n ≤ 3) : ∀ i < n, point (ξ 0) (ξ 1) (ξ 2) i = ξ i := by
  intro i hi
  rcases (by omega : i = 0 ∨ i = 1 ∨ i = 2) with rfl | rfl | rfl <;> rfl

theorem vec3_coords (ξ : Nat → ℝ) : (fun i : Fin 3 => ξ i) = ![ξ 0, ξ 1, ξ 2] := by ext i; fin_cases i <;> rfl

theorem divDensity_poly (hinv : InverseSpec inv) (hs : pad.kind.ndim = pad.spaceNdim) (hd : SpaceOk pad) {r s t : ℝ} (v : Nat → Nat → ℝ)
    (hG : ∃ res, pad.calcGradient inv (point r s t) = .ok res) : divDensity inv pad v (point r s t) = eval ![r, s, t] (divPoly pad.kind pad.X v) := by
  unfold divPoly
  rcases hd with h | h
  · rw [if_pos (by omega), divDensity_2d hinv (by omega) h hG]
  · rw [if_neg (by omega), divDensity_3d hinv (by omega) h hG]

theorem totalDivergence_poly (hinv : InverseSpec inv) (hs : pad.kind.ndim = pad.spaceNdim) (hd : SpaceOk pad) (hG : GradientOk inv pad) (v : Nat → Nat → ℝ) :
    totalDivergence inv pad v = refIntegral pad.kind.classOf fun r s t => eval ![r, s, t] (divPoly pad.kind pad.X v) :=
  refIntegral_congr _ fun r s t h => divDensity_poly hinv hs hd v (hG r s t h)

/-- The gradient at the integration points. -/
theorem rule_gradient (hinv : InverseSpec inv) (hs : pad.kind.ndim = pad.spaceNdim) (hG : GradientOk inv pad) {e : Exactness} (ha : Accurate g pad.kind.classOf e ε) :
    ∃ B : Nat → Nat → Nat → ℝ, GradRegular inv pad g B ∧
      ∀ p < g.npoint, ∀ v, divDensity inv pad v (g.coords p) = detJ pad (g.coords p) * ∑ n ∈ Finset.range pad.kind.nnode, ∑ i ∈ Finset.range pad.spaceNdim, B p n i * v n i := by
  have h1 : ∀ p, ∃ B : Nat → Nat → ℝ, p < g.npoint → ((∃ r, pad.calcGradient inv (g.coords p) = .ok r) ∧ IsGradient pad (g.coords p) B) ∧
      ∀ v, divDensity inv pad v (g.coords p) = detJ pad (g.coords p) * ∑ n ∈ Finset.range pad.kind.nnode, ∑ i ∈ Finset.range pad.spaceNdim, B n i * v n i := by
    intro p
    by_cases hp : p < g.npoint
    · obtain ⟨⟨d, pad'⟩, hr⟩ := hG _ _ _ (ha.inside p hp)
      rw [← calcGradient_point] at hr
      obtain ⟨g1, g2, g3, g4, g5⟩ := gradient_facts hinv hr
      have hj : pad'.jacobian = jac pad (g.coords p) := by
        funext i j; rw [g3]; rfl
      refine ⟨pad'.gradient, fun _ => ⟨⟨⟨_, hr⟩, ?_⟩, fun v => ?_⟩⟩
      · exact gradient_exists hinv hr
      · unfold divDensity
        rw [hr]
        dsimp only
        rw [g1, hj]
        rfl
    · exact ⟨fun _ _ => 0, fun h => absurd h hp⟩
  choose B hB using h1
  exact ⟨B, fun p hp => (hB p hp).1, fun p hp => (hB p hp).2⟩

/-- The quadrature of the divergence. -/
theorem cell_quadrature (hinv : InverseSpec inv) (hs : pad.kind.ndim = pad.spaceNdim) (hd : SpaceOk pad) (hG : GradientOk inv pad)
    (ha : Accurate g pad.kind.classOf (cellNeed pad.kind) ε) (v : Nat → Nat → ℝ) :
    |∑ p ∈ Finset.range g.npoint, g.weight p * divDensity inv pad v (g.coords p) - totalDivergence inv pad v| ≤ ε * coeffNorm (divPoly pad.kind pad.X v) := by
  rw [totalDivergence_poly hinv hs hd hG]
  refine le_of_eq_of_le ?_ (ha.exact _ (divPoly_covers (by rcases hd with h | h <;> omega) pad.X v))
  congr 2
  refine Finset.sum_congr rfl fun p hp => ?_
  rw [vec3_coords, ← divDensity_poly hinv hs hd v (hG _ _ _ (ha.inside p (Finset.mem_range.1 hp))), mul_comm]
  unfold divDensity
  rw [← calcGradient_point]

theorem mul_div {n i d : Nat} (h : i < d) : (i + n * d) / d = n ∧ (i + n * d) % d = i := by
  have hd : 0 < d := by omega
  rw [Nat.add_mul_div_right _ _ hd, Nat.add_mul_mod_self_right, Nat.div_eq_of_lt h, Nat.mod_eq_of_lt h]
  simp

theorem block_lt {n i d N : Nat} (h : i < d) (hn : n < N) : i + n * d < N * d := by
  have : n * d + d ≤ N * d := by rw [← Nat.succ_mul]; exact Nat.mul_le_mul_right d hn
  omega

/-- The vector of the constant stress for a cell. -/
theorem stress_cell (hinv : InverseSpec inv) (hs : pad.kind.ndim = pad.spaceNdim) (hd : SpaceOk pad) (hG : GradientOk inv pad)
    (ha : Accurate g pad.kind.classOf (cellNeed pad.kind) ε) (t : Nat → ℝ) :
    (∃ r, (stressVector inv pad g t).2 = .ok r) ∧ ∀ (pts : Nat → Nat) (q i : Nat), i < pad.spaceNdim →
      nodalPart pad.kind.nnode pts pad.spaceNdim (stressVector inv pad g t).1 q i =
        ∑ p ∈ Finset.range g.npoint, g.weight p * divDensity inv pad (fun n l => if pts n = q then tensor2 t i l else 0) (g.coords p) := by
  obtain ⟨B, hB, hdiv⟩ := rule_gradient hinv hs hG ha
  obtain ⟨d', pad', h1, h2, h3⟩ := C37_vec_04_bt hinv ⟨pad.kind.nnode * pad.spaceNdim, fun _ => 0⟩ (CommonArgs.new pad g) hd (fun h => by simp [CommonArgs.new] at h)
    (fun _ _ _ => .ok t) (fun _ => t) B (by simp [CommonArgs.new]) hB (fun _ _ _ _ => rfl)
  unfold stressVector
  rw [h1]
  refine ⟨⟨pad', rfl⟩, fun pts q i hi => ?_⟩
  unfold nodalPart
  have e1 : ∀ n < pad.kind.nnode, d'.val (i + n * pad.spaceNdim) = ∑ p ∈ Finset.range g.npoint, g.weight p * (detJ pad (g.coords p) * ∑ l ∈ Finset.range pad.spaceNdim, B p n l * tensor2 t i l) := by
    intro n hn
    have hb := block_lt hi hn
    have h4 := h3 (i + n * pad.spaceNdim)
    simp only [CommonArgs.new, Nat.zero_le, zero_add, true_and, if_true, Nat.sub_zero] at h4
    rw [if_pos hb] at h4
    rw [h4]
    unfold quadrature
    refine Finset.sum_congr rfl fun p hp => ?_
    rw [(mul_div hi).1, (mul_div hi).2]
    have := strain_plane (args := CommonArgs.new pad g) rfl hd (B p) p n i (by rcases hd with h | h <;> omega) (tensor2 t)
    simp only [CommonArgs.new] at this
    dsimp only
    rw [this]
    simp only [factor]
    norm_num
    ring
  rw [Finset.sum_congr rfl fun n hn => by rw [e1 n (Finset.mem_range.1 hn)]]
  have e2 : ∀ n, (if pts n = q then ∑ p ∈ Finset.range g.npoint, g.weight p * (detJ pad (g.coords p) * ∑ l ∈ Finset.range pad.spaceNdim, B p n l * tensor2 t i l) else 0) =
      ∑ p ∈ Finset.range g.npoint, g.weight p * (detJ pad (g.coords p) * ∑ l ∈ Finset.range pad.spaceNdim, B p n l * if pts n = q then tensor2 t i l else 0) := by
    intro n
    split_ifs <;> simp
  rw [Finset.sum_congr rfl fun n _ => e2 n, Finset.sum_comm]
  refine Finset.sum_congr rfl fun p hp => ?_
  rw [hdiv p (Finset.mem_range.1 hp), ← Finset.mul_sum, ← Finset.mul_sum]

/-- The vector of the constant flow for a cell. -/
theorem flow_cell (hinv : InverseSpec inv) (hs : pad.kind.ndim = pad.spaceNdim) (hd : SpaceOk pad) (hG : GradientOk inv pad)
    (ha : Accurate g pad.kind.classOf (cellNeed pad.kind) ε) (w : Nat → ℝ) :
    (∃ r, (flowVector inv pad g w).2 = .ok r) ∧ ∀ (pts : Nat → Nat) (q : Nat),
      nodalPart pad.kind.nnode pts 1 (flowVector inv pad g w).1 q 0 =
        ∑ p ∈ Finset.range g.npoint, g.weight p * divDensity inv pad (fun n l => if pts n = q then w l else 0) (g.coords p) := by
  obtain ⟨B, hB, hdiv⟩ := rule_gradient hinv hs hG ha
  obtain ⟨d', pad', h1, h2, h3⟩ := C37_vec_03_bv hinv ⟨pad.kind.nnode, fun _ => 0⟩ (CommonArgs.new pad g) hd
    (fun _ _ _ => .ok w) (fun _ => w) B (by simp [CommonArgs.new]) hB (fun _ _ _ _ => rfl)
  unfold flowVector
  rw [h1]
  refine ⟨⟨pad', rfl⟩, fun pts q => ?_⟩
  unfold nodalPart
  have e1 : ∀ n < pad.kind.nnode, d'.val (0 + n * 1) = ∑ p ∈ Finset.range g.npoint, g.weight p * (detJ pad (g.coords p) * ∑ l ∈ Finset.range pad.spaceNdim, B p n l * w l) := by
    intro n hn
    have h4 := h3 n
    simp only [CommonArgs.new, Nat.zero_le, zero_add, true_and, if_true, Nat.sub_zero] at h4
    rw [if_pos hn] at h4
    rw [zero_add, mul_one, h4]
    unfold quadrature
    refine Finset.sum_congr rfl fun p hp => ?_
    simp only [factor]
    norm_num
    rw [mul_assoc]
    congr 2
    exact Finset.sum_congr rfl fun l _ => mul_comm _ _
  rw [Finset.sum_congr rfl fun n hn => by rw [e1 n (Finset.mem_range.1 hn)]]
  have e2 : ∀ n, (if pts n = q then ∑ p ∈ Finset.range g.npoint, g.weight p * (detJ pad (g.coords p) * ∑ l ∈ Finset.range pad.spaceNdim, B p n l * w l) else 0) =
      ∑ p ∈ Finset.range g.npoint, g.weight p * (detJ pad (g.coords p) * ∑ l ∈ Finset.range pad.spaceNdim, B p n l * if pts n = q then w l else 0) := by
    intro n
    split_ifs <;> simp
  rw [Finset.sum_congr rfl fun n _ => e2 n, Finset.sum_comm]
  refine Finset.sum_congr rfl fun p hp => ?_
  rw [hdiv p (Finset.mem_range.1 hp), ← Finset.mul_sum, ← Finset.mul_sum]

/-! ## Edges and faces -/

theorem side_quadrature (hs : pad.spaceNdim = pad.kind.ndim + 1) (hk : pad.kind.ndim = 1 ∨ pad.kind.ndim = 2)
    (ha : Accurate g pad.kind.classOf (sideNeed pad.kind) ε) (v : Nat → Nat → ℝ) :
    |∑ p ∈ Finset.range g.npoint, g.weight p * fluxDensity pad v (g.coords p) - totalFlux pad v| ≤ ε * coeffNorm (fluxPoly pad.kind pad.X v) := by
  rw [totalFlux_eq hs hk (X := pad.X) fun _ _ _ _ => rfl]
  refine le_of_eq_of_le ?_ (ha.exact _ (fluxPoly_covers hk pad.X v))
  unfold polyIntegral
  congr 2
  refine Finset.sum_congr rfl fun p hp => ?_
  rw [vec3_coords, ← fluxDensity_eq hs hk (X := pad.X) (fun _ _ _ _ => rfl), mul_comm]
  unfold fluxDensity
  rw [← calcNormalVector_point]
  congr 1
  cases pad.calcNormalVector pad.spaceNdim (g.coords p) with
  | ok r =>
    obtain ⟨mag, un, p'⟩ := r
    dsimp only
    congr 1
    refine Finset.sum_congr rfl fun i _ => ?_
    congr 1
    unfold interpolate
    refine Finset.sum_congr rfl fun n hn => ?_
    rw [calcInterp_congr pad.kind (point_agree (g.coords p) (by omega)) (Finset.mem_range.1 hn)]
  | err e => rfl
  | panic => rfl

/-- The normal at the integration points. -/
theorem rule_normal (hs : pad.spaceNdim = pad.kind.ndim + 1) (hd : SpaceOk pad) (g : Gauss) : ∃ (mag : (Nat → ℝ) → ℝ) (un : Nat → Nat → ℝ),
    (∀ p < g.npoint, ∃ p0, pad.calcNormalVector pad.spaceNdim (g.coords p) = .ok (mag (g.coords p), un p, p0)) ∧
    ∀ p < g.npoint, ∀ v, fluxDensity pad v (g.coords p) = mag (g.coords p) * ∑ i ∈ Finset.range pad.spaceNdim, un p i * interpolate pad.kind (fun n => v n i) (g.coords p) := by
  have h1 : ∀ ξ, ∃ (mag : ℝ) (un : Nat → ℝ) (p0 : Scratchpad), pad.calcNormalVector pad.spaceNdim ξ = .ok (mag, un, p0) := by
    intro ξ
    obtain ⟨⟨mag, un, p'⟩, h⟩ := (C32_errors pad (by rcases hd with h | h <;> omega) pad.spaceNdim ξ).1 ⟨by omega, rfl⟩
    exact ⟨mag, un, p', h⟩
  choose mag un p0 h using h1
  refine ⟨mag, fun p => un (g.coords p), fun p _ => ⟨_, h _⟩, fun p _ v => ?_⟩
  unfold fluxDensity
  rw [h]

/-- The vector of the tractions of a constant stress for an edge or face. -/
theorem traction_side (hs : pad.spaceNdim = pad.kind.ndim + 1) (hd : SpaceOk pad) (g : Gauss) (t : Nat → ℝ) :
    (∃ r, (tractionVector pad g t).2 = .ok r) ∧ ∀ (pts : Nat → Nat) (q i : Nat), i < pad.spaceNdim →
      nodalPart pad.kind.nnode pts pad.spaceNdim (tractionVector pad g t).1 q i =
        ∑ p ∈ Finset.range g.npoint, g.weight p * fluxDensity pad (fun n l => if pts n = q then tensor2 t i l else 0) (g.coords p) := by
  obtain ⟨mag, un, hN, hf⟩ := rule_normal hs hd g
  obtain ⟨b', pad', h1, h2, h3⟩ := C37_vec_02_nv_bry ⟨pad.kind.nnode * pad.spaceNdim, fun _ => 0⟩ (CommonArgs.new pad g) hd
    (fun _ un _ => .ok fun i => ∑ j ∈ Finset.range pad.spaceNdim, tensor2 t i j * un j) (fun p i => ∑ j ∈ Finset.range pad.spaceNdim, tensor2 t i j * un p j)
    mag un hs.symm (by simp [CommonArgs.new]) hN (fun _ _ => rfl)
  unfold tractionVector
  rw [h1]
  refine ⟨⟨pad', rfl⟩, fun pts q i hi => ?_⟩
  unfold nodalPart
  have e1 : ∀ n < pad.kind.nnode, b'.val (i + n * pad.spaceNdim) = ∑ p ∈ Finset.range g.npoint, g.weight p * (mag (g.coords p) * ∑ l ∈ Finset.range pad.spaceNdim, un p l *
      (Shapes.calcInterp pad.kind (g.coords p) n * tensor2 t i l)) := by
    intro n hn
    have hb := block_lt hi hn
    have h4 := h3 (i + n * pad.spaceNdim)
    simp only [CommonArgs.new, Nat.zero_le, zero_add, true_and, if_true, Nat.sub_zero] at h4
    rw [if_pos hb] at h4
    rw [h4]
    unfold quadrature
    refine Finset.sum_congr rfl fun p hp => ?_
    rw [(mul_div hi).1, (mul_div hi).2]
    simp only [factor, shapeN]
    norm_num
    rw [mul_assoc, Finset.mul_sum]
    congr 2
    exact Finset.sum_congr rfl fun l _ => by ring
  rw [Finset.sum_congr rfl fun n hn => by rw [e1 n (Finset.mem_range.1 hn)]]
  have e2 : ∀ n, (if pts n = q then ∑ p ∈ Finset.range g.npoint, g.weight p * (mag (g.coords p) * ∑ l ∈ Finset.range pad.spaceNdim, un p l *
      (Shapes.calcInterp pad.kind (g.coords p) n * tensor2 t i l)) else 0) =
      ∑ p ∈ Finset.range g.npoint, g.weight p * (mag (g.coords p) * ∑ l ∈ Finset.range pad.spaceNdim, un p l *
      (Shapes.calcInterp pad.kind (g.coords p) n * if pts n = q then tensor2 t i l else 0)) := by
    intro n
    split_ifs <;> simp
  rw [Finset.sum_congr rfl fun n _ => e2 n, Finset.sum_comm]
  refine Finset.sum_congr rfl fun p hp => ?_
  rw [hf p (Finset.mem_range.1 hp), ← Finset.mul_sum, ← Finset.mul_sum, Finset.sum_comm]
  congr 2
  refine Finset.sum_congr rfl fun l _ => ?_
  rw [← Finset.mul_sum]
  rfl

/-- The vector of the outflow for an edge or face. -/
theorem outflow_side (hs : pad.spaceNdim = pad.kind.ndim + 1) (hd : SpaceOk pad) (g : Gauss) (w : Nat → ℝ) :
    (∃ r, (outflowVector pad g w).2 = .ok r) ∧ ∀ (pts : Nat → Nat) (q : Nat),
      nodalPart pad.kind.nnode pts 1 (outflowVector pad g w).1 q 0 =
        ∑ p ∈ Finset.range g.npoint, g.weight p * fluxDensity pad (fun n l => if pts n = q then w l else 0) (g.coords p) := by
  obtain ⟨mag, un, hN, hf⟩ := rule_normal hs hd g
  obtain ⟨b', pad', h1, h2, h3⟩ := C37_vec_01_ns_bry ⟨pad.kind.nnode, fun _ => 0⟩ (CommonArgs.new pad g)
    (fun _ un _ => .ok (∑ j ∈ Finset.range pad.spaceNdim, w j * un j)) (fun p => ∑ j ∈ Finset.range pad.spaceNdim, w j * un p j)
    mag un hs.symm (by simp [CommonArgs.new]) hN (fun _ _ => rfl)
  unfold outflowVector
  rw [h1]
  refine ⟨⟨pad', rfl⟩, fun pts q => ?_⟩
  unfold nodalPart
  have e1 : ∀ n < pad.kind.nnode, b'.val (0 + n * 1) = ∑ p ∈ Finset.range g.npoint, g.weight p * (mag (g.coords p) * ∑ l ∈ Finset.range pad.spaceNdim, un p l *
      (Shapes.calcInterp pad.kind (g.coords p) n * w l)) := by
    intro n hn
    have h4 := h3 n
    simp only [CommonArgs.new, Nat.zero_le, zero_add, true_and, if_true, Nat.sub_zero] at h4
    rw [if_pos hn] at h4
    rw [zero_add, mul_one, h4]
    unfold quadrature
    refine Finset.sum_congr rfl fun p hp => ?_
    simp only [factor, shapeN]
    norm_num
    rw [mul_assoc, Finset.mul_sum]
    congr 2
    exact Finset.sum_congr rfl fun l _ => by ring
  rw [Finset.sum_congr rfl fun n hn => by rw [e1 n (Finset.mem_range.1 hn)]]
  have e2 : ∀ n, (if pts n = q then ∑ p ∈ Finset.range g.npoint, g.weight p * (mag (g.coords p) * ∑ l ∈ Finset.range pad.spaceNdim, un p l *
      (Shapes.calcInterp pad.kind (g.coords p) n * w l)) else 0) =
      ∑ p ∈ Finset.range g.npoint, g.weight p * (mag (g.coords p) * ∑ l ∈ Finset.range pad.spaceNdim, un p l *
      (Shapes.calcInterp pad.kind (g.coords p) n * if pts n = q then w l else 0)) := by
    intro n
    split_ifs <;> simp
  rw [Finset.sum_congr rfl fun n _ => e2 n, Finset.sum_comm]
  refine Finset.sum_congr rfl fun p hp => ?_
  rw [hf p (Finset.mem_range.1 hp), ← Finset.mul_sum, ← Finset.mul_sum, Finset.sum_comm]
  congr 2
  refine Finset.sum_congr rfl fun l _ => ?_
  rw [← Finset.mul_sum]
  rfl

end
end Gemlab.Scratchpad
