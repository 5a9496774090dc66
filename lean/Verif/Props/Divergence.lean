import Verif.Proofs.DivRef
import Verif.Spec.Divergence

/-!
# C74 (cells): the divergence theorem
-/
namespace Gemlab.Scratchpad
open MvPolynomial Gemlab Gemlab.Shapes Gemlab.GaussSpec Gemlab.Spec Gemlab.Spec.Analytical
noncomputable section

theorem calcDeriv_congr (k : GeoKind) {ξ ξ' : Nat → ℝ} (h : ∀ i < k.ndim, ξ i = ξ' i) {m : Nat} (hm : m < k.nnode) {j : Nat} (hj : j < k.ndim) :
    calcDeriv k ξ m j = calcDeriv k ξ' m j := by
  have hc := chkVars_ok k
  simp only [chkVars, List.all_eq_true, List.mem_range, Bool.and_eq_true] at hc
  exact PE.eval_congr_vars h _ ((hc m hm).2 j hj)

/-- A nodal field and its derivatives at a point. -/
theorem evalAt_field (k : GeoKind) (u : Nat → ℝ) (ξ : Nat → ℝ) {a b c : ℝ} (h : ∀ i < k.ndim, point a b c i = ξ i) :
    eval ![a, b, c] (fieldPoly k u) = interpolate k u ξ := by
  rw [eval_fieldPoly]
  unfold interpolate
  refine Finset.sum_congr rfl fun m hm => ?_
  rw [calcInterp_congr k h (Finset.mem_range.1 hm)]

theorem evalAt_deriv (k : GeoKind) (u : Nat → ℝ) (ξ : Nat → ℝ) {a b c : ℝ} (h : ∀ i < k.ndim, point a b c i = ξ i) (j : Fin 3) (hj : (j : Nat) < k.ndim) :
    eval ![a, b, c] (pderiv j (fieldPoly k u)) = ∑ m ∈ Finset.range k.nnode, u m * calcDeriv k ξ m j := by
  rw [eval_pderiv_fieldPoly k u j hj]
  refine Finset.sum_congr rfl fun m hm => ?_
  rw [calcDeriv_congr k h (Finset.mem_range.1 hm) hj]

theorem div_sum (N n : Nat) (D ji v : Nat → Nat → ℝ) :
    ∑ m ∈ Finset.range n, ∑ i ∈ Finset.range N, (∑ k ∈ Finset.range N, D m k * ji k i) * v m i =
      ∑ i ∈ Finset.range N, ∑ k ∈ Finset.range N, (∑ m ∈ Finset.range n, v m i * D m k) * ji k i := by
  rw [Finset.sum_comm]
  refine Finset.sum_congr rfl fun i _ => ?_
  simp only [Finset.sum_mul]
  rw [Finset.sum_comm]
  exact Finset.sum_congr rfl fun k _ => Finset.sum_congr rfl fun m _ => by ring

/-- Transformed fields in the plane (U₀ ∂₁X₁ − U₁ ∂₁X₀ and U₁ ∂₀X₀ − U₀ ∂₀X₁). -/
def flow₀ (U₀ U₁ X₀ X₁ : MvPolynomial (Fin 3) ℝ) : MvPolynomial (Fin 3) ℝ := U₀ * pderiv 1 X₁ - U₁ * pderiv 1 X₀
def flow₁ (U₀ U₁ X₀ X₁ : MvPolynomial (Fin 3) ℝ) : MvPolynomial (Fin 3) ℝ := U₁ * pderiv 0 X₀ - U₀ * pderiv 0 X₁

theorem flow_div (U₀ U₁ X₀ X₁ : MvPolynomial (Fin 3) ℝ) : pderiv 0 (flow₀ U₀ U₁ X₀ X₁) + pderiv 1 (flow₁ U₀ U₁ X₀ X₁) =
    pderiv 0 U₀ * pderiv 1 X₁ - pderiv 0 U₁ * pderiv 1 X₀ + pderiv 1 U₁ * pderiv 0 X₀ - pderiv 1 U₀ * pderiv 0 X₁ := by
  simp only [flow₀, flow₁, map_sub, pderiv_mul, pderiv_comm 1 0]
  ring

/-- Transformed fields in space: `Σ_i U_i cof_ij`. -/
def cof (X Y : MvPolynomial (Fin 3) ℝ) (a b : Fin 3) : MvPolynomial (Fin 3) ℝ := pderiv a X * pderiv b Y - pderiv a Y * pderiv b X
def flow (U₀ U₁ U₂ X₀ X₁ X₂ : MvPolynomial (Fin 3) ℝ) (a b : Fin 3) : MvPolynomial (Fin 3) ℝ := U₀ * cof X₁ X₂ a b + U₁ * cof X₂ X₀ a b + U₂ * cof X₀ X₁ a b

theorem flow_div3 (U₀ U₁ U₂ X₀ X₁ X₂ : MvPolynomial (Fin 3) ℝ) :
    pderiv 0 (flow U₀ U₁ U₂ X₀ X₁ X₂ 1 2) + pderiv 1 (flow U₀ U₁ U₂ X₀ X₁ X₂ 2 0) + pderiv 2 (flow U₀ U₁ U₂ X₀ X₁ X₂ 0 1) =
      pderiv 0 U₀ * cof X₁ X₂ 1 2 + pderiv 0 U₁ * cof X₂ X₀ 1 2 + pderiv 0 U₂ * cof X₀ X₁ 1 2 +
      (pderiv 1 U₀ * cof X₁ X₂ 2 0 + pderiv 1 U₁ * cof X₂ X₀ 2 0 + pderiv 1 U₂ * cof X₀ X₁ 2 0) +
      (pderiv 2 U₀ * cof X₁ X₂ 0 1 + pderiv 2 U₁ * cof X₂ X₀ 0 1 + pderiv 2 U₂ * cof X₀ X₁ 0 1) := by
  simp only [flow, cof, map_add, map_sub, pderiv_mul, pderiv_comm 1 0, pderiv_comm 2 0, pderiv_comm 2 1]
  ring

variable {inv : MatInverse} {pad : Scratchpad} {v : Nat → Nat → ℝ}

/-- The nodal field and the coordinates as polynomials. -/
def uPoly (k : GeoKind) (v : Nat → Nat → ℝ) (i : Nat) : MvPolynomial (Fin 3) ℝ := fieldPoly k fun m => v m i

theorem divDensity_2d (hinv : InverseSpec inv) (hk : pad.kind.ndim = 2) (hs : pad.spaceNdim = 2) {r s t : ℝ}
    (hG : ∃ res, pad.calcGradient inv (point r s t) = .ok res) :
    divDensity inv pad v (point r s t) = eval ![r, s, t] (pderiv 0 (flow₀ (uPoly pad.kind v 0) (uPoly pad.kind v 1) (uPoly pad.kind pad.X 0) (uPoly pad.kind pad.X 1)) +
      pderiv 1 (flow₁ (uPoly pad.kind v 0) (uPoly pad.kind v 1) (uPoly pad.kind pad.X 0) (uPoly pad.kind pad.X 1))) := by
  obtain ⟨⟨d, pad'⟩, hG⟩ := hG
  obtain ⟨g1, -, g2, g3, g4⟩ := gradient_facts hinv hG
  unfold divDensity
  rw [hG, flow_div]
  dsimp only
  simp only [g4]
  rw [div_sum, g1]
  simp only [hs] at g3 ⊢
  rw [detN_two]
  have hd : ∀ (u : Nat → ℝ) (j : Fin 3), (j : Nat) < 2 → eval ![r, s, t] (pderiv j (fieldPoly pad.kind u)) = ∑ m ∈ Finset.range pad.kind.nnode, u m * calcDeriv pad.kind (point r s t) m j :=
    fun u j hj => eval_pderiv_fieldPoly pad.kind u j (by omega) r s t
  simp only [uPoly, map_add, map_sub, map_mul]
  rw [hd _ 0 (by decide), hd _ 0 (by decide), hd _ 0 (by decide), hd _ 0 (by decide), hd _ 1 (by decide), hd _ 1 (by decide), hd _ 1 (by decide), hd _ 1 (by decide)]
  have j00 := g2 0 0
  have j01 := g2 0 1
  have j10 := g2 1 0
  have j11 := g2 1 1
  simp only [Fin.val_zero, Fin.val_one] 
  rw [← j00, ← j01, ← j10, ← j11]
  have e00 := g3 0 (by omega) 0 (by omega)
  have e01 := g3 0 (by omega) 1 (by omega)
  have e10 := g3 1 (by omega) 0 (by omega)
  have e11 := g3 1 (by omega) 1 (by omega)
  simp only [Finset.sum_range_succ, Finset.sum_range_zero, zero_add] at e00 e01 e10 e11 ⊢
  norm_num at e00 e01 e10 e11
  generalize ∑ m ∈ Finset.range pad.kind.nnode, v m 0 * calcDeriv pad.kind (point r s t) m 0 = u00
  generalize ∑ m ∈ Finset.range pad.kind.nnode, v m 0 * calcDeriv pad.kind (point r s t) m 1 = u01
  generalize ∑ m ∈ Finset.range pad.kind.nnode, v m 1 * calcDeriv pad.kind (point r s t) m 0 = u10
  generalize ∑ m ∈ Finset.range pad.kind.nnode, v m 1 * calcDeriv pad.kind (point r s t) m 1 = u11
  generalize pad'.jacobian = J at *
  generalize pad'.invJacobian = B at *
  linear_combination (u00 * J 1 1 - u01 * J 1 0) * e00 + (u01 * J 0 0 - u00 * J 0 1) * e10 + (u10 * J 1 1 - u11 * J 1 0) * e01 + (u11 * J 0 0 - u10 * J 0 1) * e11

theorem adj3 {J B : Nat → Nat → ℝ} (h : ∀ i < 3, ∀ j < 3, ∑ k ∈ Finset.range 3, J i k * B k j = if i = j then 1 else 0) :
    detN 3 J * B 0 0 = (J 1 1 * J 2 2 - J 1 2 * J 2 1) ∧
    detN 3 J * B 0 1 = (J 2 1 * J 0 2 - J 2 2 * J 0 1) ∧
    detN 3 J * B 0 2 = (J 0 1 * J 1 2 - J 0 2 * J 1 1) ∧
    detN 3 J * B 1 0 = (J 1 2 * J 2 0 - J 1 0 * J 2 2) ∧
    detN 3 J * B 1 1 = (J 2 2 * J 0 0 - J 2 0 * J 0 2) ∧
    detN 3 J * B 1 2 = (J 0 2 * J 1 0 - J 0 0 * J 1 2) ∧
    detN 3 J * B 2 0 = (J 1 0 * J 2 1 - J 1 1 * J 2 0) ∧
    detN 3 J * B 2 1 = (J 2 0 * J 0 1 - J 2 1 * J 0 0) ∧
    detN 3 J * B 2 2 = (J 0 0 * J 1 1 - J 0 1 * J 1 0) := by
  rw [detN_three]
  have e00 := h 0 (by omega) 0 (by omega)
  have e01 := h 0 (by omega) 1 (by omega)
  have e02 := h 0 (by omega) 2 (by omega)
  have e10 := h 1 (by omega) 0 (by omega)
  have e11 := h 1 (by omega) 1 (by omega)
  have e12 := h 1 (by omega) 2 (by omega)
  have e20 := h 2 (by omega) 0 (by omega)
  have e21 := h 2 (by omega) 1 (by omega)
  have e22 := h 2 (by omega) 2 (by omega)
  simp only [Finset.sum_range_succ, Finset.sum_range_zero, zero_add] at e00 e01 e02 e10 e11 e12 e20 e21 e22
  norm_num at e00 e01 e02 e10 e11 e12 e20 e21 e22
  refine ⟨?_, ?_, ?_, ?_, ?_, ?_, ?_, ?_, ?_⟩
  · linear_combination (J 1 1 * J 2 2 - J 1 2 * J 2 1) * e00 + (J 2 1 * J 0 2 - J 2 2 * J 0 1) * e10 + (J 0 1 * J 1 2 - J 0 2 * J 1 1) * e20
  · linear_combination (J 1 1 * J 2 2 - J 1 2 * J 2 1) * e01 + (J 2 1 * J 0 2 - J 2 2 * J 0 1) * e11 + (J 0 1 * J 1 2 - J 0 2 * J 1 1) * e21
  · linear_combination (J 1 1 * J 2 2 - J 1 2 * J 2 1) * e02 + (J 2 1 * J 0 2 - J 2 2 * J 0 1) * e12 + (J 0 1 * J 1 2 - J 0 2 * J 1 1) * e22
  · linear_combination (J 1 2 * J 2 0 - J 1 0 * J 2 2) * e00 + (J 2 2 * J 0 0 - J 2 0 * J 0 2) * e10 + (J 0 2 * J 1 0 - J 0 0 * J 1 2) * e20
  · linear_combination (J 1 2 * J 2 0 - J 1 0 * J 2 2) * e01 + (J 2 2 * J 0 0 - J 2 0 * J 0 2) * e11 + (J 0 2 * J 1 0 - J 0 0 * J 1 2) * e21
  · linear_combination (J 1 2 * J 2 0 - J 1 0 * J 2 2) * e02 + (J 2 2 * J 0 0 - J 2 0 * J 0 2) * e12 + (J 0 2 * J 1 0 - J 0 0 * J 1 2) * e22
  · linear_combination (J 1 0 * J 2 1 - J 1 1 * J 2 0) * e00 + (J 2 0 * J 0 1 - J 2 1 * J 0 0) * e10 + (J 0 0 * J 1 1 - J 0 1 * J 1 0) * e20
  · linear_combination (J 1 0 * J 2 1 - J 1 1 * J 2 0) * e01 + (J 2 0 * J 0 1 - J 2 1 * J 0 0) * e11 + (J 0 0 * J 1 1 - J 0 1 * J 1 0) * e21
  · linear_combination (J 1 0 * J 2 1 - J 1 1 * J 2 0) * e02 + (J 2 0 * J 0 1 - J 2 1 * J 0 0) * e12 + (J 0 0 * J 1 1 - J 0 1 * J 1 0) * e22

theorem divDensity_3d (hinv : InverseSpec inv) (hk : pad.kind.ndim = 3) (hs : pad.spaceNdim = 3) {r s t : ℝ}
    (hG : ∃ res, pad.calcGradient inv (point r s t) = .ok res) :
    divDensity inv pad v (point r s t) = eval ![r, s, t] (
      pderiv 0 (flow (uPoly pad.kind v 0) (uPoly pad.kind v 1) (uPoly pad.kind v 2) (uPoly pad.kind pad.X 0) (uPoly pad.kind pad.X 1) (uPoly pad.kind pad.X 2) 1 2) +
      pderiv 1 (flow (uPoly pad.kind v 0) (uPoly pad.kind v 1) (uPoly pad.kind v 2) (uPoly pad.kind pad.X 0) (uPoly pad.kind pad.X 1) (uPoly pad.kind pad.X 2) 2 0) +
      pderiv 2 (flow (uPoly pad.kind v 0) (uPoly pad.kind v 1) (uPoly pad.kind v 2) (uPoly pad.kind pad.X 0) (uPoly pad.kind pad.X 1) (uPoly pad.kind pad.X 2) 0 1)) := by
  obtain ⟨⟨d, pad'⟩, hG⟩ := hG
  obtain ⟨g1, -, g2, g3, g4⟩ := gradient_facts hinv hG
  unfold divDensity
  rw [hG, flow_div3]
  dsimp only
  simp only [g4]
  rw [div_sum, g1]
  simp only [hs] at g3 ⊢
  have hd : ∀ (u : Nat → ℝ) (j : Fin 3), eval ![r, s, t] (pderiv j (fieldPoly pad.kind u)) = ∑ m ∈ Finset.range pad.kind.nnode, u m * calcDeriv pad.kind (point r s t) m j :=
    fun u j => eval_pderiv_fieldPoly pad.kind u j (by omega) r s t
  have hX : ∀ (i : Nat) (j : Fin 3), eval ![r, s, t] (pderiv j (uPoly pad.kind pad.X i)) = pad'.jacobian i j := fun i j => by
    unfold uPoly
    rw [hd, g2]
  have hU : ∀ (i : Nat) (j : Fin 3), ∑ m ∈ Finset.range pad.kind.nnode, v m i * calcDeriv pad.kind (point r s t) m j = eval ![r, s, t] (pderiv j (uPoly pad.kind v i)) := fun i j => by
    unfold uPoly
    rw [hd]
  have h0 := fun i => hU i 0
  have h1 := fun i => hU i 1
  have h2 := fun i => hU i 2
  simp only [Fin.val_zero, Fin.val_one, Fin.val_two] at h0 h1 h2
  simp only [cof, map_add, map_sub, map_mul, hX]
  obtain ⟨b00, b01, b02, b10, b11, b12, b20, b21, b22⟩ := adj3 g3
  simp only [Finset.sum_range_succ, Finset.sum_range_zero, zero_add, Fin.val_zero, Fin.val_one, Fin.val_two, h0, h1, h2]
  generalize eval ![r, s, t] (pderiv 0 (uPoly pad.kind v 0)) = u00
  generalize eval ![r, s, t] (pderiv 1 (uPoly pad.kind v 0)) = u01
  generalize eval ![r, s, t] (pderiv 2 (uPoly pad.kind v 0)) = u02
  generalize eval ![r, s, t] (pderiv 0 (uPoly pad.kind v 1)) = u10
  generalize eval ![r, s, t] (pderiv 1 (uPoly pad.kind v 1)) = u11
  generalize eval ![r, s, t] (pderiv 2 (uPoly pad.kind v 1)) = u12
  generalize eval ![r, s, t] (pderiv 0 (uPoly pad.kind v 2)) = u20
  generalize eval ![r, s, t] (pderiv 1 (uPoly pad.kind v 2)) = u21
  generalize eval ![r, s, t] (pderiv 2 (uPoly pad.kind v 2)) = u22
  generalize detN 3 pad'.jacobian = dd at *
  linear_combination u00 * b00 + u01 * b10 + u02 * b20 + u10 * b01 + u11 * b11 + u12 * b21 + u20 * b02 + u21 * b12 + u22 * b22

/-- The flux density of an edge of a plane cell. -/
theorem fluxDensity_2d {k : GeoKind} {X : Nat → Nat → ℝ} {pe : Scratchpad} {e : Nat} (hk : k.ndim = 2) (he : e < k.nedge) (hpe : pe.spaceNdim = 2)
    (hek : k.edgeKind = some pe.kind) (hX : ∀ j < pe.kind.nnode, ∀ i < 2, pe.X j i = X (edgeNode k e j) i) (η : ℝ) :
    fluxDensity pe (fun j => v (edgeNode k e j)) (point η 0 0) =
      edgeDir k e 0 * eval ![edgePoint k e η 0, edgePoint k e η 1, 0] (flow₁ (uPoly k v 0) (uPoly k v 1) (uPoly k X 0) (uPoly k X 1)) -
      edgeDir k e 1 * eval ![edgePoint k e η 0, edgePoint k e η 1, 0] (flow₀ (uPoly k v 0) (uPoly k v 1) (uPoly k X 0) (uPoly k X 1)) := by
  have hn1 : pe.kind.ndim = 1 := by
    have := (edgeKind_nnode k _ hek).2
    generalize pe.kind = q at this
    cases q <;> first | rfl | exact absurd this (by decide)
  obtain ⟨⟨mag, un, p'⟩, hN⟩ := (C32_errors pe (by omega) pe.spaceNdim (point η 0 0)).1 ⟨by omega, rfl⟩
  obtain ⟨-, -, -, -, n4, n5⟩ := C32_line_2d hpe hN
  have t0 := edge_tangent (X := X) hek he (fun j hj => hX j hj 0 (by omega)) (point η 0 0)
  have t1 := edge_tangent (X := X) hek he (fun j hj => hX j hj 1 (by omega)) (point η 0 0)
  have hp0 : point η 0 0 0 = η := rfl
  rw [hk, hp0] at t0 t1
  unfold fluxDensity
  rw [hN]
  simp only [hpe, flow₀, flow₁, map_sub, map_mul]
  have hpt : ∀ i < k.ndim, point (edgePoint k e η 0) (edgePoint k e η 1) 0 i = edgePoint k e η i := by
    intro i hi
    rw [hk] at hi
    interval_cases i <;> rfl
  have hv : ∀ i, interpolate pe.kind (fun n => v (edgeNode k e n) i) (point η 0 0) = interpolate k (fun n => v n i) (edgePoint k e η) := by
    intro i
    rw [interpolate_edge k _ hek e he]
    unfold interpolate
    refine Finset.sum_congr rfl fun m hm => ?_
    rw [calcInterp_congr pe.kind (ξ := point η 0 0) (ξ' := vec1 η) (fun j hj => by rw [hn1] at hj; interval_cases j; rfl) (Finset.mem_range.1 hm)]
  have hj : ∀ (i : Nat) (j : Fin 3), (j : Nat) < 2 → eval ![edgePoint k e η 0, edgePoint k e η 1, 0] (pderiv j (uPoly k X i)) = Spec.jac k X (edgePoint k e η) i j :=
    fun i j hj => evalAt_deriv k _ _ hpt j (by omega)
  have hu : ∀ i, eval ![edgePoint k e η 0, edgePoint k e η 1, 0] (uPoly k v i) = interpolate k (fun n => v n i) (edgePoint k e η) := fun i => evalAt_field k _ _ hpt
  rw [hj 0 0 (by decide), hj 0 1 (by decide), hj 1 0 (by decide), hj 1 1 (by decide), hu, hu]
  simp only [Finset.sum_range_succ, Finset.sum_range_zero, zero_add, hv, Fin.val_zero, Fin.val_one] at t0 t1 ⊢
  rw [t1] at n4
  rw [t0] at n5
  linear_combination interpolate k (fun n => v n 0) (edgePoint k e η) * n4 + interpolate k (fun n => v n 1) (edgePoint k e η) * n5

/-- The flux density of a face of a solid cell. -/
theorem fluxDensity_3d {k : GeoKind} {X : Nat → Nat → ℝ} {pf : Scratchpad} {f : Nat} (hk : k.ndim = 3) (hf : f < k.nface) (hpf : pf.spaceNdim = 3)
    (hfk : k.faceKind = some pf.kind) (hX : ∀ j < pf.kind.nnode, ∀ i < 3, pf.X j i = X (faceNode k f j) i) (r s t : ℝ) :
    fluxDensity pf (fun j => v (faceNode k f j)) (point r s t) =
      (faceNormal k f 0 : ℝ) * eval ![facePoint k f (point r s t) 0, facePoint k f (point r s t) 1, facePoint k f (point r s t) 2] (flow (uPoly k v 0) (uPoly k v 1) (uPoly k v 2) (uPoly k X 0) (uPoly k X 1) (uPoly k X 2) 1 2)
      + (faceNormal k f 1 : ℝ) * eval ![facePoint k f (point r s t) 0, facePoint k f (point r s t) 1, facePoint k f (point r s t) 2] (flow (uPoly k v 0) (uPoly k v 1) (uPoly k v 2) (uPoly k X 0) (uPoly k X 1) (uPoly k X 2) 2 0)
      + (faceNormal k f 2 : ℝ) * eval ![facePoint k f (point r s t) 0, facePoint k f (point r s t) 1, facePoint k f (point r s t) 2] (flow (uPoly k v 0) (uPoly k v 1) (uPoly k v 2) (uPoly k X 0) (uPoly k X 1) (uPoly k X 2) 0 1) := by
  have hn2 : pf.kind.ndim = 2 := by
    obtain ⟨-, h⟩ | ⟨-, h⟩ := faceKind_class k _ hfk <;> (generalize pf.kind = q at h; cases q <;> first | rfl | exact absurd h (by decide))
  obtain ⟨⟨mag, un, p'⟩, hN⟩ := (C32_errors pf (by omega) pf.spaceNdim (point r s t)).1 ⟨by omega, rfl⟩
  obtain ⟨-, -, -, -, -, n4, n5, n6⟩ := C32_surface_3d hpf hN
  have tt : ∀ a < 2, ∀ i < 3, tangent pf (point r s t) a i = ∑ j ∈ Finset.range 3, Spec.jac k X (facePoint k f (point r s t)) i j * faceDirQ k f a j := by
    intro a ha i hi
    rw [face_tangent (X := X) hfk hf ha (fun j hj => hX j hj i hi) _, hk]
  unfold fluxDensity
  rw [hN]
  generalize hP : facePoint k f (point r s t) = P at *
  have hpt : ∀ i < k.ndim, point (P 0) (P 1) (P 2) i = P i := by
    intro i hi
    rw [hk] at hi
    interval_cases i <;> rfl
  simp only [hpf, flow, cof, map_add, map_sub, map_mul]
  have hv : ∀ i, interpolate pf.kind (fun n => v (faceNode k f n) i) (point r s t) = interpolate k (fun n => v n i) P := by
    intro i
    rw [← hP, interpolate_face k _ hfk f hf]
  have hj : ∀ (i : Nat) (j : Fin 3), eval ![P 0, P 1, P 2] (pderiv j (uPoly k X i)) = Spec.jac k X P i j :=
    fun i j => evalAt_deriv k _ _ hpt j (by omega)
  have hu : ∀ i, eval ![P 0, P 1, P 2] (uPoly k v i) = interpolate k (fun n => v n i) P := fun i => evalAt_field k _ _ hpt
  rw [tt 0 (by omega) 0 (by omega), tt 0 (by omega) 1 (by omega), tt 0 (by omega) 2 (by omega), tt 1 (by omega) 0 (by omega), tt 1 (by omega) 1 (by omega),
    tt 1 (by omega) 2 (by omega)] at *
  simp only [hj, hu, hv, faceNormal, Finset.sum_range_succ, Finset.sum_range_zero, zero_add, Fin.val_zero, Fin.val_one, Fin.val_two, if_true, one_ne_zero, if_false, OfNat.ofNat_ne_zero, OfNat.ofNat_ne_one] at n4 n5 n6 ⊢
  push_cast
  generalize Spec.jac k X P = J at *
  generalize interpolate k (fun n => v n 0) P = u0 at *
  generalize interpolate k (fun n => v n 1) P = u1 at *
  generalize interpolate k (fun n => v n 2) P = u2 at *
  linear_combination u0 * n4 + u1 * n5 + u2 * n6

/-- **C74.** The divergence theorem for a plane cell: the integral of the divergence of an interpolated field over the cell, computed with
`calc_gradient`, is the sum of the fluxes through its edges, computed with `calc_normal_vector` on pads that hold the nodes of the edges
in the order of `edge_node_id`. -/
theorem C74_cell_2d (hinv : InverseSpec inv) (hk : pad.kind.ndim = 2) (hs : pad.spaceNdim = 2) (hG : GradientOk inv pad) (v : Nat → Nat → ℝ)
    (pe : Nat → Scratchpad) (hpe : ∀ e < pad.kind.nedge, (pe e).spaceNdim = 2 ∧ pad.kind.edgeKind = some (pe e).kind ∧
      ∀ j < (pe e).kind.nnode, ∀ i < 2, (pe e).X j i = pad.X (edgeNode pad.kind e j) i) :
    totalDivergence inv pad v = ∑ e ∈ Finset.range pad.kind.nedge, totalFlux (pe e) fun j => v (edgeNode pad.kind e j) := by
  unfold totalDivergence
  rw [refIntegral_congr _ fun r s t h => divDensity_2d hinv hk hs (hG r s t h)]
  refine (gauss_edges pad.kind hk _ _).trans ?_
  refine Finset.sum_congr rfl fun e he => ?_
  have he := Finset.mem_range.1 he
  obtain ⟨h1, h2, h3⟩ := hpe e he
  have hcl : (pe e).kind.classOf = .lin := by
    have := (edgeKind_nnode _ _ h2).2
    generalize (pe e).kind = q at this
    cases q <;> first | rfl | exact absurd this (by decide)
  unfold totalFlux
  rw [hcl]
  unfold refIntegral
  exact intervalIntegral.integral_congr fun η _ => (fluxDensity_2d hk he h1 h2 h3 η).symm

/-- **C74.** The divergence theorem for a solid cell. -/
theorem C74_cell_3d (hinv : InverseSpec inv) (hk : pad.kind.ndim = 3) (hs : pad.spaceNdim = 3) (hG : GradientOk inv pad) (v : Nat → Nat → ℝ)
    (pf : Nat → Scratchpad) (hpf : ∀ f < pad.kind.nface, (pf f).spaceNdim = 3 ∧ pad.kind.faceKind = some (pf f).kind ∧
      ∀ j < (pf f).kind.nnode, ∀ i < 3, (pf f).X j i = pad.X (faceNode pad.kind f j) i) :
    totalDivergence inv pad v = ∑ f ∈ Finset.range pad.kind.nface, totalFlux (pf f) fun j => v (faceNode pad.kind f j) := by
  unfold totalDivergence
  rw [refIntegral_congr _ fun r s t h => divDensity_3d hinv hk hs (hG r s t h)]
  obtain ⟨fk, hfk⟩ : ∃ fk, pad.kind.faceKind = some fk := by
    generalize pad.kind = q at hk
    cases q <;> first | exact absurd hk (by decide) | exact ⟨_, rfl⟩
  refine (gauss_faces hfk hk _ _ _).trans ?_
  refine Finset.sum_congr rfl fun f hf => ?_
  have hf := Finset.mem_range.1 hf
  obtain ⟨h1, h2, h3⟩ := hpf f hf
  rw [hfk, Option.some.injEq] at h2
  unfold totalFlux
  rw [← h2]
  exact refIntegral_congr _ fun r s t _ => (fluxDensity_3d hk hf h1 (by rw [hfk, h2]) h3 r s t).symm

end
end Gemlab.Scratchpad
