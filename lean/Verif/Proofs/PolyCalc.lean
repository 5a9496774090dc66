import Verif.Proofs.ExactIntegral
import Verif.Props.Shapes
import Mathlib.Algebra.MvPolynomial.PDeriv
import Mathlib.MeasureTheory.Integral.IntervalIntegral.FundThmCalculus

/-! # Calculus of polynomials on the reference domains: shape functions as polynomials, the theorem of Gauss -/

namespace Gemlab.GaussSpec
open MvPolynomial Gemlab.Spec.Analytical Gemlab.Shapes Gemlab.Spec
noncomputable section

/-- An expression as a polynomial (denominators must be constants). -/
def toMv : PE → MvPolynomial (Fin 3) ℝ
  | .c q => C (q : ℝ)
  | .x i => if h : i < 3 then X ⟨i, h⟩ else 0
  | .add a b => toMv a + toMv b
  | .sub a b => toMv a - toMv b
  | .mul a b => toMv a * toMv b
  | .neg a => - toMv a
  | .div a b => toMv a * C ((PE.eval (fun _ => 0) b)⁻¹)

theorem eval_toMv (e : PE) (h : e.constDen = true) (r s t : ℝ) : eval ![r, s, t] (toMv e) = PE.eval (point r s t) e := by
  induction e with
  | c q => simp [toMv, PE.eval]
  | x i =>
    unfold toMv
    split_ifs with hi
    · rw [eval_X]
      rcases (by omega : i = 0 ∨ i = 1 ∨ i = 2) with rfl | rfl | rfl <;> rfl
    · rw [map_zero]
      show _ = point r s t i
      unfold point
      rw [if_neg (by omega), if_neg (by omega), if_neg (by omega)]
  | add a b iha ihb =>
    simp only [PE.constDen, Bool.and_eq_true] at h
    simp only [toMv, map_add, iha h.1, ihb h.2, PE.eval]
  | sub a b iha ihb =>
    simp only [PE.constDen, Bool.and_eq_true] at h
    simp only [toMv, map_sub, iha h.1, ihb h.2, PE.eval]
  | mul a b iha ihb =>
    simp only [PE.constDen, Bool.and_eq_true] at h
    simp only [toMv, map_mul, iha h.1, ihb h.2, PE.eval]
  | neg a iha =>
    simp only [PE.constDen] at h
    simp only [toMv, map_neg, iha h, PE.eval]
  | div a b iha ihb =>
    simp only [PE.constDen, Bool.and_eq_true] at h
    simp only [toMv, map_mul, eval_C, iha h.1, PE.eval]
    rw [PE.eval_closed (fun _ => 0) (point r s t) b h.2, div_eq_mul_inv]

theorem constDen_diff (e : PE) (h : e.constDen = true) (i : Nat) : (e.diff i).constDen = true := by
  induction e with
  | c q => rfl
  | x j => unfold PE.diff; split_ifs <;> rfl
  | _ => simp_all [PE.constDen, PE.diff]

theorem pderiv_toMv (e : PE) (h : e.constDen = true) (i : Fin 3) : pderiv i (toMv e) = toMv (e.diff i) := by
  induction e with
  | c q => simp [toMv, PE.diff]
  | x j =>
    unfold toMv PE.diff
    split_ifs with hj hi
    · rw [pderiv_X]
      subst hi
      simp [toMv]
    · rw [pderiv_X, Pi.single_apply, if_neg]
      · simp [toMv]
      · intro hc
        exact hi (by rw [← hc])
    · rename_i hi
      have := i.isLt
      omega
    · simp [toMv]
  | add a b iha ihb =>
    simp only [PE.constDen, Bool.and_eq_true] at h
    simp only [toMv, PE.diff, map_add, iha h.1, ihb h.2]
  | sub a b iha ihb =>
    simp only [PE.constDen, Bool.and_eq_true] at h
    simp only [toMv, PE.diff, map_sub, iha h.1, ihb h.2]
  | mul a b iha ihb =>
    simp only [PE.constDen, Bool.and_eq_true] at h
    simp only [toMv, PE.diff, pderiv_mul, iha h.1, ihb h.2]
  | neg a iha =>
    simp only [PE.constDen] at h
    simp only [toMv, PE.diff, map_neg, iha h]
  | div a b iha ihb =>
    simp only [PE.constDen, Bool.and_eq_true] at h
    simp only [toMv, PE.diff, pderiv_mul, iha h.1, pderiv_C, mul_zero, add_zero]

/-- The shape function as a polynomial. -/
def shapePoly (k : GeoKind) (m : Nat) : MvPolynomial (Fin 3) ℝ := toMv ((interp k).getD m 0)

theorem shape_facts (k : GeoKind) (m : Nat) (hm : m < k.nnode) (i : Nat) (hi : i < k.ndim) :
    ((interp k).getD m 0).constDen = true ∧ PE.same (PE.diff i ((interp k).getD m 0)) (((deriv k).getD m []).getD i 0) = true := by
  have h := chkDeriv_ok k
  simp only [chkDeriv, List.all_eq_true, List.mem_range, Bool.and_eq_true] at h
  exact h m hm i hi

theorem eval_shapePoly (k : GeoKind) (m : Nat) (hm : m < k.nnode) (r s t : ℝ) : eval ![r, s, t] (shapePoly k m) = calcInterp k (point r s t) m := by
  have h0 : 0 < k.ndim := by cases k <;> decide
  exact eval_toMv _ (shape_facts k m hm 0 h0).1 r s t

theorem eval_pderiv_shapePoly (k : GeoKind) (m : Nat) (hm : m < k.nnode) (i : Fin 3) (hi : (i : Nat) < k.ndim) (r s t : ℝ) :
    eval ![r, s, t] (pderiv i (shapePoly k m)) = calcDeriv k (point r s t) m i := by
  obtain ⟨h1, h2⟩ := shape_facts k m hm i hi
  unfold shapePoly
  rw [pderiv_toMv _ h1, eval_toMv _ (constDen_diff _ h1 i), PE.eval_eq_of_same h2]
  rfl

/-- A nodal field as a polynomial. -/
def fieldPoly (k : GeoKind) (u : Nat → ℝ) : MvPolynomial (Fin 3) ℝ := ∑ m ∈ Finset.range k.nnode, C (u m) * shapePoly k m

theorem eval_fieldPoly (k : GeoKind) (u : Nat → ℝ) (r s t : ℝ) : eval ![r, s, t] (fieldPoly k u) = interpolate k u (point r s t) := by
  unfold fieldPoly interpolate
  rw [map_sum]
  refine Finset.sum_congr rfl fun m hm => ?_
  rw [map_mul, eval_C, eval_shapePoly k m (Finset.mem_range.1 hm), mul_comm]

theorem eval_pderiv_fieldPoly (k : GeoKind) (u : Nat → ℝ) (i : Fin 3) (hi : (i : Nat) < k.ndim) (r s t : ℝ) :
    eval ![r, s, t] (pderiv i (fieldPoly k u)) = ∑ m ∈ Finset.range k.nnode, u m * calcDeriv k (point r s t) m i := by
  unfold fieldPoly
  rw [map_sum, map_sum]
  refine Finset.sum_congr rfl fun m hm => ?_
  rw [pderiv_C_mul, map_mul, eval_C, eval_pderiv_shapePoly k m (Finset.mem_range.1 hm) i hi]

/-! ## Derivatives -/

/-- The derivative of a polynomial along a curve. -/
theorem hasDerivAt_eval_curve (P : MvPolynomial (Fin 3) ℝ) (γ : ℝ → Fin 3 → ℝ) (γ' : Fin 3 → ℝ) (τ : ℝ) (hγ : ∀ i, HasDerivAt (fun v => γ v i) (γ' i) τ) :
    HasDerivAt (fun v => eval (γ v) P) (∑ i, eval (γ τ) (pderiv i P) * γ' i) τ := by
  induction P using MvPolynomial.induction_on with
  | C a => simpa using hasDerivAt_const τ a
  | add p q hp hq =>
    simp only [map_add, add_mul, Finset.sum_add_distrib]
    exact hp.add hq
  | mul_X p j hp =>
    have h := HasDerivAt.fun_mul hp (hγ j)
    have hv : ∑ i, eval (γ τ) (pderiv i (p * X j)) * γ' i = (∑ i, eval (γ τ) (pderiv i p) * γ' i) * γ τ j + eval (γ τ) p * γ' j := by
      simp only [map_mul, eval_X, pderiv_mul, map_add, add_mul, Finset.sum_add_distrib]
      rw [Finset.sum_mul]
      congr 1
      · exact Finset.sum_congr rfl fun i _ => by ring
      · rw [Finset.sum_eq_single j]
        · rw [pderiv_X_self, map_one, mul_one]
        · intro i _ hi
          rw [pderiv_X_of_ne hi.symm, map_zero]; ring
        · intro h; exact absurd (Finset.mem_univ _) h
    rw [hv]
    simp only [map_mul, eval_X]
    exact h

theorem continuous_eval_curve (P : MvPolynomial (Fin 3) ℝ) (γ : ℝ → Fin 3 → ℝ) (hγ : ∀ i, Continuous fun v => γ v i) : Continuous fun v => eval (γ v) P := by
  induction P using MvPolynomial.induction_on with
  | C a => simpa using continuous_const
  | add p q hp hq => simp only [map_add]; exact hp.add hq
  | mul_X p j hp => simp only [map_mul, eval_X]; exact hp.mul (hγ j)

theorem ftc1 (P : MvPolynomial (Fin 3) ℝ) (r t a b : ℝ) : ∫ s in a..b, eval ![r, s, t] (pderiv 1 P) = eval ![r, b, t] P - eval ![r, a, t] P := by
  refine intervalIntegral.integral_eq_sub_of_hasDerivAt (f := fun s => eval ![r, s, t] P) (fun s _ => ?_) (Continuous.intervalIntegrable ?_ _ _)
  · have := hasDerivAt_eval_curve P (fun s => ![r, s, t]) ![0, 1, 0] s (by
      intro i; fin_cases i
      · exact hasDerivAt_const s r
      · exact hasDerivAt_id s
      · exact hasDerivAt_const s t)
    simpa [Fin.sum_univ_three] using this
  · exact continuous_eval_curve _ _ (by
      intro i; fin_cases i
      · exact continuous_const
      · exact continuous_id
      · exact continuous_const)

theorem ftc2 (P : MvPolynomial (Fin 3) ℝ) (r s a b : ℝ) : ∫ t in a..b, eval ![r, s, t] (pderiv 2 P) = eval ![r, s, b] P - eval ![r, s, a] P := by
  refine intervalIntegral.integral_eq_sub_of_hasDerivAt (f := fun t => eval ![r, s, t] P) (fun t _ => ?_) (Continuous.intervalIntegrable ?_ _ _)
  · have := hasDerivAt_eval_curve P (fun t => ![r, s, t]) ![0, 0, 1] t (by
      intro i; fin_cases i
      · exact hasDerivAt_const t r
      · exact hasDerivAt_const t s
      · exact hasDerivAt_id t)
    simpa [Fin.sum_univ_three] using this
  · exact continuous_eval_curve _ _ (by
      intro i; fin_cases i
      · exact continuous_const
      · exact continuous_const
      · exact continuous_id)

/-! ## Symmetry of the integrals -/

theorem polyIntegral_monomial (cls : GeoClass) (d : Fin 3 →₀ ℕ) (a : ℝ) : polyIntegral cls (monomial d a) = a * (moment cls (d 0) (d 1) (d 2) : ℝ) := by
  have : monomial d a = C a * (X 0 ^ d 0 * X 1 ^ d 1 * X 2 ^ d 2) := by
    rw [monomial_eq, Finsupp.prod_fintype _ _ (by simp), Fin.prod_univ_three]
  rw [this, polyIntegral_smul, polyIntegral_mono]

theorem polyIntegral_rename (cls : GeoClass) (σ : Equiv.Perm (Fin 3)) (hσ : ∀ d : Fin 3 → Nat, moment cls (d (σ 0)) (d (σ 1)) (d (σ 2)) = moment cls (d 0) (d 1) (d 2))
    (P : MvPolynomial (Fin 3) ℝ) : polyIntegral cls (rename σ P) = polyIntegral cls P := by
  induction P using MvPolynomial.induction_on' with
  | monomial d a =>
    rw [rename_monomial, polyIntegral_monomial, polyIntegral_monomial, ← hσ]
    rw [Finsupp.mapDomain_apply σ.injective, Finsupp.mapDomain_apply σ.injective, Finsupp.mapDomain_apply σ.injective]
  | add p q hp hq => rw [map_add, polyIntegral_add, polyIntegral_add, hp, hq]

theorem pderiv_swap (i j : Fin 3) (P : MvPolynomial (Fin 3) ℝ) : rename (Equiv.swap i j) (pderiv i P) = pderiv j (rename (Equiv.swap i j) P) := by
  have := pderiv_rename (R := ℝ) (Equiv.swap i j).injective i P
  rw [Equiv.swap_apply_left] at this
  exact this.symm

/-! ## The theorem of Gauss on the reference domains -/

theorem gauss_qua_1 (P : MvPolynomial (Fin 3) ℝ) : polyIntegral .qua (pderiv 1 P) = ∫ r in (-1 : ℝ)..1, (eval ![r, 1, 0] P - eval ![r, -1, 0] P) := by
  unfold polyIntegral refIntegral
  simp only [ftc1]

theorem gauss_qua_0 (P : MvPolynomial (Fin 3) ℝ) : polyIntegral .qua (pderiv 0 P) = ∫ s in (-1 : ℝ)..1, (eval ![1, s, 0] P - eval ![-1, s, 0] P) := by
  rw [← polyIntegral_rename .qua (Equiv.swap 0 1), pderiv_swap, gauss_qua_1]
  · refine intervalIntegral.integral_congr fun s _ => ?_
    simp only [eval_rename]
    congr 2 <;> (congr 1; funext i; fin_cases i <;> rfl)
  · intro d
    have h2 : Equiv.swap (0 : Fin 3) 1 2 = 2 := by decide
    simp only [moment, Equiv.swap_apply_left, Equiv.swap_apply_right, h2]; ring

theorem gauss_tri_1 (P : MvPolynomial (Fin 3) ℝ) : polyIntegral .tri (pderiv 1 P) = ∫ r in (0 : ℝ)..1, (eval ![r, 1 - r, 0] P - eval ![r, 0, 0] P) := by
  unfold polyIntegral refIntegral
  simp only [ftc1]

theorem gauss_tri_0 (P : MvPolynomial (Fin 3) ℝ) : polyIntegral .tri (pderiv 0 P) = ∫ s in (0 : ℝ)..1, (eval ![1 - s, s, 0] P - eval ![0, s, 0] P) := by
  rw [← polyIntegral_rename .tri (Equiv.swap 0 1), pderiv_swap, gauss_tri_1]
  · refine intervalIntegral.integral_congr fun s _ => ?_
    simp only [eval_rename]
    congr 2 <;> (congr 1; funext i; fin_cases i <;> rfl)
  · intro d
    have h2 : Equiv.swap (0 : Fin 3) 1 2 = 2 := by decide
    simp [moment, h2, add_comm, mul_comm]

theorem gauss_hex_2 (P : MvPolynomial (Fin 3) ℝ) : polyIntegral .hex (pderiv 2 P) = ∫ r in (-1 : ℝ)..1, ∫ s in (-1 : ℝ)..1, (eval ![r, s, 1] P - eval ![r, s, -1] P) := by
  unfold polyIntegral refIntegral
  simp only [ftc2]

theorem gauss_tet_2 (P : MvPolynomial (Fin 3) ℝ) :
    polyIntegral .tet (pderiv 2 P) = ∫ r in (0 : ℝ)..1, ∫ s in (0 : ℝ)..(1 - r), (eval ![r, s, 1 - r - s] P - eval ![r, s, 0] P) := by
  unfold polyIntegral refIntegral
  simp only [ftc2]

end
end Gemlab.GaussSpec
