import Verif.Lib.PolyExpr
import Verif.Proofs.GaussMoments
import Verif.Spec.Analytical

/-! Exact integrals of arithmetic expressions over the reference domains, computed by the kernel. -/

namespace Gemlab.GaussSpec
open MvPolynomial Gemlab.Spec.Analytical

private theorem eval_on (P : MvPolynomial (Fin 3) ℝ) (S : Finset (Fin 3 →₀ ℕ)) (hS : P.support ⊆ S) (r s t : ℝ) :
    eval ![r, s, t] P = ∑ m ∈ S, P.coeff m * (r ^ m 0 * s ^ m 1 * t ^ m 2) := by
  rw [eval_eq']
  rw [Finset.sum_subset hS]
  · apply Finset.sum_congr rfl; intro m _
    rw [Fin.prod_univ_three]; rfl
  · intro m _ hm
    rw [notMem_support_iff.1 hm]; simp

/-- The integral of a polynomial. -/
noncomputable def polyIntegral (cls : GeoClass) (P : MvPolynomial (Fin 3) ℝ) : ℝ := refIntegral cls fun r s t => eval ![r, s, t] P

private theorem polyIntegral_on (cls : GeoClass) (P : MvPolynomial (Fin 3) ℝ) (S : Finset (Fin 3 →₀ ℕ)) (hS : P.support ⊆ S) :
    polyIntegral cls P = ∑ m ∈ S, P.coeff m * (moment cls (m 0) (m 1) (m 2) : ℝ) := by
  unfold polyIntegral
  simp_rw [eval_on P S hS]
  exact refIntegral_sum S (fun m => P.coeff m) (fun m => m 0) (fun m => m 1) (fun m => m 2) cls

theorem polyIntegral_add (cls : GeoClass) (P Q : MvPolynomial (Fin 3) ℝ) : polyIntegral cls (P + Q) = polyIntegral cls P + polyIntegral cls Q := by
  classical
  let S := P.support ∪ Q.support ∪ (P + Q).support
  rw [polyIntegral_on cls P S (fun x hx => by simp [S, -mem_support_iff]; tauto), polyIntegral_on cls Q S (fun x hx => by simp [S, -mem_support_iff]; tauto),
    polyIntegral_on cls (P + Q) S (fun x hx => by simp only [S, Finset.mem_union]; tauto), ← Finset.sum_add_distrib]
  apply Finset.sum_congr rfl; intro m _
  rw [coeff_add]; ring

theorem polyIntegral_smul (cls : GeoClass) (c : ℝ) (P : MvPolynomial (Fin 3) ℝ) : polyIntegral cls (C c * P) = c * polyIntegral cls P := by
  classical
  let S := P.support ∪ (C c * P).support
  rw [polyIntegral_on cls P S (fun x hx => by simp only [S, Finset.mem_union]; tauto),
    polyIntegral_on cls (C c * P) S (fun x hx => by simp only [S, Finset.mem_union]; tauto), Finset.mul_sum]
  apply Finset.sum_congr rfl; intro m _
  rw [coeff_C_mul]; ring

theorem polyIntegral_mono (cls : GeoClass) (i j k : Nat) : polyIntegral cls (X 0 ^ i * X 1 ^ j * X 2 ^ k) = (moment cls i j k : ℝ) := by
  have h := refIntegral_sum ({0} : Finset Nat) (fun _ => 1) (fun _ => i) (fun _ => j) (fun _ => k) cls
  simp only [Finset.sum_singleton, one_mul] at h
  rw [← h]; unfold polyIntegral
  congr 1; funext r s t
  simp

theorem polyIntegral_zero (cls : GeoClass) : polyIntegral cls 0 = 0 := by
  have := polyIntegral_smul cls 0 0
  simpa using this

noncomputable section
def mv1 : PE.P1 → MvPolynomial (Fin 3) ℝ
  | [] => 0
  | a :: p => C (a : ℝ) + X 0 * mv1 p
def mv2 : PE.P2 → MvPolynomial (Fin 3) ℝ
  | [] => 0
  | a :: p => mv1 a + X 1 * mv2 p
def mv3 : PE.P3 → MvPolynomial (Fin 3) ℝ
  | [] => 0
  | a :: p => mv2 a + X 2 * mv3 p
end

theorem eval_mv1 (r s t : ℝ) (p : PE.P1) : eval ![r, s, t] (mv1 p) = PE.P1.ev r p := by
  induction p with
  | nil => simp [mv1, PE.P1.ev, PE.evL]
  | cons a p ih => simp only [mv1, map_add, map_mul, eval_C, eval_X, ih, PE.P1.ev, PE.evL]; rfl
theorem eval_mv2 (r s t : ℝ) (p : PE.P2) : eval ![r, s, t] (mv2 p) = PE.P2.ev r s p := by
  induction p with
  | nil => simp [mv2, PE.P2.ev, PE.evL]
  | cons a p ih => simp only [mv2, map_add, map_mul, eval_mv1, eval_X, ih, PE.P2.ev, PE.evL]; rfl
theorem eval_mv3 (r s t : ℝ) (p : PE.P3) : eval ![r, s, t] (mv3 p) = PE.P3.ev r s t p := by
  induction p with
  | nil => simp [mv3, PE.P3.ev, PE.evL]
  | cons a p ih => simp only [mv3, map_add, map_mul, eval_mv2, eval_X, ih, PE.P3.ev, PE.evL]; rfl

/-- Integral of a dense polynomial times a monomial. -/
def int1 (cls : GeoClass) (i j k : Nat) : PE.P1 → ℚ
  | [] => 0
  | a :: p => a * moment cls i j k + int1 cls (i + 1) j k p
def int2 (cls : GeoClass) (j k : Nat) : PE.P2 → ℚ
  | [] => 0
  | a :: p => int1 cls 0 j k a + int2 cls (j + 1) k p
def int3 (cls : GeoClass) (k : Nat) : PE.P3 → ℚ
  | [] => 0
  | a :: p => int2 cls 0 k a + int3 cls (k + 1) p

theorem int1_eq (cls : GeoClass) (i j k : Nat) (p : PE.P1) : polyIntegral cls (X 0 ^ i * X 1 ^ j * X 2 ^ k * mv1 p) = (int1 cls i j k p : ℝ) := by
  induction p generalizing i with
  | nil => simp [mv1, int1, polyIntegral_zero]
  | cons a p ih =>
    rw [mv1, int1, show X 0 ^ i * X 1 ^ j * X 2 ^ k * (C (a : ℝ) + X 0 * mv1 p) = C (a : ℝ) * (X 0 ^ i * X 1 ^ j * X 2 ^ k) + X 0 ^ (i + 1) * X 1 ^ j * X 2 ^ k * mv1 p by ring,
      polyIntegral_add, polyIntegral_smul, polyIntegral_mono, ih]
    push_cast; ring
theorem int2_eq (cls : GeoClass) (j k : Nat) (p : PE.P2) : polyIntegral cls (X 1 ^ j * X 2 ^ k * mv2 p) = (int2 cls j k p : ℝ) := by
  induction p generalizing j with
  | nil => simp [mv2, int2, polyIntegral_zero]
  | cons a p ih =>
    rw [mv2, int2, show X 1 ^ j * X 2 ^ k * (mv1 a + X 1 * mv2 p) = X 0 ^ 0 * X 1 ^ j * X 2 ^ k * mv1 a + X 1 ^ (j + 1) * X 2 ^ k * mv2 p by ring,
      polyIntegral_add, int1_eq, ih]
    push_cast; ring
theorem int3_eq (cls : GeoClass) (k : Nat) (p : PE.P3) : polyIntegral cls (X 2 ^ k * mv3 p) = (int3 cls k p : ℝ) := by
  induction p generalizing k with
  | nil => simp [mv3, int3, polyIntegral_zero]
  | cons a p ih =>
    rw [mv3, int3, show X 2 ^ k * (mv2 a + X 2 * mv3 p) = X 1 ^ 0 * X 2 ^ k * mv2 a + X 2 ^ (k + 1) * mv3 p by ring,
      polyIntegral_add, int2_eq, ih]
    push_cast; ring

/-- The integral of an expression over the reference domain, as a rational number (0 if the expression is not a polynomial). -/
def intPE (cls : GeoClass) (e : PE) : ℚ :=
  match e.norm with
  | some p => int3 cls 0 p
  | none => 0

/-- Integral of a linear combination of expressions with real coefficients. -/
theorem refIntegral_exprs (cls : GeoClass) {ι : Type} (S : Finset ι) (c : ι → ℝ) (e : ι → PE) (hn : ∀ i ∈ S, (e i).norm.isSome = true) :
    refIntegral cls (fun r s t => ∑ i ∈ S, c i * PE.eval (point r s t) (e i)) = ∑ i ∈ S, c i * (intPE cls (e i) : ℝ) := by
  classical
  have h1 : ∀ i, ∃ P, (i ∈ S → (∀ r s t, eval ![r, s, t] P = PE.eval (point r s t) (e i)) ∧ polyIntegral cls P = (intPE cls (e i) : ℝ)) := by
    intro i
    by_cases hi : i ∈ S
    · obtain ⟨p, hp⟩ := Option.isSome_iff_exists.1 (hn i hi)
      refine ⟨mv3 p, fun _ => ⟨fun r s t => ?_, ?_⟩⟩
      · rw [eval_mv3, PE.eval_norm _ _ p hp]; rfl
      · have := int3_eq cls 0 p
        rw [pow_zero, one_mul] at this
        rw [this, intPE, hp]
    · exact ⟨0, fun h => absurd h hi⟩
  choose P hP using h1
  have h2 : ∀ T : Finset ι, polyIntegral cls (∑ i ∈ T, C (c i) * P i) = ∑ i ∈ T, c i * polyIntegral cls (P i) := by
    intro T
    induction T using Finset.induction_on with
    | empty => simp [polyIntegral_zero]
    | insert a T ha ih => rw [Finset.sum_insert ha, Finset.sum_insert ha, polyIntegral_add, polyIntegral_smul, ih]
  have h3 : ∑ i ∈ S, c i * (intPE cls (e i) : ℝ) = polyIntegral cls (∑ i ∈ S, C (c i) * P i) := by
    rw [h2]; exact Finset.sum_congr rfl fun i hi => by rw [(hP i hi).2]
  rw [h3]
  unfold polyIntegral
  congr 1; funext r s t
  rw [map_sum]
  apply Finset.sum_congr rfl; intro i hi
  rw [map_mul, eval_C, (hP i hi).1]

end Gemlab.GaussSpec
