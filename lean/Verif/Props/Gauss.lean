import Verif.Proofs.Gauss
import Mathlib.Tactic.IntervalCases
import Mathlib.Tactic.Linarith

/-!
# C40: the integration rules

For every rule on offer (every class, every number of points) and *every* polynomial that the rule covers, the quadrature
differs from the integral over the reference domain by at most the accuracy of
the table (between `0` and `7·10⁻¹⁵`) times the sum of the absolute values of the coefficients
(the tables are decimal roundings of algebraic numbers, so that an exact equality does not hold).
-/

namespace Gemlab
open MvPolynomial GaussSpec

/-- What a user computes with a rule: `Σ_p P(ι_p) w_p` (with `coords` and `weight`). -/
noncomputable def quadrature (g : Gauss) (P : MvPolynomial (Fin 3) ℝ) : ℝ :=
  ∑ p ∈ Finset.range g.npoint, eval (fun i : Fin 3 => g.coords p i) P * g.weight p

private theorem eval_three (P : MvPolynomial (Fin 3) ℝ) (x : Fin 3 → ℝ) :
    eval x P = ∑ m ∈ P.support, P.coeff m * (x 0 ^ m 0 * x 1 ^ m 1 * x 2 ^ m 2) := by
  rw [eval_eq']; apply Finset.sum_congr rfl; intro m _
  rw [Fin.prod_univ_three]

private theorem list_sum_range (t : List GaussRow) (f : GaussRow → ℝ) (d : GaussRow) :
    ∑ p ∈ Finset.range t.length, f (t.getD p d) = (t.map f).sum := by
  induction t with
  | nil => simp
  | cons a t ih =>
    rw [List.length_cons, Finset.sum_range_succ', List.map_cons, List.sum_cons, ← ih, add_comm]
    simp

private theorem cast_tabMoment (t : List GaussRow) (a b c : Nat) :
    ((tabMoment t a b c : ℚ) : ℝ) =
      (t.map (fun r => (r.2.2.2 : ℝ) * ((r.1 : ℝ) ^ a * (r.2.1 : ℝ) ^ b * (r.2.2.1 : ℝ) ^ c))).sum := by
  unfold tabMoment
  induction t with
  | nil => simp
  | cons x t ih => simp only [List.map_cons, List.sum_cons, Rat.cast_add, ih]; push_cast; rfl

private theorem quadrature_eq (g : GaussTable) (P : MvPolynomial (Fin 3) ℝ) :
    quadrature g.toGauss P = ∑ m ∈ P.support, P.coeff m * (tabMoment g.data (m 0) (m 1) (m 2) : ℝ) := by
  unfold quadrature
  simp_rw [eval_three, Finset.sum_mul]
  rw [Finset.sum_comm]
  apply Finset.sum_congr rfl; intro m _
  rw [cast_tabMoment, ← list_sum_range _ _ (0, 0, 0, 0), Finset.mul_sum]
  apply Finset.sum_congr rfl; intro p _
  simp only [GaussTable.toGauss, Gauss.coords, Gauss.weight, GaussRow.get, Fin.isValue, Fin.val_zero, Fin.val_one, Fin.val_two]
  ring

private theorem refIntegral_eval (cls : GeoClass) (P : MvPolynomial (Fin 3) ℝ) :
    refIntegral cls (fun r s t => eval ![r, s, t] P) =
      ∑ m ∈ P.support, P.coeff m * (moment cls (m 0) (m 1) (m 2) : ℝ) := by
  simp_rw [eval_three]
  exact refIntegral_sum P.support (fun m => P.coeff m) (fun m => m 0) (fun m => m 1) (fun m => m 2) cls

private theorem covers_moment {cls : GeoClass} {n : Nat} {t : List GaussRow} {e : Exactness} (h : checkRule cls n t e = true)
    {P : MvPolynomial (Fin 3) ℝ} (hP : e.Covers P) {m : Fin 3 →₀ ℕ} (hm : m ∈ P.support) :
    |tabMoment t (m 0) (m 1) (m 2) - moment cls (m 0) (m 1) (m 2)| ≤ accuracy cls n := by
  cases e with
  | total d =>
    have h1 : (m.sum fun _ e => e) ≤ d := le_trans (le_totalDegree hm) hP
    have h2 : m 0 + m 1 + m 2 ≤ d := by
      rw [Finsupp.sum_fintype _ _ (by simp), Fin.sum_univ_three] at h1; exact h1
    simp only [checkRule, List.all_eq_true, List.mem_range] at h
    have := h (m 0) (by omega) (m 1) (by omega) (m 2) (by omega)
    simpa [momentOk] using this
  | perVariable d =>
    have h2 : ∀ i, m i ≤ d := fun i => (degreeOf_le_iff.mp (hP i)) m hm
    simp only [checkRule, List.all_eq_true, List.mem_range] at h
    have := h (m 0) (by have := h2 0; omega) (m 1) (by have := h2 1; omega) (m 2) (by have := h2 2; omega)
    simpa [momentOk] using this

/-- **C40 (which rules exist).** `Gauss::new_sized` succeeds exactly for the numbers of points in the specification list; it
then returns a rule of that class and with that number of points; otherwise the result is an error (never a panic). -/
theorem C40_available (cls : GeoClass) (n : Nat) :
    ((∃ g, GaussTable.newSized cls n = .ok g) ↔ n ∈ (rules cls).map Prod.fst) ∧
    (∀ g, GaussTable.newSized cls n = .ok g → g.cls = cls ∧ g.toGauss.npoint = n) ∧
    (n ∉ (rules cls).map Prod.fst → ∃ msg, GaussTable.newSized cls n = .err msg) := by
  have key : n ∉ (rules cls).map Prod.fst → ∃ msg, GaussTable.newSized cls n = .err msg := by
    intro hn
    simp only [GaussTable.newSized]
    cases cls <;> simp only [rules, List.map_cons, List.map_nil, List.mem_cons, List.not_mem_nil, or_false, not_or] at hn <;>
      (split <;> first | exact ⟨_, rfl⟩ | (exfalso; simp_all; done))
  refine ⟨⟨?_, ?_⟩, ?_, key⟩
  · rintro ⟨g, hg⟩
    by_contra hn
    obtain ⟨msg, hm⟩ := key hn
    rw [hm] at hg; cases hg
  · intro hn
    obtain ⟨p, hp, rfl⟩ := List.mem_map.mp hn
    obtain ⟨t, ht, _⟩ := tables_ok cls p hp
    exact ⟨_, ht⟩
  · intro g hg
    by_cases hn : n ∈ (rules cls).map Prod.fst
    · obtain ⟨p, hp, rfl⟩ := List.mem_map.mp hn
      obtain ⟨t, ht, hok⟩ := tables_ok cls p hp
      rw [ht] at hg; cases hg
      exact ⟨rfl, hok.len⟩
    · obtain ⟨msg, hm⟩ := key hn
      rw [hm] at hg; cases hg

/-- **C40 (exactness).** Every rule integrates every polynomial that it covers: the error is at most the accuracy of
the table (between `0` and `7·10⁻¹⁵`) times the sum of the
absolute values of the coefficients. -/
theorem C40_exact (cls : GeoClass) (n : Nat) (e : Exactness) (hr : (n, e) ∈ rules cls) (g : GaussTable)
    (hg : GaussTable.newSized cls n = .ok g) (P : MvPolynomial (Fin 3) ℝ) (hP : e.Covers P) :
    |quadrature g.toGauss P - refIntegral cls (fun r s t => eval ![r, s, t] P)| ≤ (accuracy cls n : ℝ) * coeffNorm P := by
  obtain ⟨t, ht, hok⟩ := tables_ok cls (n, e) hr
  rw [ht] at hg; cases hg
  rw [quadrature_eq, refIntegral_eval, ← Finset.sum_sub_distrib, coeffNorm, Finset.mul_sum]
  refine le_trans (Finset.abs_sum_le_sum_abs _ _) (Finset.sum_le_sum ?_)
  intro m hm
  rw [← mul_sub, abs_mul, mul_comm]
  apply mul_le_mul_of_nonneg_right _ (abs_nonneg _)
  have := covers_moment hok.moments hP hm
  have h2 := (Rat.cast_le (K := ℝ)).mpr this
  push_cast at h2
  exact h2

/-- **C40 (points inside).** Every point of every rule lies inside the reference domain, and no row is repeated. -/
theorem C40_inside (cls : GeoClass) (n : Nat) (g : GaussTable) (hg : GaussTable.newSized cls n = .ok g) :
    (∀ p < g.toGauss.npoint, InReference cls (g.toGauss.coords p 0) (g.toGauss.coords p 1) (g.toGauss.coords p 2)) ∧
    (∀ p < g.toGauss.npoint, ∀ q < g.toGauss.npoint, (∀ i < 4, g.toGauss.data p i = g.toGauss.data q i) → p = q) := by
  have hn : n ∈ (rules cls).map Prod.fst := ((C40_available cls n).1).mp ⟨g, hg⟩
  obtain ⟨pe, hp, rfl⟩ := List.mem_map.mp hn
  obtain ⟨t, ht, hok⟩ := tables_ok cls pe hp
  rw [ht] at hg; cases hg
  constructor
  · intro p hpl
    have hpl' : p < t.length := hpl
    have h := List.all_eq_true.mp hok.inside t[p] (List.getElem_mem hpl')
    simp only [GaussTable.toGauss, Gauss.coords, GaussRow.get, List.getD_eq_getElem?_getD, List.getElem?_eq_getElem hpl',
      Option.getD_some]
    cases cls <;> simp only [inRefQ, decide_eq_true_eq] at h <;> simp only [InReference] <;> exact_mod_cast h
  · intro p hpl q hql h
    have hpl' : p < t.length := hpl
    have hql' : q < t.length := hql
    have heq : t[p] = t[q] := by
      have h0 := h 0 (by omega); have h1 := h 1 (by omega); have h2 := h 2 (by omega); have h3 := h 3 (by omega)
      simp only [GaussTable.toGauss, GaussRow.get, List.getD_eq_getElem?_getD, List.getElem?_eq_getElem hpl',
        List.getElem?_eq_getElem hql', Option.getD_some, Rat.cast_inj] at h0 h1 h2 h3
      exact Prod.ext h0 (Prod.ext h1 (Prod.ext h2 h3))
    exact (List.Nodup.getElem_inj_iff hok.nodup).mp heq

/-- **C40 (weights).** The weights add up to the length, area or volume of the reference domain within `10⁻¹⁴`. -/
theorem C40_weights (cls : GeoClass) (n : Nat) (g : GaussTable) (hg : GaussTable.newSized cls n = .ok g) :
    |(∑ p ∈ Finset.range g.toGauss.npoint, g.toGauss.weight p) - refMeasure cls| ≤ (accuracy cls n : ℝ) := by
  have hn : n ∈ (rules cls).map Prod.fst := ((C40_available cls n).1).mp ⟨g, hg⟩
  obtain ⟨⟨n, e⟩, hp, rfl⟩ := List.mem_map.mp hn
  have hc : e.Covers (C 1) := by
    cases e with
    | total d => simp [Exactness.Covers]
    | perVariable d => intro i; simp
  have h := C40_exact cls n e hp g hg (C 1) hc
  have hq : quadrature g.toGauss (C 1) = ∑ p ∈ Finset.range g.toGauss.npoint, g.toGauss.weight p := by
    simp [quadrature]
  have hnorm : coeffNorm (C 1) = 1 := by
    unfold coeffNorm
    rw [show (C 1 : MvPolynomial (Fin 3) ℝ) = monomial 0 1 from rfl, support_monomial]
    simp
  have hm : refIntegral cls (fun r s t => eval ![r, s, t] (C 1 : MvPolynomial (Fin 3) ℝ)) = refMeasure cls := by
    have := refIntegral_sum {()} (fun _ => (1 : ℝ)) (fun _ => 0) (fun _ => 0) (fun _ => 0) cls
    simp only [Finset.sum_singleton, pow_zero, mul_one, one_mul] at this
    simp only [eval_C]
    rw [this]
    cases cls <;> simp [moment, boxMoment, refMeasure, Nat.factorial] <;> norm_num
  rw [hq, hnorm, hm, mul_one] at h
  exact h

/-- **C40 (positive weights).** All the weights are positive, except for the four-point rule of triangles and for the five-point
rule of tetrahedra, which do have a negative weight. -/
theorem C40_positive_weights (cls : GeoClass) (n : Nat) (g : GaussTable) (hg : GaussTable.newSized cls n = .ok g) :
    (∀ p < g.toGauss.npoint, 0 < g.toGauss.weight p) ↔ ¬((cls = .tri ∧ n = 4) ∨ (cls = .tet ∧ n = 5)) := by
  have cast : (∀ p < g.toGauss.npoint, 0 < g.toGauss.weight p) ↔ ∀ r ∈ g.data, 0 < r.2.2.2 := by
    constructor
    · intro h r hr
      obtain ⟨p, hp, rfl⟩ := List.getElem_of_mem hr
      have := h p hp
      simp only [GaussTable.toGauss, Gauss.weight, GaussRow.get, List.getD_eq_getElem?_getD, List.getElem?_eq_getElem hp,
        Option.getD_some] at this
      exact_mod_cast this
    · intro h p hp
      have hp' : p < g.data.length := hp
      have := h g.data[p] (List.getElem_mem hp')
      simp only [GaussTable.toGauss, Gauss.weight, GaussRow.get, List.getD_eq_getElem?_getD, List.getElem?_eq_getElem hp',
        Option.getD_some]
      exact_mod_cast this
  rw [cast]
  have hn : n ∈ (rules cls).map Prod.fst := ((C40_available cls n).1).mp ⟨g, hg⟩
  cases cls <;> simp only [rules, List.map_cons, List.map_nil, List.mem_cons, List.not_mem_nil, or_false] at hn <;>
    casesm* _ ∨ _ <;> subst n <;> cases hg <;> decide +kernel

/-- The number of points that `Gauss::new` selects for each kind. -/
def defaultPoints : GeoKind → Nat
  | .lin2 => 2 | .lin3 => 3 | .lin4 => 4 | .lin5 => 5
  | .tri3 => 3 | .tri6 => 7 | .tri10 => 12 | .tri15 => 16
  | .qua4 => 4 | .qua8 => 9 | .qua9 => 9 | .qua12 => 16 | .qua16 => 16 | .qua17 => 16
  | .tet4 => 4 | .tet10 => 14 | .tet20 => 24
  | .hex8 => 8 | .hex20 => 27 | .hex32 => 64

/-- **C40 (default rules).** `Gauss::new(kind)` is the rule with `defaultPoints kind` points of the class of the kind (so that the
theorems above apply), and all its weights are positive. `Gauss::new_or_sized` is one or the other. -/
theorem C40_default (k : GeoKind) :
    GaussTable.newSized k.classOf (defaultPoints k) = .ok (GaussTable.new k) ∧
    (∀ p < (GaussTable.new k).toGauss.npoint, 0 < (GaussTable.new k).toGauss.weight p) ∧
    GaussTable.newOrSized k none = .ok (GaussTable.new k) ∧
    (∀ n, GaussTable.newOrSized k (some n) = GaussTable.newSized k.classOf n) := by
  have h1 : GaussTable.newSized k.classOf (defaultPoints k) = .ok (GaussTable.new k) := by cases k <;> rfl
  refine ⟨h1, ?_, rfl, fun _ => rfl⟩
  rw [C40_positive_weights _ _ _ h1]
  cases k <;> decide

/-- Non-vacuity: the polynomial `r² s² t²` is covered by the 27-point rule of hexahedra, and its integral is `8/27`. -/
example : (27, Exactness.perVariable 5) ∈ rules .hex ∧
    (Exactness.perVariable 5).Covers (monomial (Finsupp.equivFunOnFinite.symm ![2, 2, 2]) 1 : MvPolynomial (Fin 3) ℝ) ∧
    refIntegral .hex (fun r s t => eval ![r, s, t]
      (monomial (Finsupp.equivFunOnFinite.symm ![2, 2, 2]) 1 : MvPolynomial (Fin 3) ℝ)) = 8 / 27 := by
  refine ⟨by simp [rules], ?_, ?_⟩
  · intro i; rw [degreeOf_monomial_eq _ _ one_ne_zero]; fin_cases i <;> simp
  · rw [refIntegral_eval, support_monomial, if_neg one_ne_zero, Finset.sum_singleton, coeff_monomial, if_pos rfl]
    simp [moment, boxMoment]; norm_num

end Gemlab
