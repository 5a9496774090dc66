import Verif.Proofs.PolyCalc
import Verif.Props.Normals
import Mathlib.Algebra.MvPolynomial.Monad

/-! # The divergence theorem on the reference cells -/

namespace Gemlab.GaussSpec
open MvPolynomial Gemlab.Spec.Analytical Gemlab.Shapes Gemlab.Spec Gemlab.Scratchpad
noncomputable section

theorem pderiv_comm (i j : Fin 3) (P : MvPolynomial (Fin 3) ℝ) : pderiv i (pderiv j P) = pderiv j (pderiv i P) := by
  induction P using MvPolynomial.induction_on with
  | C a => simp
  | add p q hp hq => rw [map_add, map_add, map_add, map_add, hp, hq]
  | mul_X p n hp =>
    have hc : ∀ a b : Fin 3, pderiv a (pderiv b (X n : MvPolynomial (Fin 3) ℝ)) = 0 := by
      intro a b
      by_cases h : n = b
      · subst h; rw [pderiv_X_self, pderiv_one]
      · rw [pderiv_X_of_ne h, map_zero]
    simp only [pderiv_mul, map_add, hp, hc]
    ring

/-- Integrals depend on the values in the domain only. -/
theorem refIntegral_congr (cls : GeoClass) {f g : ℝ → ℝ → ℝ → ℝ} (h : ∀ r s t, InReference cls r s t → f r s t = g r s t) : refIntegral cls f = refIntegral cls g := by
  cases cls <;> unfold refIntegral <;> simp only [InReference] at h
  · refine intervalIntegral.integral_congr fun r hr => ?_
    rw [Set.uIcc_of_le (by norm_num)] at hr
    exact h r 0 0 ⟨hr.1, hr.2, rfl, rfl⟩
  · refine intervalIntegral.integral_congr fun r hr => ?_
    rw [Set.uIcc_of_le (by norm_num)] at hr
    refine intervalIntegral.integral_congr fun s hs => ?_
    rw [Set.uIcc_of_le (by linarith [hr.2])] at hs
    exact h r s 0 ⟨hr.1, hs.1, by linarith [hs.2], rfl⟩
  · refine intervalIntegral.integral_congr fun r hr => ?_
    rw [Set.uIcc_of_le (by norm_num)] at hr
    refine intervalIntegral.integral_congr fun s hs => ?_
    rw [Set.uIcc_of_le (by norm_num)] at hs
    exact h r s 0 ⟨hr.1, hr.2, hs.1, hs.2, rfl⟩
  · refine intervalIntegral.integral_congr fun r hr => ?_
    rw [Set.uIcc_of_le (by norm_num)] at hr
    refine intervalIntegral.integral_congr fun s hs => ?_
    rw [Set.uIcc_of_le (by linarith [hr.2])] at hs
    refine intervalIntegral.integral_congr fun t ht => ?_
    rw [Set.uIcc_of_le (by linarith [hs.2])] at ht
    exact h r s t ⟨hr.1, hs.1, ht.1, by linarith [ht.2]⟩
  · refine intervalIntegral.integral_congr fun r hr => ?_
    rw [Set.uIcc_of_le (by norm_num)] at hr
    refine intervalIntegral.integral_congr fun s hs => ?_
    rw [Set.uIcc_of_le (by norm_num)] at hs
    refine intervalIntegral.integral_congr fun t ht => ?_
    rw [Set.uIcc_of_le (by norm_num)] at ht
    exact h r s t ⟨hr.1, hr.2, hs.1, hs.2, ht.1, ht.2⟩

/-- Substitution. -/
def subst (φ : Fin 3 → MvPolynomial (Fin 3) ℝ) (P : MvPolynomial (Fin 3) ℝ) : MvPolynomial (Fin 3) ℝ := bind₁ φ P

theorem eval_subst (φ : Fin 3 → MvPolynomial (Fin 3) ℝ) (P : MvPolynomial (Fin 3) ℝ) (x : Fin 3 → ℝ) : eval x (subst φ P) = eval (fun i => eval x (φ i)) P := by
  unfold subst
  induction P using MvPolynomial.induction_on with
  | C a => simp
  | add p q hp hq => rw [map_add, map_add, map_add, hp, hq]
  | mul_X p n hp => rw [map_mul, map_mul, map_mul, hp, bind₁_X_right, eval_X]

theorem flip_sym (f : ℝ → ℝ) : ∫ η in (-1 : ℝ)..1, f (-η) = ∫ η in (-1 : ℝ)..1, f η := by
  rw [intervalIntegral.integral_comp_neg]; norm_num

theorem half_plus (f : ℝ → ℝ) : ∫ η in (-1 : ℝ)..1, 1 / 2 * f ((1 + η) / 2) = ∫ s in (0 : ℝ)..1, f s := by
  have := intervalIntegral.integral_comp_mul_add (a := -1) (b := 1) f (c := 1 / 2) (by norm_num) (1 / 2)
  rw [intervalIntegral.integral_const_mul]
  have e : (fun η : ℝ => f ((1 + η) / 2)) = fun η => f (1 / 2 * η + 1 / 2) := by funext η; congr 1; ring
  rw [e, this]
  norm_num
  ring

theorem half_minus (f : ℝ → ℝ) : ∫ η in (-1 : ℝ)..1, 1 / 2 * f ((1 - η) / 2) = ∫ s in (0 : ℝ)..1, f s := by
  rw [← half_plus, ← flip_sym]
  refine intervalIntegral.integral_congr fun η _ => ?_
  simp only [sub_neg_eq_add]

theorem tri_edges (k : GeoKind) (h : k.classOf = .tri) : k.nedge = 3 ∧
    [0, 1, 2].map (fun e => (refCoordQ k (edgeNode k e 0) 0, refCoordQ k (edgeNode k e 0) 1, refCoordQ k (edgeNode k e 1) 0, refCoordQ k (edgeNode k e 1) 1)) =
      ([(1, 0, 0, 0), (0, 1, 1, 0), (0, 0, 0, 1)] : List (ℚ × ℚ × ℚ × ℚ)) := by
  cases k <;> first | exact absurd h (by decide) | decide +kernel

theorem qua_edges (k : GeoKind) (h : k.classOf = .qua) : k.nedge = 4 ∧
    [0, 1, 2, 3].map (fun e => (refCoordQ k (edgeNode k e 0) 0, refCoordQ k (edgeNode k e 0) 1, refCoordQ k (edgeNode k e 1) 0, refCoordQ k (edgeNode k e 1) 1)) =
      ([(1, -1, -1, -1), (1, 1, 1, -1), (-1, 1, 1, 1), (-1, -1, -1, 1)] : List (ℚ × ℚ × ℚ × ℚ)) := by
  cases k <;> first | exact absurd h (by decide) | decide +kernel

theorem curve_integrable (P : MvPolynomial (Fin 3) ℝ) (γ : ℝ → Fin 3 → ℝ) (a b : ℝ) (hγ : ∀ i, Continuous fun v => γ v i) :
    IntervalIntegrable (fun v => eval (γ v) P) MeasureTheory.volume a b := (continuous_eval_curve P γ hγ).intervalIntegrable _ _

theorem eval_at {a b c a' b' c' : ℝ} (P : MvPolynomial (Fin 3) ℝ) (h1 : a = a') (h2 : b = b') (h3 : c = c') : eval ![a, b, c] P = eval ![a', b', c'] P := by
  rw [h1, h2, h3]

@[fun_prop]
theorem cont3 {a b c : ℝ → ℝ} (ha : Continuous a) (hb : Continuous b) (hc : Continuous c) (P : MvPolynomial (Fin 3) ℝ) : Continuous fun η => eval ![a η, b η, c η] P := by
  refine continuous_eval_curve P (fun η => ![a η, b η, c η]) fun i => ?_
  fin_cases i
  · exact ha
  · exact hb
  · exact hc

theorem int_sub {f g : ℝ → ℝ} {a b : ℝ} (hf : Continuous f) (hg : Continuous g) : ∫ x in a..b, (f x - g x) = (∫ x in a..b, f x) - ∫ x in a..b, g x :=
  intervalIntegral.integral_sub (hf.intervalIntegrable _ _) (hg.intervalIntegrable _ _)

theorem int_add {f g : ℝ → ℝ} {a b : ℝ} (hf : Continuous f) (hg : Continuous g) : ∫ x in a..b, (f x + g x) = (∫ x in a..b, f x) + ∫ x in a..b, g x :=
  intervalIntegral.integral_add (hf.intervalIntegrable _ _) (hg.intervalIntegrable _ _)

/-- **Gauss on the reference triangle and square**, with the edges and their directions given by the tables of the cell kind. -/
theorem gauss_edges (k : GeoKind) (h2 : k.ndim = 2) (W₀ W₁ : MvPolynomial (Fin 3) ℝ) :
    polyIntegral k.classOf (pderiv 0 W₀ + pderiv 1 W₁) = ∑ e ∈ Finset.range k.nedge, ∫ η in (-1 : ℝ)..1,
      (edgeDir k e 0 * eval ![edgePoint k e η 0, edgePoint k e η 1, 0] W₁ - edgeDir k e 1 * eval ![edgePoint k e η 0, edgePoint k e η 1, 0] W₀) := by
  have hcl : k.classOf = .tri ∨ k.classOf = .qua := by cases k <;> first | exact absurd h2 (by decide) | decide
  rw [polyIntegral_add]
  rcases hcl with hc | hc
  · obtain ⟨hn, ht⟩ := tri_edges k hc
    rw [hc, gauss_tri_0, gauss_tri_1, hn]
    simp only [List.map_cons, List.map_nil, List.cons.injEq, Prod.mk.injEq, and_true] at ht
    obtain ⟨⟨a0, a1, a2, a3⟩, ⟨b0, b1, b2, b3⟩, c0, c1, c2, c3⟩ := ht
    simp only [Finset.sum_range_succ, Finset.sum_range_zero, zero_add, edgeDir, edgePoint, refCoord, a0, a1, a2, a3, b0, b1, b2, b3, c0, c1, c2, c3]
    push_cast
    rw [int_sub (by fun_prop) (by fun_prop), int_sub (by fun_prop) (by fun_prop)]
    rw [← half_minus fun s => eval ![1 - s, s, 0] W₀, ← half_plus fun s => eval ![0, s, 0] W₀, ← half_plus fun r => eval ![r, 1 - r, 0] W₁, ← half_minus fun r => eval ![r, 0, 0] W₁]
    rw [← int_sub (by fun_prop) (by fun_prop), ← int_sub (by fun_prop) (by fun_prop), ← int_add (by fun_prop) (by fun_prop), ← int_add (by fun_prop) (by fun_prop), ← int_add (by fun_prop) (by fun_prop)]
    refine intervalIntegral.integral_congr fun η _ => ?_
    ring_nf
  · obtain ⟨hn, ht⟩ := qua_edges k hc
    rw [hc, gauss_qua_0, gauss_qua_1, hn]
    simp only [List.map_cons, List.map_nil, List.cons.injEq, Prod.mk.injEq, and_true] at ht
    obtain ⟨⟨a0, a1, a2, a3⟩, ⟨b0, b1, b2, b3⟩, ⟨c0, c1, c2, c3⟩, d0, d1, d2, d3⟩ := ht
    simp only [Finset.sum_range_succ, Finset.sum_range_zero, zero_add, edgeDir, edgePoint, refCoord, a0, a1, a2, a3, b0, b1, b2, b3, c0, c1, c2, c3, d0, d1, d2, d3]
    push_cast
    rw [int_sub (by fun_prop) (by fun_prop), int_sub (by fun_prop) (by fun_prop)]
    rw [← flip_sym fun s => eval ![1, s, 0] W₀, ← flip_sym fun r => eval ![r, -1, 0] W₁]
    rw [← int_sub (by fun_prop) (by fun_prop), ← int_sub (by fun_prop) (by fun_prop), ← int_add (by fun_prop) (by fun_prop), ← int_add (by fun_prop) (by fun_prop), ← int_add (by fun_prop) (by fun_prop), ← int_add (by fun_prop) (by fun_prop)]
    refine intervalIntegral.integral_congr fun η _ => ?_
    ring_nf

/-! ## Symmetries of the reference triangle and square -/

theorem sym_swap {cls : GeoClass} (h : cls = .tri ∨ cls = .qua) (Q : MvPolynomial (Fin 3) ℝ) : refIntegral cls (fun r s t => eval ![s, r, t] Q) = polyIntegral cls Q := by
  rw [← polyIntegral_rename cls (Equiv.swap 0 1)]
  · unfold polyIntegral
    congr 1
    funext r s t
    rw [eval_rename]
    congr 2
    funext i
    fin_cases i <;> rfl
  · intro d
    have h2 : Equiv.swap (0 : Fin 3) 1 2 = 2 := by decide
    rcases h with rfl | rfl
    · simp only [moment, Equiv.swap_apply_left, Equiv.swap_apply_right, h2, mul_comm, Nat.add_comm (d 1) (d 0)]
    · simp only [moment, Equiv.swap_apply_left, Equiv.swap_apply_right, h2]; ring

theorem sym_flip (Q : MvPolynomial (Fin 3) ℝ) : refIntegral .qua (fun r s t => eval ![-r, s, t] Q) = polyIntegral .qua Q := by
  unfold polyIntegral refIntegral
  exact flip_sym fun r => ∫ s in (-1 : ℝ)..1, eval ![r, s, 0] Q

theorem sym_tri (Q : MvPolynomial (Fin 3) ℝ) : refIntegral .tri (fun r s t => eval ![r, 1 - r - s, t] Q) = polyIntegral .tri Q := by
  unfold polyIntegral refIntegral
  refine intervalIntegral.integral_congr fun r _ => ?_
  have := intervalIntegral.integral_comp_sub_left (a := 0) (b := 1 - r) (fun s => eval ![r, s, 0] Q) (1 - r)
  simp only [sub_self, sub_zero] at this
  exact this

/-! ## Gauss on the tetrahedron and the cube -/

theorem polyIntegral_sub (cls : GeoClass) (P Q : MvPolynomial (Fin 3) ℝ) : polyIntegral cls (P - Q) = polyIntegral cls P - polyIntegral cls Q := by
  have := polyIntegral_add cls (P - Q) Q
  rw [sub_add_cancel] at this
  linarith

/-- The integral of a polynomial composed with polynomials. -/
def comp (cls : GeoClass) (φ : Fin 3 → MvPolynomial (Fin 3) ℝ) (P : MvPolynomial (Fin 3) ℝ) : ℝ := polyIntegral cls (subst φ P)

theorem eval_comp {cls : GeoClass} (φ : Fin 3 → MvPolynomial (Fin 3) ℝ) (P : MvPolynomial (Fin 3) ℝ) {f : ℝ → ℝ → ℝ → Fin 3 → ℝ}
    (hf : ∀ r s t i, f r s t i = eval ![r, s, t] (φ i)) : refIntegral cls (fun r s t => eval (f r s t) P) = comp cls φ P := by
  unfold comp polyIntegral
  congr 1
  funext r s t
  rw [eval_subst]
  congr 2
  funext i
  exact hf r s t i

theorem pderiv_swap' {i j : Fin 3} (P : MvPolynomial (Fin 3) ℝ) (cls : GeoClass) (hσ : ∀ d : Fin 3 → Nat, moment cls (d (Equiv.swap i j 0)) (d (Equiv.swap i j 1)) (d (Equiv.swap i j 2)) = moment cls (d 0) (d 1) (d 2)) :
    polyIntegral cls (pderiv i P) = polyIntegral cls (pderiv j (rename (Equiv.swap i j) P)) := by
  rw [← polyIntegral_rename cls (Equiv.swap i j) hσ, pderiv_swap]

theorem solid_swap {cls : GeoClass} (h : cls = .tet ∨ cls = .hex) (i : Fin 3) (d : Fin 3 → Nat) :
    moment cls (d (Equiv.swap i 2 0)) (d (Equiv.swap i 2 1)) (d (Equiv.swap i 2 2)) = moment cls (d 0) (d 1) (d 2) := by
  have e : ∀ a b c : Nat, moment cls a b c = moment cls b a c ∧ moment cls a b c = moment cls c b a ∧ moment cls a b c = moment cls a c b := by
    intro a b c
    rcases h with rfl | rfl
    · simp only [moment]
      refine ⟨?_, ?_, ?_⟩
      · rw [show b + a + c + 3 = a + b + c + 3 by omega]; ring
      · rw [show c + b + a + 3 = a + b + c + 3 by omega]; ring
      · rw [show a + c + b + 3 = a + b + c + 3 by omega]; ring
    · simp only [moment]
      refine ⟨?_, ?_, ?_⟩ <;> ring
  fin_cases i
  · have h1 : Equiv.swap (0 : Fin 3) 2 1 = 1 := by decide
    simp only [Fin.zero_eta, Equiv.swap_apply_left, Equiv.swap_apply_right, h1]
    exact (e _ _ _).2.1
  · have h1 : Equiv.swap (1 : Fin 3) 2 0 = 0 := by decide
    simp only [Fin.mk_one, Equiv.swap_apply_left, Equiv.swap_apply_right, h1]
    exact (e _ _ _).2.2
  · simp

theorem comp_rename (cls : GeoClass) (φ : Fin 3 → MvPolynomial (Fin 3) ℝ) (σ : Fin 3 → Fin 3) (P : MvPolynomial (Fin 3) ℝ) : comp cls φ (rename σ P) = comp cls (fun i => φ (σ i)) P := by
  unfold comp subst
  rw [bind₁_rename]
  rfl

theorem fin3_ext {φ ψ : Fin 3 → MvPolynomial (Fin 3) ℝ} (h0 : φ 0 = ψ 0) (h1 : φ 1 = ψ 1) (h2 : φ 2 = ψ 2) : φ = ψ := by
  funext i
  fin_cases i
  · exact h0
  · exact h1
  · exact h2

theorem comp_congr {cls : GeoClass} {φ ψ : Fin 3 → MvPolynomial (Fin 3) ℝ} {P : MvPolynomial (Fin 3) ℝ} (h0 : φ 0 = ψ 0) (h1 : φ 1 = ψ 1) (h2 : φ 2 = ψ 2) : comp cls φ P = comp cls ψ P := by
  rw [fin3_ext h0 h1 h2]

theorem hex_2 (P : MvPolynomial (Fin 3) ℝ) : polyIntegral .hex (pderiv 2 P) = comp .qua ![X 0, X 1, 1] P - comp .qua ![X 0, X 1, -1] P := by
  rw [gauss_hex_2]
  unfold comp
  rw [← polyIntegral_sub]
  unfold polyIntegral refIntegral
  simp only [map_sub, eval_subst]
  refine intervalIntegral.integral_congr fun r _ => intervalIntegral.integral_congr fun s _ => ?_
  congr 3 <;> (funext i; fin_cases i <;> simp)

theorem tet_2 (P : MvPolynomial (Fin 3) ℝ) : polyIntegral .tet (pderiv 2 P) = comp .tri ![X 0, X 1, 1 - X 0 - X 1] P - comp .tri ![X 0, X 1, 0] P := by
  rw [gauss_tet_2]
  unfold comp
  rw [← polyIntegral_sub]
  unfold polyIntegral refIntegral
  simp only [map_sub, eval_subst]
  refine intervalIntegral.integral_congr fun r _ => intervalIntegral.integral_congr fun s _ => ?_
  congr 3 <;> (funext i; fin_cases i <;> simp)

theorem hex_1 (P : MvPolynomial (Fin 3) ℝ) : polyIntegral .hex (pderiv 1 P) = comp .qua ![X 0, 1, X 1] P - comp .qua ![X 0, -1, X 1] P := by
  rw [pderiv_swap' (j := 2) P _ (solid_swap (.inr rfl) 1), hex_2, comp_rename, comp_rename]
  congr 1 <;> exact comp_congr rfl rfl rfl

theorem hex_0 (P : MvPolynomial (Fin 3) ℝ) : polyIntegral .hex (pderiv 0 P) = comp .qua ![1, X 1, X 0] P - comp .qua ![-1, X 1, X 0] P := by
  rw [pderiv_swap' (j := 2) P _ (solid_swap (.inr rfl) 0), hex_2, comp_rename, comp_rename]
  congr 1 <;> exact comp_congr rfl rfl rfl

theorem tet_1 (P : MvPolynomial (Fin 3) ℝ) : polyIntegral .tet (pderiv 1 P) = comp .tri ![X 0, 1 - X 0 - X 1, X 1] P - comp .tri ![X 0, 0, X 1] P := by
  rw [pderiv_swap' (j := 2) P _ (solid_swap (.inl rfl) 1), tet_2, comp_rename, comp_rename]
  congr 1 <;> exact comp_congr rfl rfl rfl

theorem tet_0 (P : MvPolynomial (Fin 3) ℝ) : polyIntegral .tet (pderiv 0 P) = comp .tri ![1 - X 0 - X 1, X 1, X 0] P - comp .tri ![0, X 1, X 0] P := by
  rw [pderiv_swap' (j := 2) P _ (solid_swap (.inl rfl) 0), tet_2, comp_rename, comp_rename]
  congr 1 <;> exact comp_congr rfl rfl rfl

theorem comp_swap {cls : GeoClass} (h : cls = .tri ∨ cls = .qua) (φ : Fin 3 → MvPolynomial (Fin 3) ℝ) (P : MvPolynomial (Fin 3) ℝ) :
    comp cls φ P = comp cls (fun i => subst ![X 1, X 0, X 2] (φ i)) P := by
  unfold comp
  rw [← sym_swap h]
  unfold polyIntegral
  congr 1
  funext r s t
  simp only [eval_subst]
  congr 2
  funext i
  congr 2
  funext j
  fin_cases j <;> simp

theorem comp_flip (φ : Fin 3 → MvPolynomial (Fin 3) ℝ) (P : MvPolynomial (Fin 3) ℝ) : comp .qua φ P = comp .qua (fun i => subst ![-X 0, X 1, X 2] (φ i)) P := by
  unfold comp
  rw [← sym_flip]
  unfold polyIntegral
  congr 1
  funext r s t
  simp only [eval_subst]
  congr 2
  funext i
  congr 2
  funext j
  fin_cases j <;> simp

theorem comp_tri (φ : Fin 3 → MvPolynomial (Fin 3) ℝ) (P : MvPolynomial (Fin 3) ℝ) : comp .tri φ P = comp .tri (fun i => subst ![X 0, 1 - X 0 - X 1, X 2] (φ i)) P := by
  unfold comp
  rw [← sym_tri]
  unfold polyIntegral
  congr 1
  funext r s t
  simp only [eval_subst]
  congr 2
  funext i
  congr 2
  funext j
  fin_cases j <;> simp

/-- Point and directions of the local faces. -/
def faceTable (k : GeoKind) (f : Nat) : List ℚ :=
  [refCoordQ k (faceNode k f 0) 0, refCoordQ k (faceNode k f 0) 1, refCoordQ k (faceNode k f 0) 2, faceDirQ k f 0 0, faceDirQ k f 0 1, faceDirQ k f 0 2, faceDirQ k f 1 0, faceDirQ k f 1 1, faceDirQ k f 1 2]

theorem tet_faces (k : GeoKind) (h : k.classOf = .tet) : k.nface = 4 ∧ [0, 1, 2, 3].map (faceTable k) =
    [[0, 0, 0, 0, 0, 1, 0, 1, 0], [0, 0, 0, 1, 0, 0, 0, 0, 1], [0, 0, 0, 0, 1, 0, 1, 0, 0], [1, 0, 0, -1, 1, 0, -1, 0, 1]] := by
  cases k <;> first | exact absurd h (by decide) | decide +kernel

theorem hex_faces (k : GeoKind) (h : k.classOf = .hex) : k.nface = 6 ∧ [0, 1, 2, 3, 4, 5].map (faceTable k) =
    [[-1, -1, -1, 0, 0, 1, 0, 1, 0], [1, -1, -1, 0, 1, 0, 0, 0, 1], [-1, -1, -1, 1, 0, 0, 0, 0, 1],
     [1, 1, -1, -1, 0, 0, 0, 0, 1], [-1, -1, -1, 0, 1, 0, 1, 0, 0], [-1, -1, 1, 1, 0, 0, 0, 1, 0]] := by
  cases k <;> first | exact absurd h (by decide) | decide +kernel

/-- The component `j` of the normal vector of a face of the reference cell. -/
def faceNormal (k : GeoKind) (f j : Nat) : ℚ :=
  if j = 0 then faceDirQ k f 0 1 * faceDirQ k f 1 2 - faceDirQ k f 0 2 * faceDirQ k f 1 1
  else if j = 1 then faceDirQ k f 0 2 * faceDirQ k f 1 0 - faceDirQ k f 0 0 * faceDirQ k f 1 2
  else faceDirQ k f 0 0 * faceDirQ k f 1 1 - faceDirQ k f 0 1 * faceDirQ k f 1 0

/-- The points of a face as polynomials. -/
def facePoly (k : GeoKind) (f : Nat) (i : Fin 3) : MvPolynomial (Fin 3) ℝ :=
  C (refCoordQ k (faceNode k f 0) i : ℝ) + (if k.classOf = .tet then X 0 else 1 + X 0) * C (faceDirQ k f 0 i : ℝ) + (if k.classOf = .tet then X 1 else 1 + X 1) * C (faceDirQ k f 1 i : ℝ)

theorem face_integral {k fk : GeoKind} (hk : k.faceKind = some fk) (h3 : k.ndim = 3) {f : Nat} (hf : f < k.nface) (cls : GeoClass) (W₀ W₁ W₂ : MvPolynomial (Fin 3) ℝ) :
    refIntegral cls (fun r s t => (faceNormal k f 0 : ℝ) * eval ![facePoint k f (point r s t) 0, facePoint k f (point r s t) 1, facePoint k f (point r s t) 2] W₀
      + (faceNormal k f 1 : ℝ) * eval ![facePoint k f (point r s t) 0, facePoint k f (point r s t) 1, facePoint k f (point r s t) 2] W₁
      + (faceNormal k f 2 : ℝ) * eval ![facePoint k f (point r s t) 0, facePoint k f (point r s t) 1, facePoint k f (point r s t) 2] W₂)
    = (faceNormal k f 0 : ℝ) * comp cls (facePoly k f) W₀ + (faceNormal k f 1 : ℝ) * comp cls (facePoly k f) W₁ + (faceNormal k f 2 : ℝ) * comp cls (facePoly k f) W₂ := by
  unfold comp
  rw [← polyIntegral_smul, ← polyIntegral_smul, ← polyIntegral_smul, ← polyIntegral_add, ← polyIntegral_add]
  unfold polyIntegral
  congr 1
  funext r s t
  have he : ![facePoint k f (point r s t) 0, facePoint k f (point r s t) 1, facePoint k f (point r s t) 2] = fun i => eval ![r, s, t] (facePoly k f i) := by
    have : ∀ i : Fin 3, facePoint k f (point r s t) i = eval ![r, s, t] (facePoly k f i) := by
      intro i
      rw [facePoint_eq hk hf (by omega)]
      unfold facePoly
      split_ifs <;> simp [point]
    funext i
    rw [← this]
    fin_cases i <;> rfl
  simp only [map_add, map_mul, eval_C, eval_subst, he]

/-- **Gauss on the reference tetrahedron and cube**, with the faces and their directions given by the tables of the cell kind. -/
theorem gauss_faces {k fk : GeoKind} (hk : k.faceKind = some fk) (h3 : k.ndim = 3) (W₀ W₁ W₂ : MvPolynomial (Fin 3) ℝ) :
    polyIntegral k.classOf (pderiv 0 W₀ + pderiv 1 W₁ + pderiv 2 W₂) = ∑ f ∈ Finset.range k.nface, refIntegral fk.classOf (fun r s t =>
      (faceNormal k f 0 : ℝ) * eval ![facePoint k f (point r s t) 0, facePoint k f (point r s t) 1, facePoint k f (point r s t) 2] W₀
      + (faceNormal k f 1 : ℝ) * eval ![facePoint k f (point r s t) 0, facePoint k f (point r s t) 1, facePoint k f (point r s t) 2] W₁
      + (faceNormal k f 2 : ℝ) * eval ![facePoint k f (point r s t) 0, facePoint k f (point r s t) 1, facePoint k f (point r s t) 2] W₂) := by
  rw [Finset.sum_congr rfl fun f hf => face_integral hk h3 (Finset.mem_range.1 hf) fk.classOf W₀ W₁ W₂, polyIntegral_add, polyIntegral_add]
  obtain ⟨hc, hfk⟩ | ⟨hc, hfk⟩ := faceKind_class k fk hk
  · obtain ⟨hn, ht⟩ := tet_faces k hc
    rw [hn, hfk, hc, tet_0, tet_1, tet_2]
    simp only [List.map_cons, List.map_nil, List.cons.injEq, faceTable, and_true] at ht
    obtain ⟨⟨a0, a1, a2, a3, a4, a5, a6, a7, a8⟩, ⟨b0, b1, b2, b3, b4, b5, b6, b7, b8⟩, ⟨c0, c1, c2, c3, c4, c5, c6, c7, c8⟩, d0, d1, d2, d3, d4, d5, d6, d7, d8⟩ := ht
    have p0 : facePoly k 0 = ![0, X 1, X 0] := by apply fin3_ext <;> simp [facePoly, hc, a0, a1, a2, a3, a4, a5, a6, a7, a8]
    have p1 : facePoly k 1 = ![X 0, 0, X 1] := by apply fin3_ext <;> simp [facePoly, hc, b0, b1, b2, b3, b4, b5, b6, b7, b8]
    have p2 : facePoly k 2 = ![X 1, X 0, 0] := by apply fin3_ext <;> simp [facePoly, hc, c0, c1, c2, c3, c4, c5, c6, c7, c8]
    have p3 : facePoly k 3 = ![1 - X 0 - X 1, X 0, X 1] := by apply fin3_ext <;> simp [facePoly, hc, d0, d1, d2, d3, d4, d5, d6, d7, d8] <;> ring
    simp only [Finset.sum_range_succ, Finset.sum_range_zero, zero_add, p0, p1, p2, p3, faceNormal, a0, a1, a2, a3, a4, a5, a6, a7, a8, b0, b1, b2, b3, b4, b5, b6, b7, b8,
      c0, c1, c2, c3, c4, c5, c6, c7, c8, d0, d1, d2, d3, d4, d5, d6, d7, d8]
    have s0 : comp .tri ![1 - X 0 - X 1, X 1, X 0] W₀ = comp .tri ![1 - X 0 - X 1, X 0, X 1] W₀ := by
      rw [comp_swap (.inl rfl)]
      apply comp_congr <;> simp [subst] <;> ring
    have s1 : ∀ P, comp .tri ![X 0, 1 - X 0 - X 1, X 1] P = comp .tri ![1 - X 0 - X 1, X 0, X 1] P := by
      intro P
      rw [comp_swap (.inl rfl), comp_tri, comp_swap (.inl rfl)]
      apply comp_congr <;> simp [subst] <;> ring
    have s2 : comp .tri ![X 0, X 1, 1 - X 0 - X 1] W₂ = comp .tri ![1 - X 0 - X 1, X 0, X 1] W₂ := by
      rw [← s1, comp_tri]
      apply comp_congr <;> simp [subst]
    have s3 : comp .tri ![X 0, X 1, 0] W₂ = comp .tri ![X 1, X 0, 0] W₂ := by
      rw [comp_swap (.inl rfl)]
      apply comp_congr <;> simp [subst]
    rw [s0, s1, s2, s3]
    norm_num
    ring
  · obtain ⟨hn, ht⟩ := hex_faces k hc
    rw [hn, hfk, hc, hex_0, hex_1, hex_2]
    simp only [List.map_cons, List.map_nil, List.cons.injEq, faceTable, and_true] at ht
    obtain ⟨⟨a0, a1, a2, a3, a4, a5, a6, a7, a8⟩, ⟨b0, b1, b2, b3, b4, b5, b6, b7, b8⟩, ⟨c0, c1, c2, c3, c4, c5, c6, c7, c8⟩, ⟨d0, d1, d2, d3, d4, d5, d6, d7, d8⟩,
      ⟨e0, e1, e2, e3, e4, e5, e6, e7, e8⟩, f0, f1, f2, f3, f4, f5, f6, f7, f8⟩ := ht
    have p0 : facePoly k 0 = ![-1, X 1, X 0] := by apply fin3_ext <;> simp [facePoly, hc, a0, a1, a2, a3, a4, a5, a6, a7, a8]
    have p1 : facePoly k 1 = ![1, X 0, X 1] := by apply fin3_ext <;> simp [facePoly, hc, b0, b1, b2, b3, b4, b5, b6, b7, b8]
    have p2 : facePoly k 2 = ![X 0, -1, X 1] := by apply fin3_ext <;> simp [facePoly, hc, c0, c1, c2, c3, c4, c5, c6, c7, c8]
    have p3 : facePoly k 3 = ![-X 0, 1, X 1] := by apply fin3_ext <;> simp [facePoly, hc, d0, d1, d2, d3, d4, d5, d6, d7, d8]
    have p4 : facePoly k 4 = ![X 1, X 0, -1] := by apply fin3_ext <;> simp [facePoly, hc, e0, e1, e2, e3, e4, e5, e6, e7, e8]
    have p5 : facePoly k 5 = ![X 0, X 1, 1] := by apply fin3_ext <;> simp [facePoly, hc, f0, f1, f2, f3, f4, f5, f6, f7, f8]
    simp only [Finset.sum_range_succ, Finset.sum_range_zero, zero_add, p0, p1, p2, p3, p4, p5, faceNormal, a0, a1, a2, a3, a4, a5, a6, a7, a8, b0, b1, b2, b3, b4, b5, b6, b7, b8,
      c0, c1, c2, c3, c4, c5, c6, c7, c8, d0, d1, d2, d3, d4, d5, d6, d7, d8, e0, e1, e2, e3, e4, e5, e6, e7, e8, f0, f1, f2, f3, f4, f5, f6, f7, f8]
    have s0 : comp .qua ![1, X 1, X 0] W₀ = comp .qua ![1, X 0, X 1] W₀ := by
      rw [comp_swap (.inr rfl)]
      apply comp_congr <;> simp [subst]
    have s1 : comp .qua ![X 0, 1, X 1] W₁ = comp .qua ![-X 0, 1, X 1] W₁ := by
      rw [comp_flip]
      apply comp_congr <;> simp [subst]
    have s3 : comp .qua ![X 0, X 1, -1] W₂ = comp .qua ![X 1, X 0, -1] W₂ := by
      rw [comp_swap (.inr rfl)]
      apply comp_congr <;> simp [subst]
    rw [s0, s1, s3]
    norm_num
    ring

end
end Gemlab.GaussSpec
