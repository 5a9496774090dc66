import Verif.Props.Divergence
import Mathlib.Algebra.MvPolynomial.Funext

/-! # The flux through an edge or face as the integral of a polynomial; the flux from the other side -/
namespace Gemlab.Scratchpad
open MvPolynomial Gemlab Gemlab.Shapes Gemlab.GaussSpec Gemlab.Spec Gemlab.Spec.Analytical
noncomputable section

/-- The chain rule. -/
theorem pderiv_subst (φ : Fin 3 → MvPolynomial (Fin 3) ℝ) (P : MvPolynomial (Fin 3) ℝ) (a : Fin 3) :
    pderiv a (subst φ P) = subst φ (pderiv 0 P) * pderiv a (φ 0) + subst φ (pderiv 1 P) * pderiv a (φ 1) + subst φ (pderiv 2 P) * pderiv a (φ 2) := by
  unfold subst
  induction P using MvPolynomial.induction_on with
  | C c => simp
  | add p q hp hq => simp only [map_add, hp, hq]; ring
  | mul_X p n hp =>
    simp only [map_mul, pderiv_mul, map_add, bind₁_X_right, hp]
    fin_cases n <;> simp [pderiv_X] <;> ring

/-- The flux as a polynomial: of an edge in the plane, of a face in space. -/
def fluxPoly (k : GeoKind) (X v : Nat → Nat → ℝ) : MvPolynomial (Fin 3) ℝ :=
  if k.ndim = 1 then flow₁ (uPoly k v 0) (uPoly k v 1) (uPoly k X 0) (uPoly k X 1)
  else flow (uPoly k v 0) (uPoly k v 1) (uPoly k v 2) (uPoly k X 0) (uPoly k X 1) (uPoly k X 2) 0 1

theorem fluxDensity_eq {p : Scratchpad} {v X : Nat → Nat → ℝ} (hs : p.spaceNdim = p.kind.ndim + 1) (hk : p.kind.ndim = 1 ∨ p.kind.ndim = 2)
    (hX : ∀ j < p.kind.nnode, ∀ i < p.spaceNdim, p.X j i = X j i) (r s t : ℝ) : fluxDensity p v (point r s t) = eval ![r, s, t] (fluxPoly p.kind X v) := by
  obtain ⟨⟨mag, un, p'⟩, hN⟩ := (C32_errors p (by omega) p.spaceNdim (point r s t)).1 ⟨by omega, rfl⟩
  have hu : ∀ i, eval ![r, s, t] (uPoly p.kind v i) = interpolate p.kind (fun n => v n i) (point r s t) := fun i => eval_fieldPoly _ _ _ _ _
  have ht : ∀ i < p.spaceNdim, ∀ j : Fin 3, (j : Nat) < p.kind.ndim → eval ![r, s, t] (pderiv j (uPoly p.kind X i)) = tangent p (point r s t) j i := by
    intro i hi j hj
    unfold uPoly tangent
    rw [eval_pderiv_fieldPoly _ _ j hj]
    exact Finset.sum_congr rfl fun m hm => by rw [hX m (Finset.mem_range.1 hm) i hi]
  unfold fluxDensity fluxPoly
  rw [hN]
  rcases hk with hk | hk
  · rw [hk] at hs ht
    obtain ⟨-, -, -, -, n4, n5⟩ := C32_line_2d hs hN
    rw [if_pos hk]
    simp only [hs, Finset.sum_range_succ, Finset.sum_range_zero, zero_add, flow₁, map_sub, map_mul, hu]
    rw [ht 0 (by omega) 0 (by decide), ht 1 (by omega) 0 (by decide)]
    simp only [Fin.val_zero]
    linear_combination interpolate p.kind (fun n => v n 0) (point r s t) * n4 + interpolate p.kind (fun n => v n 1) (point r s t) * n5
  · rw [hk] at hs ht
    obtain ⟨-, -, -, -, -, n4, n5, n6⟩ := C32_surface_3d hs hN
    rw [if_neg (by omega)]
    simp only [hs, Finset.sum_range_succ, Finset.sum_range_zero, zero_add, flow, cof, map_add, map_sub, map_mul, hu]
    rw [ht 0 (by omega) 0 (by decide), ht 1 (by omega) 0 (by decide), ht 2 (by omega) 0 (by decide), ht 0 (by omega) 1 (by decide), ht 1 (by omega) 1 (by decide), ht 2 (by omega) 1 (by decide)]
    simp only [Fin.val_zero, Fin.val_one]
    linear_combination interpolate p.kind (fun n => v n 0) (point r s t) * n4 + interpolate p.kind (fun n => v n 1) (point r s t) * n5 + interpolate p.kind (fun n => v n 2) (point r s t) * n6

theorem totalFlux_eq {p : Scratchpad} {v X : Nat → Nat → ℝ} (hs : p.spaceNdim = p.kind.ndim + 1) (hk : p.kind.ndim = 1 ∨ p.kind.ndim = 2)
    (hX : ∀ j < p.kind.nnode, ∀ i < p.spaceNdim, p.X j i = X j i) : totalFlux p v = polyIntegral p.kind.classOf (fluxPoly p.kind X v) := by
  unfold totalFlux polyIntegral
  congr 1
  funext r s t
  exact fluxDensity_eq hs hk hX r s t

/-! ## From the other side -/

theorem mirrors_sub (c : GeoClass) (A : (Nat → ℝ) → Nat → ℝ) (h : A ∈ mirrors c) : A ∈ refSymmetries (K := ℝ) c := by
  cases c <;> simp only [mirrors, refSymmetries, List.mem_cons, List.mem_nil_iff, or_false] at h ⊢ <;> tauto

local notation "𝕏" => MvPolynomial.X

/-- A mirror map as polynomials. -/
theorem mirror_poly (c : GeoClass) (A : (Nat → ℝ) → Nat → ℝ) (h : A ∈ mirrors c) : ∃ φ : Fin 3 → MvPolynomial (Fin 3) ℝ,
    (∀ r s t (i : Fin 3), eval ![r, s, t] (φ i) = A (point r s t) i) ∧ (∀ Q, polyIntegral c (subst φ Q) = polyIntegral c Q) ∧
    (c = .lin ∧ pderiv 0 (φ 0) = -1 ∧ pderiv 0 (φ 1) = 0 ∧ pderiv 0 (φ 2) = 0 ∨
      (c = .tri ∨ c = .qua) ∧ pderiv 0 (φ 0) * pderiv 1 (φ 1) - pderiv 0 (φ 1) * pderiv 1 (φ 0) = -1 ∧ pderiv 0 (φ 2) = 0 ∧ pderiv 1 (φ 2) = 0) := by
  have cs : ∀ {c : GeoClass} (hc : c = .tri ∨ c = .qua) (Q : MvPolynomial (Fin 3) ℝ), polyIntegral c (subst ![𝕏 1, 𝕏 0, 0] Q) = polyIntegral c Q := by
    intro c hc Q
    rw [← sym_swap hc]
    unfold polyIntegral
    rcases hc with rfl | rfl <;> unfold refIntegral <;> simp only [eval_subst] <;> refine intervalIntegral.integral_congr fun r _ => intervalIntegral.integral_congr fun s _ => ?_ <;>
      (congr 2; funext i; fin_cases i <;> simp)
  have cf : ∀ Q : MvPolynomial (Fin 3) ℝ, polyIntegral .qua (subst ![-𝕏 0, 𝕏 1, 0] Q) = polyIntegral .qua Q := by
    intro Q
    rw [← sym_flip]
    unfold polyIntegral refIntegral
    simp only [eval_subst]
    refine intervalIntegral.integral_congr fun r _ => intervalIntegral.integral_congr fun s _ => ?_
    congr 2; funext i; fin_cases i <;> simp
  have ct : ∀ Q : MvPolynomial (Fin 3) ℝ, polyIntegral .tri (subst ![𝕏 0, 1 - 𝕏 0 - 𝕏 1, 0] Q) = polyIntegral .tri Q := by
    intro Q
    rw [← sym_tri]
    unfold polyIntegral refIntegral
    simp only [eval_subst]
    refine intervalIntegral.integral_congr fun r _ => intervalIntegral.integral_congr fun s _ => ?_
    congr 2; funext i; fin_cases i <;> simp
  have ss : ∀ (φ ψ : Fin 3 → MvPolynomial (Fin 3) ℝ) Q, subst φ (subst ψ Q) = subst (fun i => subst φ (ψ i)) Q := by
    intro φ ψ Q
    exact bind₁_bind₁ _ _ _
  cases c <;> simp only [mirrors, List.mem_cons, List.mem_nil_iff, or_false] at h
  · subst h
    refine ⟨![-𝕏 0, 0, 0], ?_, ?_, .inl ⟨rfl, by simp, by simp, by simp⟩⟩
    · intro r s t i; fin_cases i <;> simp [vec1, point]
    · intro Q
      unfold polyIntegral refIntegral
      simp only [eval_subst]
      rw [← flip_sym]
      refine intervalIntegral.integral_congr fun r _ => ?_
      congr 2; funext i; fin_cases i <;> simp
  · rcases h with h | h | h <;> subst h
    · refine ⟨![𝕏 1, 𝕏 0, 0], ?_, cs (.inl rfl), .inr ⟨.inl rfl, by simp [pderiv_X], by simp, by simp⟩⟩
      intro r s t i; fin_cases i <;> simp [vec2, point]
    · refine ⟨![𝕏 0, 1 - 𝕏 0 - 𝕏 1, 0], ?_, ct, .inr ⟨.inl rfl, by simp [pderiv_X], by simp, by simp⟩⟩
      intro r s t i; fin_cases i <;> simp [vec2, point]
    · refine ⟨![1 - 𝕏 0 - 𝕏 1, 𝕏 1, 0], ?_, fun Q => ?_, .inr ⟨.inl rfl, by simp [pderiv_X], by simp, by simp⟩⟩
      · intro r s t i; fin_cases i <;> simp [vec2, point]
      · have e : subst ![1 - 𝕏 0 - 𝕏 1, 𝕏 1, 0] Q = subst ![𝕏 1, 𝕏 0, 0] (subst ![𝕏 0, 1 - 𝕏 0 - 𝕏 1, 0] (subst ![𝕏 1, 𝕏 0, 0] Q)) := by
          rw [ss, ss]
          congr 1
          apply fin3_ext
          · simp [subst]; ring
          · simp [subst]
          · simp [subst]
        rw [e, cs (.inl rfl), ct, cs (.inl rfl)]
  · rcases h with h | h | h | h <;> subst h
    · refine ⟨![-𝕏 0, 𝕏 1, 0], ?_, cf, .inr ⟨.inr rfl, by simp [pderiv_X], by simp, by simp⟩⟩
      intro r s t i; fin_cases i <;> simp [vec2, point]
    · refine ⟨![𝕏 0, -𝕏 1, 0], ?_, fun Q => ?_, .inr ⟨.inr rfl, by simp [pderiv_X], by simp, by simp⟩⟩
      · intro r s t i; fin_cases i <;> simp [vec2, point]
      · have e : subst ![𝕏 0, -𝕏 1, 0] Q = subst ![𝕏 1, 𝕏 0, 0] (subst ![-𝕏 0, 𝕏 1, 0] (subst ![𝕏 1, 𝕏 0, 0] Q)) := by
          rw [ss, ss]
          congr 1
          apply fin3_ext <;> simp [subst]
        rw [e, cs (.inr rfl), cf, cs (.inr rfl)]
    · refine ⟨![𝕏 1, 𝕏 0, 0], ?_, cs (.inr rfl), .inr ⟨.inr rfl, by simp [pderiv_X], by simp, by simp⟩⟩
      intro r s t i; fin_cases i <;> simp [vec2, point]
    · refine ⟨![-𝕏 1, -𝕏 0, 0], ?_, fun Q => ?_, .inr ⟨.inr rfl, by simp [pderiv_X], by simp, by simp⟩⟩
      · intro r s t i; fin_cases i <;> simp [vec2, point]
      · have e : subst ![-𝕏 1, -𝕏 0, 0] Q = subst ![-𝕏 0, 𝕏 1, 0] (subst ![𝕏 1, 𝕏 0, 0] (subst ![-𝕏 0, 𝕏 1, 0] Q)) := by
          rw [ss, ss]
          congr 1
          apply fin3_ext <;> simp [subst]
        rw [e, cf, cs (.inr rfl), cf]

/-- The flux through an edge or face seen from the other side. -/
theorem flux_mirror {k : GeoKind} (hk : k.ndim = 1 ∨ k.ndim = 2) {X v : Nat → Nat → ℝ} {p q : Nat → Nat} (h : SeenFromBothSides k p q) :
    polyIntegral k.classOf (fluxPoly k (fun j => X (p j)) fun j => v (p j)) + polyIntegral k.classOf (fluxPoly k (fun j => X (q j)) fun j => v (q j)) = 0 := by
  obtain ⟨A, hA, hpq⟩ := h
  obtain ⟨φ, h1, h2, h3⟩ := mirror_poly _ A hA
  have hu : ∀ (w : Nat → Nat → ℝ) (i : Nat), uPoly k (fun j => w (p j)) i = subst φ (uPoly k (fun j => w (q j)) i) := by
    intro w i
    apply MvPolynomial.funext
    intro x
    have hx : x = ![x 0, x 1, x 2] := by funext i; fin_cases i <;> rfl
    rw [hx, eval_subst]
    unfold uPoly
    have he : (fun i => eval ![x 0, x 1, x 2] (φ i)) = ![A (point (x 0) (x 1) (x 2)) 0, A (point (x 0) (x 1) (x 2)) 1, A (point (x 0) (x 1) (x 2)) 2] := by
      funext i
      rw [h1]
      fin_cases i <;> rfl
    rw [he, eval_fieldPoly, evalAt_field k _ (A (point (x 0) (x 1) (x 2)))]
    · exact (interpolate_sym k A (mirrors_sub _ A hA) _ _ (fun a b ha hb hab => by dsimp only; rw [hpq a ha b hb hab]) _).symm
    · intro i hi
      have : i < 3 := by omega
      interval_cases i <;> rfl
  have key : fluxPoly k (fun j => X (p j)) (fun j => v (p j)) = - subst φ (fluxPoly k (fun j => X (q j)) fun j => v (q j)) := by
    unfold fluxPoly
    rcases h3 with ⟨hc, d0, d1, d2⟩ | ⟨hc, d0, d1, d2⟩
    · have hk1 : k.ndim = 1 := by
        clear hk h2 hu hpq hA
        cases k <;> first | rfl | exact absurd hc (by decide)
      rw [if_pos hk1, if_pos hk1]
      unfold flow₁
      rw [hu, hu, hu, hu, pderiv_subst, pderiv_subst, d0, d1, d2]
      simp only [subst, map_sub, map_mul]
      ring
    · have hk2 : k.ndim ≠ 1 := by
        clear hk h2 hu hpq hA
        rcases hc with hc | hc <;> (cases k <;> first | exact absurd hc (by decide) | decide)
      rw [if_neg hk2, if_neg hk2]
      unfold flow cof
      rw [hu, hu, hu, hu, hu, hu]
      simp only [pderiv_subst, d1, d2]
      simp only [subst, map_sub, map_mul, map_add]
      linear_combination (bind₁ φ (uPoly k (fun j => v (q j)) 0) * (bind₁ φ (pderiv 0 (uPoly k (fun j => X (q j)) 1)) * bind₁ φ (pderiv 1 (uPoly k (fun j => X (q j)) 2)) - bind₁ φ (pderiv 0 (uPoly k (fun j => X (q j)) 2)) * bind₁ φ (pderiv 1 (uPoly k (fun j => X (q j)) 1))) + bind₁ φ (uPoly k (fun j => v (q j)) 1) * (bind₁ φ (pderiv 0 (uPoly k (fun j => X (q j)) 2)) * bind₁ φ (pderiv 1 (uPoly k (fun j => X (q j)) 0)) - bind₁ φ (pderiv 0 (uPoly k (fun j => X (q j)) 0)) * bind₁ φ (pderiv 1 (uPoly k (fun j => X (q j)) 2))) + bind₁ φ (uPoly k (fun j => v (q j)) 2) * (bind₁ φ (pderiv 0 (uPoly k (fun j => X (q j)) 0)) * bind₁ φ (pderiv 1 (uPoly k (fun j => X (q j)) 1)) - bind₁ φ (pderiv 0 (uPoly k (fun j => X (q j)) 1)) * bind₁ φ (pderiv 1 (uPoly k (fun j => X (q j)) 0)))) * d0
  rw [key]
  have := h2 (fluxPoly k (fun j => X (q j)) fun j => v (q j))
  have hneg := polyIntegral_smul k.classOf (-1) (subst φ (fluxPoly k (fun j => X (q j)) fun j => v (q j)))
  rw [show C (-1 : ℝ) * subst φ (fluxPoly k (fun j => X (q j)) fun j => v (q j)) = - subst φ (fluxPoly k (fun j => X (q j)) fun j => v (q j)) by simp] at hneg
  rw [hneg, this]
  ring

end
end Gemlab.Scratchpad
