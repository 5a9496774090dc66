import Verif.Proofs.DivFlux
import Verif.Spec.PatchTest

/-! # Degrees of the shape functions and of the integrands of the patch test -/
namespace Gemlab.GaussSpec
open MvPolynomial Gemlab.Spec.Analytical Gemlab.Shapes Gemlab.Spec
noncomputable section

/-- All exponents of the polynomial satisfy the predicate. -/
def Supp (ok : Nat → Nat → Nat → Prop) (P : MvPolynomial (Fin 3) ℝ) : Prop := ∀ m ∈ P.support, ok (m 0) (m 1) (m 2)

theorem Supp.add {ok} {P Q : MvPolynomial (Fin 3) ℝ} (hP : Supp ok P) (hQ : Supp ok Q) : Supp ok (P + Q) := by
  classical
  intro m hm
  rcases Finset.mem_union.1 (support_add hm) with h | h
  · exact hP m h
  · exact hQ m h

theorem Supp.neg {ok} {P : MvPolynomial (Fin 3) ℝ} (hP : Supp ok P) : Supp ok (-P) := by
  intro m hm
  rw [support_neg] at hm
  exact hP m hm

theorem Supp.sub {ok} {P Q : MvPolynomial (Fin 3) ℝ} (hP : Supp ok P) (hQ : Supp ok Q) : Supp ok (P - Q) := by
  rw [sub_eq_add_neg]; exact hP.add hQ.neg

theorem Supp.zero {ok} : Supp ok 0 := fun m hm => by simp at hm

theorem Supp.smul {ok} {P : MvPolynomial (Fin 3) ℝ} (hP : Supp ok P) (a : ℝ) : Supp ok (C a * P) := by
  intro m hm
  refine hP m ?_
  rw [mem_support_iff, coeff_C_mul] at hm
  exact mem_support_iff.2 fun h => hm (by rw [h, mul_zero])

theorem Supp.sum {ok} {ι : Type} (S : Finset ι) {P : ι → MvPolynomial (Fin 3) ℝ} (hP : ∀ i ∈ S, Supp ok (P i)) : Supp ok (∑ i ∈ S, P i) := by
  classical
  induction S using Finset.induction_on with
  | empty => exact Supp.zero
  | insert a T ha ih =>
    rw [Finset.sum_insert ha]
    exact (hP a (Finset.mem_insert_self a T)).add (ih fun i hi => hP i (Finset.mem_insert_of_mem hi))

theorem Supp.mono {ok} {i j k : Nat} (h : ok i j k) : Supp ok (X 0 ^ i * X 1 ^ j * X 2 ^ k) := by
  intro m hm
  have e : (X 0 ^ i * X 1 ^ j * X 2 ^ k : MvPolynomial (Fin 3) ℝ) = monomial (Finsupp.single 0 i + Finsupp.single 1 j + Finsupp.single 2 k) 1 := by
    rw [X_pow_eq_monomial, X_pow_eq_monomial, X_pow_eq_monomial, monomial_mul, monomial_mul]; norm_num
  rw [e] at hm
  have := Finset.mem_singleton.1 (support_monomial_subset hm)
  subst this
  simpa using h

theorem Supp.mul {ok ok' ok'' : Nat → Nat → Nat → Prop} {P Q : MvPolynomial (Fin 3) ℝ} (hP : Supp ok P) (hQ : Supp ok' Q)
    (h : ∀ a b c a' b' c', ok a b c → ok' a' b' c' → ok'' (a + a') (b + b') (c + c')) : Supp ok'' (P * Q) := by
  classical
  intro m hm
  obtain ⟨u, hu, v, hv, rfl⟩ := Finset.mem_add.1 (support_mul P Q hm)
  exact h _ _ _ _ _ _ (hP u hu) (hQ v hv)

theorem Supp.pderiv {ok ok' : Nat → Nat → Nat → Prop} {P : MvPolynomial (Fin 3) ℝ} (hP : Supp ok P) (i : Fin 3)
    (h : ∀ m : Fin 3 → Nat, ok (m 0 + if i = 0 then 1 else 0) (m 1 + if i = 1 then 1 else 0) (m 2 + if i = 2 then 1 else 0) → ok' (m 0) (m 1) (m 2)) :
    Supp ok' (MvPolynomial.pderiv i P) := by
  intro m hm
  rw [mem_support_iff, coeff_pderiv] at hm
  have h1 : m + Finsupp.single i 1 ∈ P.support := mem_support_iff.2 fun h0 => hm (by rw [h0, zero_mul])
  have := hP _ h1
  refine h m ?_
  simpa [Finsupp.single_apply, eq_comm] using this

/-! ## Kernel-checked degrees of the shape functions -/

def ok1 (ok : Nat → Nat → Nat → Bool) (i j k : Nat) : PE.P1 → Bool
  | [] => true
  | a :: p => (decide (a = 0) || ok i j k) && ok1 ok (i + 1) j k p
def ok2 (ok : Nat → Nat → Nat → Bool) (j k : Nat) : PE.P2 → Bool
  | [] => true
  | a :: p => ok1 ok 0 j k a && ok2 ok (j + 1) k p
def ok3 (ok : Nat → Nat → Nat → Bool) (k : Nat) : PE.P3 → Bool
  | [] => true
  | a :: p => ok2 ok 0 k a && ok3 ok (k + 1) p

theorem supp1 (ok : Nat → Nat → Nat → Bool) (i j k : Nat) (p : PE.P1) (h : ok1 ok i j k p = true) :
    Supp (fun a b c => ok a b c = true) (X 0 ^ i * X 1 ^ j * X 2 ^ k * mv1 p) := by
  induction p generalizing i with
  | nil => simp only [mv1, mul_zero]; exact Supp.zero
  | cons a p ih =>
    simp only [ok1, Bool.and_eq_true, Bool.or_eq_true, decide_eq_true_eq] at h
    rw [mv1, show X 0 ^ i * X 1 ^ j * X 2 ^ k * (C (a : ℝ) + X 0 * mv1 p) = C (a : ℝ) * (X 0 ^ i * X 1 ^ j * X 2 ^ k) + X 0 ^ (i + 1) * X 1 ^ j * X 2 ^ k * mv1 p by ring]
    refine Supp.add ?_ (ih _ h.2)
    rcases h.1 with rfl | h1
    · simp only [Rat.cast_zero, C_0, zero_mul]; exact Supp.zero
    · exact (Supp.mono h1).smul _
theorem supp2 (ok : Nat → Nat → Nat → Bool) (j k : Nat) (p : PE.P2) (h : ok2 ok j k p = true) :
    Supp (fun a b c => ok a b c = true) (X 1 ^ j * X 2 ^ k * mv2 p) := by
  induction p generalizing j with
  | nil => simp only [mv2, mul_zero]; exact Supp.zero
  | cons a p ih =>
    simp only [ok2, Bool.and_eq_true] at h
    rw [mv2, show X 1 ^ j * X 2 ^ k * (mv1 a + X 1 * mv2 p) = X 0 ^ 0 * X 1 ^ j * X 2 ^ k * mv1 a + X 1 ^ (j + 1) * X 2 ^ k * mv2 p by ring]
    exact (supp1 ok 0 j k a h.1).add (ih _ h.2)
theorem supp3 (ok : Nat → Nat → Nat → Bool) (k : Nat) (p : PE.P3) (h : ok3 ok k p = true) :
    Supp (fun a b c => ok a b c = true) (X 2 ^ k * mv3 p) := by
  induction p generalizing k with
  | nil => simp only [mv3, mul_zero]; exact Supp.zero
  | cons a p ih =>
    simp only [ok3, Bool.and_eq_true] at h
    rw [mv3, show X 2 ^ k * (mv2 a + X 2 * mv3 p) = X 1 ^ 0 * X 2 ^ k * mv2 a + X 2 ^ (k + 1) * mv3 p by ring]
    exact (supp2 ok 0 k a h.1).add (ih _ h.2)

def okPE (ok : Nat → Nat → Nat → Bool) (e : PE) : Bool :=
  match e.norm with
  | some p => e.constDen && ok3 ok 0 p
  | none => false

theorem supp_toMv {ok : Nat → Nat → Nat → Bool} {e : PE} (h : okPE ok e = true) : Supp (fun a b c => ok a b c = true) (toMv e) := by
  unfold okPE at h
  split at h
  · rename_i p hp
    rw [Bool.and_eq_true] at h
    have e1 : toMv e = mv3 p := by
      refine MvPolynomial.funext fun x => ?_
      rw [show x = ![x 0, x 1, x 2] by ext i; fin_cases i <;> rfl, eval_toMv e h.1, eval_mv3, PE.eval_norm _ _ p hp]
      rfl
    have := supp3 ok 0 p h.2
    rw [pow_zero, one_mul] at this
    rwa [e1]
  · exact absurd h (by decide)

/-- The exponents allowed in the shape functions: by total degree in triangles and tetrahedra, by variable in the others; no exponents in unused variables. -/
def shapeOk (k : GeoKind) (a b c : Nat) : Bool :=
  match k.classOf with
  | .lin => a ≤ shapeDegree k && b == 0 && c == 0
  | .tri => a + b ≤ shapeDegree k && c == 0
  | .qua => a ≤ shapeDegree k && b ≤ shapeDegree k && c == 0
  | .tet => a + b + c ≤ shapeDegree k
  | .hex => a ≤ shapeDegree k && b ≤ shapeDegree k && c ≤ shapeDegree k

theorem shapes_ok (k : GeoKind) : (interp k).all (okPE (shapeOk k)) = true := by
  cases k <;> decide +kernel

theorem supp_shapePoly (k : GeoKind) (m : Nat) (hm : m < k.nnode) : Supp (fun a b c => shapeOk k a b c = true) (shapePoly k m) := by
  refine supp_toMv ?_
  have hl : m < (interp k).length := lt_of_lt_of_eq hm (by cases k <;> decide +kernel)
  rw [List.getD_eq_getElem _ _ hl]
  exact List.all_eq_true.1 (shapes_ok k) _ (List.getElem_mem hl)

theorem supp_fieldPoly (k : GeoKind) (u : Nat → ℝ) : Supp (fun a b c => shapeOk k a b c = true) (fieldPoly k u) :=
  Supp.sum _ fun m hm => (supp_shapePoly k m (Finset.mem_range.1 hm)).smul _

/-! ## The integrands -/

theorem covers_total {d : Nat} {P : MvPolynomial (Fin 3) ℝ} (h : Supp (fun a b c => a + b + c ≤ d) P) : (Exactness.total d).Covers P := by
  show P.totalDegree ≤ d
  refine Finset.sup_le fun m hm => ?_
  rw [Finsupp.sum_fintype _ _ (fun _ => rfl), Fin.sum_univ_three]
  exact h m hm

theorem covers_each {d : Nat} {P : MvPolynomial (Fin 3) ℝ} (h : Supp (fun a b c => a ≤ d ∧ b ≤ d ∧ c ≤ d) P) : (Exactness.perVariable d).Covers P := by
  intro i
  refine degreeOf_le_iff.2 fun m hm => ?_
  obtain ⟨h0, h1, h2⟩ := h m hm
  fin_cases i <;> assumption

/-- Total degree at most `d - s`. -/
def Tot (d s : Nat) (a b c : Nat) : Prop := a + b + c + s ≤ d
/-- Degrees at most `d - s`, `d - s'` and 0. -/
def Two (d s s' : Nat) (a b c : Nat) : Prop := a + s ≤ d ∧ b + s' ≤ d ∧ c = 0
/-- Degrees at most `d - s`, `d - s'` and `d - s''`. -/
def Three (d s s' s'' : Nat) (a b c : Nat) : Prop := a + s ≤ d ∧ b + s' ≤ d ∧ c + s'' ≤ d

theorem Supp.imp {ok ok' : Nat → Nat → Nat → Prop} {P : MvPolynomial (Fin 3) ℝ} (hP : Supp ok P) (h : ∀ a b c, ok a b c → ok' a b c) : Supp ok' P :=
  fun m hm => h _ _ _ (hP m hm)

theorem tot_mul {d s d' s' : Nat} {P Q : MvPolynomial (Fin 3) ℝ} (hP : Supp (Tot d s) P) (hQ : Supp (Tot d' s') Q) : Supp (Tot (d + d') (s + s')) (P * Q) :=
  hP.mul hQ fun a b c a' b' c' h h' => by unfold Tot at *; omega
theorem tot_pderiv {d : Nat} {P : MvPolynomial (Fin 3) ℝ} (hP : Supp (Tot d 0) P) (i : Fin 3) : Supp (Tot d 1) (MvPolynomial.pderiv i P) :=
  hP.pderiv i fun m h => by unfold Tot at *; fin_cases i <;> simp at h <;> omega
theorem two_mul' {d s t d' s' t' : Nat} {P Q : MvPolynomial (Fin 3) ℝ} (hP : Supp (Two d s t) P) (hQ : Supp (Two d' s' t') Q) :
    Supp (Two (d + d') (s + s') (t + t')) (P * Q) := hP.mul hQ fun a b c a' b' c' h h' => by unfold Two at *; omega
theorem two_pderiv0 {d : Nat} {P : MvPolynomial (Fin 3) ℝ} (hP : Supp (Two d 0 0) P) : Supp (Two d 1 0) (MvPolynomial.pderiv 0 P) :=
  hP.pderiv 0 fun m h => by unfold Two at *; simp at h; omega
theorem two_pderiv1 {d : Nat} {P : MvPolynomial (Fin 3) ℝ} (hP : Supp (Two d 0 0) P) : Supp (Two d 0 1) (MvPolynomial.pderiv 1 P) :=
  hP.pderiv 1 fun m h => by unfold Two at *; simp at h; omega
theorem three_mul {d s t u d' s' t' u' : Nat} {P Q : MvPolynomial (Fin 3) ℝ} (hP : Supp (Three d s t u) P) (hQ : Supp (Three d' s' t' u') Q) :
    Supp (Three (d + d') (s + s') (t + t') (u + u')) (P * Q) := hP.mul hQ fun a b c a' b' c' h h' => by unfold Three at *; omega
theorem three_pderiv {d : Nat} {P : MvPolynomial (Fin 3) ℝ} (hP : Supp (Three d 0 0 0) P) (i : Fin 3) :
    Supp (Three d (if i = 0 then 1 else 0) (if i = 1 then 1 else 0) (if i = 2 then 1 else 0)) (MvPolynomial.pderiv i P) :=
  hP.pderiv i fun m h => by unfold Three at *; fin_cases i <;> simp at h ⊢ <;> omega

variable {k : GeoKind}

theorem field_tot (h : k.classOf = .lin ∨ k.classOf = .tri ∨ k.classOf = .tet) (u : Nat → ℝ) : Supp (Tot (shapeDegree k) 0) (fieldPoly k u) :=
  (supp_fieldPoly k u).imp fun a b c h' => by
    unfold shapeOk at h'
    unfold Tot
    rcases h with h | h | h <;> rw [h] at h' <;> simp at h' <;> omega
theorem field_two (h : k.classOf = .qua) (u : Nat → ℝ) : Supp (Two (shapeDegree k) 0 0) (fieldPoly k u) :=
  (supp_fieldPoly k u).imp fun a b c h' => by
    unfold shapeOk at h'
    unfold Two
    rw [h] at h'; simp at h'; omega
theorem field_three (h : k.classOf = .hex) (u : Nat → ℝ) : Supp (Three (shapeDegree k) 0 0 0) (fieldPoly k u) :=
  (supp_fieldPoly k u).imp fun a b c h' => by
    unfold shapeOk at h'
    unfold Three
    rw [h] at h'; simp at h'; omega

theorem degree_pos (k : GeoKind) : 1 ≤ shapeDegree k := by cases k <;> decide
theorem class_2d (h : k.ndim = 2) : k.classOf = .tri ∨ k.classOf = .qua := by
  cases k <;> first | exact absurd h (by decide) | exact Or.inl rfl | exact Or.inr rfl
theorem class_3d (h : k.ndim = 3) : k.classOf = .tet ∨ k.classOf = .hex := by
  cases k <;> first | exact absurd h (by decide) | exact Or.inl rfl | exact Or.inr rfl
theorem class_1d (h : k.ndim = 1) : k.classOf = .lin := by
  cases k <;> first | exact absurd h (by decide) | rfl

end
end Gemlab.GaussSpec

namespace Gemlab.Scratchpad
open MvPolynomial Gemlab Gemlab.Shapes Gemlab.GaussSpec Gemlab.Spec Gemlab.Spec.Analytical
noncomputable section

variable {k : GeoKind}

/-- The divergence as a polynomial. -/
def divPoly (k : GeoKind) (X v : Nat → Nat → ℝ) : MvPolynomial (Fin 3) ℝ :=
  if k.ndim = 2 then pderiv 0 (flow₀ (uPoly k v 0) (uPoly k v 1) (uPoly k X 0) (uPoly k X 1)) + pderiv 1 (flow₁ (uPoly k v 0) (uPoly k v 1) (uPoly k X 0) (uPoly k X 1))
  else pderiv 0 (flow (uPoly k v 0) (uPoly k v 1) (uPoly k v 2) (uPoly k X 0) (uPoly k X 1) (uPoly k X 2) 1 2) +
      pderiv 1 (flow (uPoly k v 0) (uPoly k v 1) (uPoly k v 2) (uPoly k X 0) (uPoly k X 1) (uPoly k X 2) 2 0) +
      pderiv 2 (flow (uPoly k v 0) (uPoly k v 1) (uPoly k v 2) (uPoly k X 0) (uPoly k X 1) (uPoly k X 2) 0 1)

theorem divPoly_covers (hk : k.ndim = 2 ∨ k.ndim = 3) (X v : Nat → Nat → ℝ) : (cellNeed k).Covers (divPoly k X v) := by
  unfold divPoly cellNeed
  have hp := degree_pos k
  rcases hk with hk | hk
  · rw [if_pos hk, flow_div]
    unfold uPoly
    rcases class_2d hk with hc | hc <;> rw [hc] <;> dsimp only
    · have f := field_tot (k := k) (Or.inr (Or.inl hc))
      refine covers_total (Supp.imp (ok := Tot (shapeDegree k + shapeDegree k) (1 + 1)) ?_ fun a b c h => by unfold Tot at h; omega)
      have g : ∀ (u w : Nat → ℝ) (i j : Fin 3), Supp (Tot (shapeDegree k + shapeDegree k) (1 + 1)) (pderiv i (fieldPoly k u) * pderiv j (fieldPoly k w)) :=
        fun u w i j => tot_mul (tot_pderiv (f u) i) (tot_pderiv (f w) j)
      exact (((g _ _ _ _).sub (g _ _ _ _)).add (g _ _ _ _)).sub (g _ _ _ _)
    · have f := field_two (k := k) hc
      refine covers_each (Supp.imp (ok := Two (shapeDegree k + shapeDegree k) 1 1) ?_ fun a b c h => by unfold Two at h; omega)
      have g : ∀ (u w : Nat → ℝ), Supp (Two (shapeDegree k + shapeDegree k) 1 1) (pderiv 0 (fieldPoly k u) * pderiv 1 (fieldPoly k w)) :=
        fun u w => two_mul' (two_pderiv0 (f u)) (two_pderiv1 (f w))
      have g' : ∀ (u w : Nat → ℝ), Supp (Two (shapeDegree k + shapeDegree k) 1 1) (pderiv 1 (fieldPoly k u) * pderiv 0 (fieldPoly k w)) :=
        fun u w => two_mul' (two_pderiv1 (f u)) (two_pderiv0 (f w))
      exact (((g _ _).sub (g _ _)).add (g' _ _)).sub (g' _ _)
  · rw [if_neg (by omega), flow_div3]
    unfold uPoly cof
    rcases class_3d hk with hc | hc <;> rw [hc] <;> dsimp only
    · have f := field_tot (k := k) (Or.inr (Or.inr hc))
      refine covers_total (Supp.imp (ok := Tot (shapeDegree k + (shapeDegree k + shapeDegree k)) (1 + (1 + 1))) ?_ fun a b c h => by unfold Tot at h; omega)
      have g : ∀ (u w y u' w' y' : Nat → ℝ) (a b c a' b' c' : Fin 3), Supp (Tot (shapeDegree k + (shapeDegree k + shapeDegree k)) (1 + (1 + 1)))
          (pderiv a (fieldPoly k u) * (pderiv b (fieldPoly k w) * pderiv c (fieldPoly k y) - pderiv b' (fieldPoly k w') * pderiv c' (fieldPoly k y'))) :=
        fun u w y u' w' y' a b c a' b' c' => tot_mul (tot_pderiv (f u) a) ((tot_mul (tot_pderiv (f w) b) (tot_pderiv (f y) c)).sub (tot_mul (tot_pderiv (f w') b') (tot_pderiv (f y') c')))
      refine (Supp.add (((g _ _ _ 0 _ _ _ _ _ 0 _ _).add (g _ _ _ 0 _ _ _ _ _ 0 _ _)).add (g _ _ _ 0 _ _ _ _ _ 0 _ _))
        (((g _ _ _ 0 _ _ _ _ _ 0 _ _).add (g _ _ _ 0 _ _ _ _ _ 0 _ _)).add (g _ _ _ 0 _ _ _ _ _ 0 _ _))).add
        (((g _ _ _ 0 _ _ _ _ _ 0 _ _).add (g _ _ _ 0 _ _ _ _ _ 0 _ _)).add (g _ _ _ 0 _ _ _ _ _ 0 _ _))
    · have f := field_three (k := k) hc
      refine covers_each (Supp.imp (ok := Three (shapeDegree k + (shapeDegree k + shapeDegree k)) 1 1 1) ?_ fun a b c h => by unfold Three at h; omega)
      have g : ∀ (u w y w' y' : Nat → ℝ) (a b c : Fin 3), a ≠ b → b ≠ c → a ≠ c → Supp (Three (shapeDegree k + (shapeDegree k + shapeDegree k)) 1 1 1)
          (pderiv a (fieldPoly k u) * (pderiv b (fieldPoly k w) * pderiv c (fieldPoly k y) - pderiv b (fieldPoly k w') * pderiv c (fieldPoly k y'))) := by
        intro u w y w' y' a b c hab hbc hac
        have := three_mul (three_pderiv (f u) a) ((three_mul (three_pderiv (f w) b) (three_pderiv (f y) c)).sub (three_mul (three_pderiv (f w') b) (three_pderiv (f y') c)))
        fin_cases a <;> fin_cases b <;> fin_cases c <;> first | exact absurd rfl hab | exact absurd rfl hbc | exact absurd rfl hac | exact this
      refine (Supp.add (((g _ _ _ _ _ _ _ _ ?_ ?_ ?_).add (g _ _ _ _ _ _ _ _ ?_ ?_ ?_)).add (g _ _ _ _ _ _ _ _ ?_ ?_ ?_))
        (((g _ _ _ _ _ _ _ _ ?_ ?_ ?_).add (g _ _ _ _ _ _ _ _ ?_ ?_ ?_)).add (g _ _ _ _ _ _ _ _ ?_ ?_ ?_))).add
        (((g _ _ _ _ _ _ _ _ ?_ ?_ ?_).add (g _ _ _ _ _ _ _ _ ?_ ?_ ?_)).add (g _ _ _ _ _ _ _ _ ?_ ?_ ?_)) <;> decide

theorem fluxPoly_covers (hk : k.ndim = 1 ∨ k.ndim = 2) (X v : Nat → Nat → ℝ) : (sideNeed k).Covers (fluxPoly k X v) := by
  unfold fluxPoly sideNeed
  have hp := degree_pos k
  rcases hk with hk | hk
  · rw [if_pos hk]
    unfold uPoly flow₁
    rw [class_1d hk]
    dsimp only
    have f := field_tot (k := k) (Or.inl (class_1d hk))
    refine covers_total (Supp.imp (ok := Tot (shapeDegree k + shapeDegree k) (0 + 1)) ?_ fun a b c h => by unfold Tot at h; omega)
    exact (tot_mul (f _) (tot_pderiv (f _) 0)).sub (tot_mul (f _) (tot_pderiv (f _) 0))
  · rw [if_neg (by omega)]
    unfold uPoly flow cof
    rcases class_2d hk with hc | hc <;> rw [hc] <;> dsimp only
    · have f := field_tot (k := k) (Or.inr (Or.inl hc))
      refine covers_total (Supp.imp (ok := Tot (shapeDegree k + (shapeDegree k + shapeDegree k)) (0 + (1 + 1))) ?_ fun a b c h => by unfold Tot at h; omega)
      have g : ∀ (u w y w' y' : Nat → ℝ), Supp (Tot (shapeDegree k + (shapeDegree k + shapeDegree k)) (0 + (1 + 1)))
          (fieldPoly k u * (pderiv 0 (fieldPoly k w) * pderiv 1 (fieldPoly k y) - pderiv 0 (fieldPoly k w') * pderiv 1 (fieldPoly k y'))) :=
        fun u w y w' y' => tot_mul (f u) ((tot_mul (tot_pderiv (f w) _) (tot_pderiv (f y) _)).sub (tot_mul (tot_pderiv (f w') _) (tot_pderiv (f y') _)))
      exact ((g _ _ _ _ _).add (g _ _ _ _ _)).add (g _ _ _ _ _)
    · have f := field_two (k := k) hc
      refine covers_each (Supp.imp (ok := Two (shapeDegree k + (shapeDegree k + shapeDegree k)) 1 1) ?_ fun a b c h => by unfold Two at h; omega)
      have g : ∀ (u w y w' y' : Nat → ℝ), Supp (Two (shapeDegree k + (shapeDegree k + shapeDegree k)) 1 1)
          (fieldPoly k u * (pderiv 0 (fieldPoly k w) * pderiv 1 (fieldPoly k y) - pderiv 0 (fieldPoly k w') * pderiv 1 (fieldPoly k y'))) :=
        fun u w y w' y' => two_mul' (f u) ((two_mul' (two_pderiv0 (f w)) (two_pderiv1 (f y))).sub (two_mul' (two_pderiv0 (f w')) (two_pderiv1 (f y'))))
      exact ((g _ _ _ _ _).add (g _ _ _ _ _)).add (g _ _ _ _ _)

end
end Gemlab.Scratchpad
