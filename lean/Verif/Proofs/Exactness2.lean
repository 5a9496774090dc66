import Verif.Proofs.Exactness

namespace Gemlab.Exactness
open Gemlab Gemlab.Shapes Gemlab.GaussSpec Gemlab.Analytical Gemlab.Spec.Analytical Gemlab.Spec.Exactness

theorem tab_eq (t : GaussTable) (a b c : Nat) :
    ∑ p ∈ Finset.range t.toGauss.npoint, t.toGauss.weight p * (t.toGauss.coords p 0 ^ a * t.toGauss.coords p 1 ^ b * t.toGauss.coords p 2 ^ c) =
      ((tabMoment t.data a b c : ℚ) : ℝ) := by
  unfold tabMoment
  have : ((((t.data.map fun r => r.2.2.2 * (r.1 ^ a * r.2.1 ^ b * r.2.2.1 ^ c)).sum : ℚ)) : ℝ) =
      (t.data.map fun r => (r.2.2.2 : ℝ) * ((r.1 : ℝ) ^ a * (r.2.1 : ℝ) ^ b * (r.2.2.1 : ℝ) ^ c)).sum := by
    induction t.data with
    | nil => simp
    | cons x l ih => rw [List.map_cons, List.sum_cons, List.map_cons, List.sum_cons, Rat.cast_add, ih]; push_cast; rfl
  rw [this, ← Fin.sum_univ_fun_getElem]
  change ∑ p ∈ Finset.range t.data.length, _ = _
  rw [Finset.sum_range]
  refine Finset.sum_congr rfl fun p _ => ?_
  have e : t.data.getD p (0, 0, 0, 0) = t.data[p] := by rw [List.getD_eq_getElem?_getD, List.getElem?_eq_getElem p.2]; rfl
  simp only [GaussTable.toGauss, Gauss.coords, Gauss.weight, e]
  rfl

/-- The functions of an element whose products are integrated: sums of monomials in the degree of the element, with coefficients that are not too large. -/
def InFamily (k : GeoKind) (f : PE) : Prop := chkFun k f = true

theorem mem_family {k : GeoKind} {f : PE} (h : f ∈ family k) : InFamily k f := by
  have hk := chkKind_ok k
  unfold chkKind at hk
  exact List.all_eq_true.1 hk f h
theorem family_one (k : GeoKind) : InFamily k (1 : PE) := mem_family List.mem_cons_self
theorem family_N {k : GeoKind} {m : Nat} (hm : m < k.nnode) : InFamily k (Np k m) :=
  mem_family (List.mem_cons_of_mem _ (List.mem_append_left _ (List.mem_map.2 ⟨m, List.mem_range.2 hm, rfl⟩)))
theorem family_D {k : GeoKind} {m : Nat} (hm : m < k.nnode) {j : Nat} (hj : j < k.ndim) : InFamily k (Dp k m j) :=
  mem_family (List.mem_cons_of_mem _ (List.mem_append_right _ (List.mem_flatMap.2 ⟨m, List.mem_range.2 hm, List.mem_map.2 ⟨j, List.mem_range.2 hj, rfl⟩⟩)))

theorem size_mono {k k' : GeoKind} (hc : k'.classOf = k.classOf) (hd : degree k' ≤ degree k) : size k' ≤ size k := by
  revert hc hd
  cases k <;> cases k' <;> decide +kernel

theorem inDegree_mono {k k' : GeoKind} (hc : k'.classOf = k.classOf) (hd : degree k' ≤ degree k) {t : Term} (h : inDegree k' t = true) : inDegree k t = true := by
  unfold inDegree at h ⊢
  rw [hc] at h
  split at h
  · exact decide_eq_true (le_trans (of_decide_eq_true h) hd)
  · exact decide_eq_true (le_trans (of_decide_eq_true h) hd)
  · exact decide_eq_true (le_trans (of_decide_eq_true h) hd)
  · simp only [Bool.and_eq_true, decide_eq_true_eq] at h ⊢
    exact ⟨⟨le_trans h.1.1 hd, le_trans h.1.2 hd⟩, le_trans h.2 hd⟩

theorem family_lower {k k' : GeoKind} (hc : k'.classOf = k.classOf) (hd : degree k' ≤ degree k) {f : PE} (h : InFamily k' f) : InFamily k f := by
  unfold InFamily chkFun at h ⊢
  simp only [Bool.and_eq_true, List.all_eq_true, decide_eq_true_eq] at h ⊢
  exact ⟨⟨h.1.1, fun t ht => inDegree_mono hc hd (h.1.2 t ht)⟩, le_trans h.2 (size_mono hc hd)⟩

theorem rule_moment {k : GeoKind} {n : Nat} {e : Exactness} {t : List GaussRow} (h : TableOk k.classOf n e t) (he : Enough k e) {u v : Term}
    (hu : inDegree k u = true) (hv : inDegree k v = true) :
    |tabMoment t (u.2.1 + v.2.1) (u.2.2.1 + v.2.2.1) (u.2.2.2 + v.2.2.2) - moment k.classOf (u.2.1 + v.2.1) (u.2.2.1 + v.2.2.1) (u.2.2.2 + v.2.2.2)| ≤ accuracy k.classOf n := by
  have hm := h.moments
  cases e with
  | total d =>
    obtain ⟨hc, hd⟩ := he
    have hu : u.2.1 + u.2.2.1 + u.2.2.2 ≤ degree k := by rcases hc with hc | hc | hc <;> simpa [inDegree, hc] using hu
    have hv : v.2.1 + v.2.2.1 + v.2.2.2 ≤ degree k := by rcases hc with hc | hc | hc <;> simpa [inDegree, hc] using hv
    simp only [checkRule, List.all_eq_true, List.mem_range] at hm
    have := hm (u.2.1 + v.2.1) (by omega) (u.2.2.1 + v.2.2.1) (by omega) (u.2.2.2 + v.2.2.2) (by omega)
    simpa [momentOk] using this
  | perVariable d =>
    have hd : 2 * degree k ≤ d := he
    have key : ∀ w : Term, inDegree k w = true → w.2.1 ≤ degree k ∧ w.2.2.1 ≤ degree k ∧ w.2.2.2 ≤ degree k := by
      intro w hw
      unfold inDegree at hw
      split at hw
      · have := of_decide_eq_true hw; omega
      · have := of_decide_eq_true hw; omega
      · have := of_decide_eq_true hw; omega
      · simp only [Bool.and_eq_true, decide_eq_true_eq] at hw; tauto
    have hu := key u hu
    have hv := key v hv
    simp only [checkRule, List.all_eq_true, List.mem_range] at hm
    have := hm (u.2.1 + v.2.1) (by omega) (u.2.2.1 + v.2.2.1) (by omega) (u.2.2.2 + v.2.2.2) (by omega)
    simpa [momentOk] using this

instance (k : GeoKind) (e : Exactness) : Decidable (Enough k e) := by
  cases e <;> unfold Enough <;> infer_instance

def chkSize (k : GeoKind) : Bool := (rules k.classOf).all fun p => !decide (Enough k p.2) || decide (accuracy k.classOf p.1 * (size k * size k) ≤ 1 / 10 ^ 9)

theorem chkSize_ok (k : GeoKind) : chkSize k = true := by cases k <;> decide +kernel

theorem rule_size {k : GeoKind} {n : Nat} {e : Exactness} (hr : (n, e) ∈ rules k.classOf) (he : Enough k e) : (accuracy k.classOf n : ℝ) * (size k * size k) ≤ tol := by
  have h := chkSize_ok k
  unfold chkSize at h
  rw [List.all_eq_true] at h
  have h := h _ hr
  simp only [he, decide_true, Bool.not_true, Bool.false_or, decide_eq_true_eq] at h
  unfold tol
  have h' : ((accuracy k.classOf n * (size k * size k) : ℚ) : ℝ) ≤ ((1 / 10 ^ 9 : ℚ) : ℝ) := Rat.cast_le.2 h
  push_cast at h'
  exact h'

theorem cast_abs_sum (l : List Term) : (((l.map fun t => |t.1|).sum : ℚ) : ℝ) = (l.map fun t => |(t.1 : ℝ)|).sum := by
  induction l with
  | nil => simp
  | cons x l ih => rw [List.map_cons, List.sum_cons, List.map_cons, List.sum_cons, Rat.cast_add, ih, Rat.cast_abs]

/-- **The error of a product.** -/
theorem product_error {k : GeoKind} {n : Nat} {e : Exactness} {t : GaussTable} (hr : (n, e) ∈ rules k.classOf) (he : Enough k e)
    (ht : GaussTable.newSized k.classOf n = .ok t) {f g : PE} (hf : InFamily k f) (hg : InFamily k g) :
    |∑ p ∈ Finset.range t.toGauss.npoint, t.toGauss.weight p * (PE.eval (t.toGauss.coords p) f * PE.eval (t.toGauss.coords p) g) -
      refIntegral k.classOf (fun r s w => PE.eval (point r s w) f * PE.eval (point r s w) g)| ≤ tol := by
  obtain ⟨tt, ht', hok⟩ := tables_ok k.classOf (n, e) hr
  rw [ht'] at ht
  cases ht
  have h1 := hf
  have h2 := hg
  simp only [InFamily, chkFun, Bool.and_eq_true, List.all_eq_true, decide_eq_true_eq] at h1 h2
  obtain ⟨⟨s1, d1⟩, b1⟩ := h1
  obtain ⟨⟨s2, d2⟩, b2⟩ := h2
  generalize termsOf f = l1 at *
  generalize termsOf g = l2 at *
  have prod : ∀ ξ : Nat → ℝ, PE.eval ξ f * PE.eval ξ g = ∑ i : Fin l1.length × Fin l2.length, ((l1[i.1].1 : ℝ) * (l2[i.2].1 : ℝ)) *
      (ξ 0 ^ (l1[i.1].2.1 + l2[i.2].2.1) * ξ 1 ^ (l1[i.1].2.2.1 + l2[i.2].2.2.1) * ξ 2 ^ (l1[i.1].2.2.2 + l2[i.2].2.2.2)) := by
    intro ξ
    rw [PE.eval_eq_of_same s1 ξ, PE.eval_eq_of_same s2 ξ, eval_terms, eval_terms, ← Fin.sum_univ_fun_getElem, ← Fin.sum_univ_fun_getElem, Finset.sum_mul_sum,
      Fintype.sum_prod_type]
    refine Finset.sum_congr rfl fun i _ => Finset.sum_congr rfl fun j _ => ?_
    simp only [pow_add, Fin.getElem_fin]
    ring
  have quad : ∑ p ∈ Finset.range (GaussTable.toGauss ⟨k.classOf, tt⟩).npoint, (GaussTable.toGauss ⟨k.classOf, tt⟩).weight p *
      (PE.eval ((GaussTable.toGauss ⟨k.classOf, tt⟩).coords p) f * PE.eval ((GaussTable.toGauss ⟨k.classOf, tt⟩).coords p) g) =
      ∑ i : Fin l1.length × Fin l2.length, ((l1[i.1].1 : ℝ) * (l2[i.2].1 : ℝ)) *
        ((tabMoment tt (l1[i.1].2.1 + l2[i.2].2.1) (l1[i.1].2.2.1 + l2[i.2].2.2.1) (l1[i.1].2.2.2 + l2[i.2].2.2.2) : ℚ) : ℝ) := by
    simp_rw [prod, Finset.mul_sum]
    rw [Finset.sum_comm]
    refine Finset.sum_congr rfl fun i _ => ?_
    rw [← tab_eq ⟨k.classOf, tt⟩, Finset.mul_sum]
    exact Finset.sum_congr rfl fun p _ => by ring
  have int : refIntegral k.classOf (fun r s w => PE.eval (point r s w) f * PE.eval (point r s w) g) =
      ∑ i : Fin l1.length × Fin l2.length, ((l1[i.1].1 : ℝ) * (l2[i.2].1 : ℝ)) *
        ((moment k.classOf (l1[i.1].2.1 + l2[i.2].2.1) (l1[i.1].2.2.1 + l2[i.2].2.2.1) (l1[i.1].2.2.2 + l2[i.2].2.2.2) : ℚ) : ℝ) := by
    rw [← refIntegral_sum]
    congr 1
    funext r s w
    rw [prod]
    rfl
  rw [quad, int, ← Finset.sum_sub_distrib]
  refine le_trans (Finset.abs_sum_le_sum_abs _ _) (le_trans ?_ (rule_size hr he))
  have step : ∀ i : Fin l1.length × Fin l2.length, |((l1[i.1].1 : ℝ) * (l2[i.2].1 : ℝ)) *
        ((tabMoment tt (l1[i.1].2.1 + l2[i.2].2.1) (l1[i.1].2.2.1 + l2[i.2].2.2.1) (l1[i.1].2.2.2 + l2[i.2].2.2.2) : ℚ) : ℝ) -
      ((l1[i.1].1 : ℝ) * (l2[i.2].1 : ℝ)) *
        ((moment k.classOf (l1[i.1].2.1 + l2[i.2].2.1) (l1[i.1].2.2.1 + l2[i.2].2.2.1) (l1[i.1].2.2.2 + l2[i.2].2.2.2) : ℚ) : ℝ)| ≤
      (|(l1[i.1].1 : ℝ)| * |(l2[i.2].1 : ℝ)|) * (accuracy k.classOf n : ℝ) := by
    intro i
    rw [← mul_sub, abs_mul, abs_mul]
    refine mul_le_mul_of_nonneg_left ?_ (by positivity)
    have := rule_moment hok he (d1 l1[i.1] (List.getElem_mem _)) (d2 l2[i.2] (List.getElem_mem _))
    have : ((|tabMoment tt (l1[i.1].2.1 + l2[i.2].2.1) (l1[i.1].2.2.1 + l2[i.2].2.2.1) (l1[i.1].2.2.2 + l2[i.2].2.2.2) -
      moment k.classOf (l1[i.1].2.1 + l2[i.2].2.1) (l1[i.1].2.2.1 + l2[i.2].2.2.1) (l1[i.1].2.2.2 + l2[i.2].2.2.2)| : ℚ) : ℝ) ≤ (accuracy k.classOf n : ℝ) := Rat.cast_le.2 this
    rwa [Rat.cast_abs, Rat.cast_sub] at this
  refine le_trans (Finset.sum_le_sum fun i _ => step i) ?_
  rw [← Finset.sum_mul, mul_comm]
  have tot : ∀ l : List Term, (l.map fun t => |t.1|).sum ≤ size k → ∑ i : Fin l.length, |(l[i].1 : ℝ)| ≤ (size k : ℝ) := by
    intro l hl
    have e : ∑ i : Fin l.length, |(l[i].1 : ℝ)| = (((l.map fun t => |t.1|).sum : ℚ) : ℝ) := by
      have := Fin.sum_univ_fun_getElem l (fun t : Term => |(t.1 : ℝ)|)
      simp only [Fin.getElem_fin] at this ⊢
      rw [this, cast_abs_sum]
    rw [e]
    exact Rat.cast_le.2 hl
  have acc : (0 : ℝ) ≤ (accuracy k.classOf n : ℝ) := by
    have := rule_moment hok he (u := (0, 0, 0, 0)) (v := (0, 0, 0, 0)) (by unfold inDegree; split <;> simp) (by unfold inDegree; split <;> simp)
    exact_mod_cast le_trans (abs_nonneg _) this
  refine mul_le_mul_of_nonneg_left ?_ acc
  rw [Fintype.sum_prod_type]
  refine le_trans (le_of_eq (Finset.sum_mul_sum Finset.univ Finset.univ (fun i : Fin l1.length => |(l1[i].1 : ℝ)|) (fun i : Fin l2.length => |(l2[i].1 : ℝ)|)).symm) ?_
  exact mul_le_mul (tot l1 b1) (tot l2 b2) (Finset.sum_nonneg fun _ _ => abs_nonneg _) (le_trans (Finset.sum_nonneg fun _ _ => abs_nonneg _) (tot l1 b1))

theorem some_of_same {a b : PE} (h : PE.same a b = true) : a.norm.isSome = true := by
  unfold PE.same at h
  split at h
  · rename_i p hp
    rw [PE.norm] at hp
    cases ha : a.norm with
    | none => rw [ha] at hp; simp at hp
    | some q => rfl
  · simp at h

theorem some_mul {a b : PE} (ha : a.norm.isSome = true) (hb : b.norm.isSome = true) : (a * b).norm.isSome = true := by
  obtain ⟨p, hp⟩ := Option.isSome_iff_exists.1 ha
  obtain ⟨q, hq⟩ := Option.isSome_iff_exists.1 hb
  change (PE.norm (.mul a b)).isSome = true
  rw [PE.norm, hp, hq]
  rfl

theorem family_some {k : GeoKind} {f : PE} (hf : InFamily k f) : f.norm.isSome = true := by
  have h1 := hf
  simp only [InFamily, chkFun, Bool.and_eq_true] at h1
  exact some_of_same h1.1.1

end Gemlab.Exactness
