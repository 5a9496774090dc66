import Mathlib.MeasureTheory.Function.Jacobian
import Mathlib.MeasureTheory.Integral.Prod
import Mathlib.MeasureTheory.Integral.IntervalIntegral.Basic
import Mathlib.Analysis.SpecialFunctions.PolarCoord
import Verif.Spec.Analytical
import Mathlib.Analysis.Convex.Hull
import Mathlib.Analysis.Convex.Combination

/-! Integrals over triangles and tetrahedra (Lebesgue) are integrals over the reference domain times the determinant. -/

open MeasureTheory Set
namespace Gemlab.Analytical

def refTri : Set (ℝ × ℝ) := {p | 0 ≤ p.1 ∧ 0 ≤ p.2 ∧ p.1 + p.2 ≤ 1}

theorem refTri_compact : IsCompact refTri := by
  have hc : IsClosed refTri := by
    refine (isClosed_le continuous_const continuous_fst).inter ((isClosed_le continuous_const continuous_snd).inter (isClosed_le (continuous_fst.add continuous_snd) continuous_const))
  refine (isCompact_Icc (a := ((0, 0) : ℝ × ℝ)) (b := (1, 1))).of_isClosed_subset hc ?_
  rintro ⟨x, y⟩ ⟨h1, h2, h3⟩
  simp only at h1 h2 h3
  exact ⟨⟨h1, h2⟩, ⟨by simp; linarith, by simp; linarith⟩⟩

theorem refTri_integral {h : ℝ × ℝ → ℝ} (hh : Continuous h) :
    ∫ p in refTri, h p = ∫ r in (0 : ℝ)..1, ∫ s in (0 : ℝ)..(1 - r), h (r, s) := by
  have hm : MeasurableSet refTri := refTri_compact.measurableSet
  have hi : Integrable (refTri.indicator h) (volume.prod volume) := by
    rw [integrable_indicator_iff hm]
    exact hh.continuousOn.integrableOn_compact refTri_compact
  rw [← integral_indicator hm]
  rw [show (volume : Measure (ℝ × ℝ)) = volume.prod volume from rfl, integral_prod _ hi]
  rw [intervalIntegral.integral_of_le zero_le_one, ← integral_Icc_eq_integral_Ioc, ← integral_indicator measurableSet_Icc]
  congr 1; funext r
  by_cases hr : r ∈ Icc (0:ℝ) 1
  · rw [indicator_of_mem hr, intervalIntegral.integral_of_le (by linarith [hr.2]), ← integral_Icc_eq_integral_Ioc, ← integral_indicator measurableSet_Icc]
    congr 1; funext s
    by_cases hs : s ∈ Icc (0:ℝ) (1 - r)
    · rw [indicator_of_mem hs, indicator_of_mem]; exact ⟨hr.1, hs.1, by simp; linarith [hs.2]⟩
    · rw [indicator_of_notMem hs, indicator_of_notMem]
      rintro ⟨_, h2, h3⟩; exact hs ⟨h2, by simp at h3; linarith⟩
  · rw [indicator_of_notMem hr]
    rw [show (fun y => refTri.indicator h (r, y)) = fun _ => 0 from funext fun y => indicator_of_notMem (by
      rintro ⟨h1, h2, h3⟩; exact hr ⟨h1, by simp at h1 h2 h3; linarith⟩) _]
    simp

/-- The linear map with the given matrix. -/
noncomputable def lin2 (a b c d : ℝ) : ℝ × ℝ →L[ℝ] ℝ × ℝ :=
  LinearMap.toContinuousLinearMap (Matrix.toLin (Module.Basis.finTwoProd ℝ) (Module.Basis.finTwoProd ℝ) !![a, b; c, d])

theorem lin2_apply (a b c d : ℝ) (p : ℝ × ℝ) : lin2 a b c d p = (a * p.1 + b * p.2, c * p.1 + d * p.2) := by
  unfold lin2
  rw [Matrix.toLin_finTwoProd_toContinuousLinearMap]
  simp

theorem lin2_det (a b c d : ℝ) : (lin2 a b c d).det = a * d - b * c := by
  unfold lin2
  rw [ContinuousLinearMap.det]
  rw [LinearMap.coe_toContinuousLinearMap, LinearMap.det_toLin, Matrix.det_fin_two_of]

theorem affine_integral (a b c d x0 y0 : ℝ) (hd : a * d - b * c ≠ 0) {g : ℝ × ℝ → ℝ} (hg : Continuous g) :
    ∫ p in (fun q : ℝ × ℝ => ((x0, y0) : ℝ × ℝ) + lin2 a b c d q) '' refTri, g p =
      |a * d - b * c| * ∫ r in (0 : ℝ)..1, ∫ s in (0 : ℝ)..(1 - r), g (x0 + (a * r + b * s), y0 + (c * r + d * s)) := by
  rw [integral_image_eq_integral_abs_det_fderiv_smul volume refTri_compact.measurableSet (f' := fun _ => lin2 a b c d)
    (fun x _ => ((lin2 a b c d).hasFDerivAt.const_add _).hasFDerivWithinAt) ?_]
  · simp only [lin2_det, smul_eq_mul]
    rw [integral_const_mul, refTri_integral (h := fun q => g (((x0, y0) : ℝ × ℝ) + lin2 a b c d q)) (hg.comp (continuous_const.add (lin2 a b c d).continuous))]
    simp only [lin2_apply, Prod.mk_add_mk]
  · intro p _ q _ e
    have e := add_left_cancel e
    rw [lin2_apply, lin2_apply, Prod.mk.injEq] at e
    ext
    · apply mul_left_cancel₀ hd; linear_combination d * e.1 - b * e.2
    · apply mul_left_cancel₀ hd; linear_combination a * e.2 - c * e.1

def refTet : Set (ℝ × ℝ × ℝ) := {p | 0 ≤ p.1 ∧ 0 ≤ p.2.1 ∧ 0 ≤ p.2.2 ∧ p.1 + p.2.1 + p.2.2 ≤ 1}

theorem refTet_compact : IsCompact refTet := by
  have hc : IsClosed refTet := by
    refine (isClosed_le continuous_const continuous_fst).inter ((isClosed_le continuous_const (continuous_fst.comp continuous_snd)).inter
      ((isClosed_le continuous_const (continuous_snd.comp continuous_snd)).inter
      (isClosed_le ((continuous_fst.add (continuous_fst.comp continuous_snd)).add (continuous_snd.comp continuous_snd)) continuous_const)))
  refine (isCompact_Icc (a := ((0, 0, 0) : ℝ × ℝ × ℝ)) (b := (1, 1, 1))).of_isClosed_subset hc ?_
  rintro ⟨x, y, z⟩ ⟨h1, h2, h3, h4⟩
  simp only at h1 h2 h3 h4
  exact ⟨⟨h1, h2, h3⟩, ⟨by simp; linarith, ⟨by simp; linarith, by simp; linarith⟩⟩⟩

theorem refTet_integral {h : ℝ × ℝ × ℝ → ℝ} (hh : Continuous h) :
    ∫ p in refTet, h p = ∫ r in (0 : ℝ)..1, ∫ s in (0 : ℝ)..(1 - r), ∫ t in (0 : ℝ)..(1 - r - s), h (r, s, t) := by
  have hm : MeasurableSet refTet := refTet_compact.measurableSet
  have hi : Integrable (refTet.indicator h) (volume.prod volume) := by
    rw [integrable_indicator_iff hm]
    exact hh.continuousOn.integrableOn_compact refTet_compact
  rw [← integral_indicator hm]
  rw [show (volume : Measure (ℝ × ℝ × ℝ)) = volume.prod volume from rfl, integral_prod _ hi]
  rw [intervalIntegral.integral_of_le zero_le_one, ← integral_Icc_eq_integral_Ioc, ← integral_indicator measurableSet_Icc]
  congr 1; funext r
  by_cases hr : r ∈ Icc (0:ℝ) 1
  · rw [indicator_of_mem hr]
    have hm2 : MeasurableSet {q : ℝ × ℝ | 0 ≤ q.1 ∧ 0 ≤ q.2 ∧ q.1 + q.2 ≤ 1 - r} :=
      ((isClosed_le continuous_const continuous_fst).inter ((isClosed_le continuous_const continuous_snd).inter (isClosed_le (continuous_fst.add continuous_snd) continuous_const))).measurableSet
    have hc2 : IsCompact {q : ℝ × ℝ | 0 ≤ q.1 ∧ 0 ≤ q.2 ∧ q.1 + q.2 ≤ 1 - r} := by
      refine (isCompact_Icc (a := ((0, 0) : ℝ × ℝ)) (b := (1 - r, 1 - r))).of_isClosed_subset
        ((isClosed_le continuous_const continuous_fst).inter ((isClosed_le continuous_const continuous_snd).inter (isClosed_le (continuous_fst.add continuous_snd) continuous_const))) ?_
      rintro ⟨x, y⟩ ⟨h1, h2, h3⟩
      simp only at h1 h2 h3
      exact ⟨⟨h1, h2⟩, ⟨by simp; linarith, by simp; linarith⟩⟩
    have hi2 : Integrable ({q : ℝ × ℝ | 0 ≤ q.1 ∧ 0 ≤ q.2 ∧ q.1 + q.2 ≤ 1 - r}.indicator fun q => h (r, q)) (volume.prod volume) := by
      rw [integrable_indicator_iff hm2]
      exact (hh.comp (continuous_const.prodMk continuous_id)).continuousOn.integrableOn_compact hc2
    have e : (fun q : ℝ × ℝ => refTet.indicator h (r, q)) = {q : ℝ × ℝ | 0 ≤ q.1 ∧ 0 ≤ q.2 ∧ q.1 + q.2 ≤ 1 - r}.indicator fun q => h (r, q) := by
      funext q
      by_cases hq : 0 ≤ q.1 ∧ 0 ≤ q.2 ∧ q.1 + q.2 ≤ 1 - r
      · rw [indicator_of_mem (show q ∈ {q : ℝ × ℝ | 0 ≤ q.1 ∧ 0 ≤ q.2 ∧ q.1 + q.2 ≤ 1 - r} from hq), indicator_of_mem]
        exact ⟨hr.1, hq.1, hq.2.1, by simp; linarith [hq.2.2]⟩
      · rw [indicator_of_notMem (show q ∉ {q : ℝ × ℝ | 0 ≤ q.1 ∧ 0 ≤ q.2 ∧ q.1 + q.2 ≤ 1 - r} from hq), indicator_of_notMem]
        rintro ⟨_, h2, h3, h4⟩; exact hq ⟨h2, h3, by simp at h4; linarith⟩
    rw [e, show (volume : Measure (ℝ × ℝ)) = volume.prod volume from rfl, integral_prod _ hi2]
    rw [intervalIntegral.integral_of_le (by linarith [hr.2]), ← integral_Icc_eq_integral_Ioc, ← integral_indicator measurableSet_Icc]
    congr 1; funext s
    by_cases hs : s ∈ Icc (0:ℝ) (1 - r)
    · rw [indicator_of_mem hs, intervalIntegral.integral_of_le (by linarith [hs.2]), ← integral_Icc_eq_integral_Ioc, ← integral_indicator measurableSet_Icc]
      congr 1; funext t
      by_cases ht : t ∈ Icc (0:ℝ) (1 - r - s)
      · rw [indicator_of_mem ht, indicator_of_mem]; exact ⟨hs.1, ht.1, by simp; linarith [ht.2]⟩
      · rw [indicator_of_notMem ht, indicator_of_notMem]
        rintro ⟨_, h2, h3⟩; exact ht ⟨h2, by simp at h3; linarith⟩
    · rw [indicator_of_notMem hs]
      rw [show (fun y => {q : ℝ × ℝ | 0 ≤ q.1 ∧ 0 ≤ q.2 ∧ q.1 + q.2 ≤ 1 - r}.indicator (fun q => h (r, q)) (s, y)) = fun _ => 0 from funext fun y => indicator_of_notMem (by
        rintro ⟨h1, h2, h3⟩; exact hs ⟨h1, by simp at h1 h2 h3; linarith⟩) _]
      simp
  · rw [indicator_of_notMem hr]
    rw [show (fun y => refTet.indicator h (r, y)) = fun _ => 0 from funext fun y => indicator_of_notMem (by
      rintro ⟨h1, h2, h3, h4⟩; exact hr ⟨h1, by simp at h1 h2 h3 h4; linarith⟩) _]
    simp

/-- `ℝ³` as functions and as triples. -/
noncomputable def tripleEquiv : (Fin 3 → ℝ) ≃ₗ[ℝ] ℝ × ℝ × ℝ where
  toFun v := (v 0, v 1, v 2)
  invFun p := ![p.1, p.2.1, p.2.2]
  map_add' _ _ := rfl
  map_smul' _ _ := rfl
  left_inv v := by funext i; fin_cases i <;> rfl
  right_inv _ := rfl

/-- The linear map with the given matrix. -/
noncomputable def lin3 (A : Matrix (Fin 3) (Fin 3) ℝ) : ℝ × ℝ × ℝ →L[ℝ] ℝ × ℝ × ℝ :=
  LinearMap.toContinuousLinearMap ((tripleEquiv : (Fin 3 → ℝ) →ₗ[ℝ] ℝ × ℝ × ℝ) ∘ₗ (Matrix.toLin' A) ∘ₗ (tripleEquiv.symm : ℝ × ℝ × ℝ →ₗ[ℝ] (Fin 3 → ℝ)))

theorem lin3_apply (A : Matrix (Fin 3) (Fin 3) ℝ) (p : ℝ × ℝ × ℝ) : lin3 A p =
    (A 0 0 * p.1 + A 0 1 * p.2.1 + A 0 2 * p.2.2, A 1 0 * p.1 + A 1 1 * p.2.1 + A 1 2 * p.2.2, A 2 0 * p.1 + A 2 1 * p.2.1 + A 2 2 * p.2.2) := by
  have h : lin3 A p = tripleEquiv (Matrix.toLin' A (tripleEquiv.symm p)) := rfl
  have hs : tripleEquiv.symm p = ![p.1, p.2.1, p.2.2] := rfl
  have ht : ∀ v, tripleEquiv v = (v 0, v 1, v 2) := fun _ => rfl
  rw [h, hs, ht]
  simp [Matrix.mulVec, dotProduct, Fin.sum_univ_three]

theorem lin3_det (A : Matrix (Fin 3) (Fin 3) ℝ) : (lin3 A).det = A.det := by
  unfold lin3
  rw [ContinuousLinearMap.det, LinearMap.coe_toContinuousLinearMap, LinearMap.det_conj, LinearMap.det_toLin']

theorem lin3_injective {A : Matrix (Fin 3) (Fin 3) ℝ} (hA : A.det ≠ 0) : Function.Injective (lin3 A) := by
  have : Function.Injective (Matrix.toLin' A) := by
    rw [Matrix.toLin'_apply']; exact Matrix.mulVec_injective_iff_isUnit.2 ((Matrix.isUnit_iff_isUnit_det A).2 hA.isUnit)
  intro p q e
  have e : tripleEquiv (Matrix.toLin' A (tripleEquiv.symm p)) = tripleEquiv (Matrix.toLin' A (tripleEquiv.symm q)) := e
  exact tripleEquiv.symm.injective (this (tripleEquiv.injective e))

theorem affine_integral3 (A : Matrix (Fin 3) (Fin 3) ℝ) (x0 : ℝ × ℝ × ℝ) (hd : A.det ≠ 0) {g : ℝ × ℝ × ℝ → ℝ} (hg : Continuous g) :
    ∫ p in (fun q : ℝ × ℝ × ℝ => x0 + lin3 A q) '' refTet, g p =
      |A.det| * ∫ r in (0 : ℝ)..1, ∫ s in (0 : ℝ)..(1 - r), ∫ t in (0 : ℝ)..(1 - r - s), g (x0 + lin3 A (r, s, t)) := by
  have h2 : (volume : Measure (ℝ × ℝ)).IsAddHaarMeasure := Measure.prod.instIsAddHaarMeasure volume volume
  have : (volume : Measure (ℝ × ℝ × ℝ)).IsAddHaarMeasure := Measure.prod.instIsAddHaarMeasure volume volume
  rw [integral_image_eq_integral_abs_det_fderiv_smul volume refTet_compact.measurableSet (f' := fun _ => lin3 A)
    (fun x _ => ((lin3 A).hasFDerivAt.const_add _).hasFDerivWithinAt) ?_]
  · simp only [lin3_det, smul_eq_mul]
    rw [integral_const_mul, refTet_integral (h := fun q => g (x0 + lin3 A q)) (hg.comp (continuous_const.add (lin3 A).continuous))]
  · intro p _ q _ e
    exact lin3_injective hd (add_left_cancel e)

/-! ## Convex hulls -/

theorem refTri_convex : Convex ℝ refTri := by
  rintro p ⟨p1, p2, p3⟩ q ⟨q1, q2, q3⟩ a b ha hb hab
  refine ⟨?_, ?_, ?_⟩ <;> simp only [Prod.fst_add, Prod.snd_add, Prod.smul_fst, Prod.smul_snd, smul_eq_mul]
  · positivity
  · positivity
  · nlinarith [mul_le_mul_of_nonneg_left p3 ha, mul_le_mul_of_nonneg_left q3 hb]

theorem refTet_convex : Convex ℝ refTet := by
  rintro p ⟨p1, p2, p3, p4⟩ q ⟨q1, q2, q3, q4⟩ a b ha hb hab
  refine ⟨?_, ?_, ?_, ?_⟩ <;> simp only [Prod.fst_add, Prod.snd_add, Prod.smul_fst, Prod.smul_snd, smul_eq_mul]
  · positivity
  · positivity
  · positivity
  · nlinarith [mul_le_mul_of_nonneg_left p4 ha, mul_le_mul_of_nonneg_left q4 hb]

theorem tri_hull (a b c d x0 y0 : ℝ) : (fun q : ℝ × ℝ => ((x0, y0) : ℝ × ℝ) + lin2 a b c d q) '' refTri =
    convexHull ℝ {(x0, y0), (x0 + a, y0 + c), (x0 + b, y0 + d)} := by
  apply Set.Subset.antisymm
  · rintro _ ⟨p, ⟨p1, p2, p3⟩, rfl⟩
    have := (convex_convexHull ℝ {((x0, y0) : ℝ × ℝ), (x0 + a, y0 + c), (x0 + b, y0 + d)}).sum_mem (t := Finset.univ) (w := ![1 - p.1 - p.2, p.1, p.2])
      (z := ![(x0, y0), (x0 + a, y0 + c), (x0 + b, y0 + d)])
      (fun i _ => by fin_cases i <;> simp <;> linarith) (by simp [Fin.sum_univ_three]; ring)
      (fun i _ => subset_convexHull ℝ _ (by fin_cases i <;> simp))
    convert this using 1
    simp only [lin2_apply, Fin.sum_univ_three, Matrix.cons_val_zero, Matrix.cons_val_one, Matrix.cons_val_two, Matrix.head_cons, Matrix.tail_cons, Prod.smul_mk, Prod.mk_add_mk, smul_eq_mul, Prod.mk.injEq]
    constructor <;> ring
  · refine convexHull_min ?_ ?_
    · rintro p (rfl | rfl | rfl)
      · exact ⟨(0, 0), by simp [refTri], by simp [lin2_apply]⟩
      · exact ⟨(1, 0), by simp [refTri], by simp [lin2_apply]⟩
      · exact ⟨(0, 1), by simp [refTri], by simp [lin2_apply]⟩
    · rw [← Set.image_image (fun p => ((x0, y0) : ℝ × ℝ) + p) (fun q => lin2 a b c d q)]
      exact (refTri_convex.linear_image (lin2 a b c d : ℝ × ℝ →ₗ[ℝ] ℝ × ℝ)).translate _

theorem tet_hull (A : Matrix (Fin 3) (Fin 3) ℝ) (x0 : ℝ × ℝ × ℝ) : (fun q : ℝ × ℝ × ℝ => x0 + lin3 A q) '' refTet =
    convexHull ℝ {x0, x0 + (A 0 0, A 1 0, A 2 0), x0 + (A 0 1, A 1 1, A 2 1), x0 + (A 0 2, A 1 2, A 2 2)} := by
  apply Set.Subset.antisymm
  · rintro _ ⟨p, ⟨p1, p2, p3, p4⟩, rfl⟩
    have := (convex_convexHull ℝ {x0, x0 + (A 0 0, A 1 0, A 2 0), x0 + (A 0 1, A 1 1, A 2 1), x0 + (A 0 2, A 1 2, A 2 2)}).sum_mem (t := Finset.univ)
      (w := ![1 - p.1 - p.2.1 - p.2.2, p.1, p.2.1, p.2.2]) (z := ![x0, x0 + (A 0 0, A 1 0, A 2 0), x0 + (A 0 1, A 1 1, A 2 1), x0 + (A 0 2, A 1 2, A 2 2)])
      (fun i _ => by fin_cases i <;> simp <;> linarith) (by simp [Fin.sum_univ_four]; ring)
      (fun i _ => subset_convexHull ℝ _ (by fin_cases i <;> simp))
    convert this using 1
    obtain ⟨x, y, z⟩ := x0
    simp only [lin3_apply, Fin.sum_univ_four]
    simp
    refine ⟨?_, ?_, ?_⟩ <;> ring
  · refine convexHull_min ?_ ?_
    · rintro p (rfl | rfl | rfl | rfl)
      · exact ⟨(0, 0, 0), by simp [refTet], by simp [lin3_apply]⟩
      · exact ⟨(1, 0, 0), by simp [refTet], by simp [lin3_apply]⟩
      · exact ⟨(0, 1, 0), by simp [refTet], by simp [lin3_apply]⟩
      · exact ⟨(0, 0, 1), by simp [refTet], by simp [lin3_apply]⟩
    · rw [← Set.image_image (fun p => x0 + p) (fun q => lin3 A q)]
      exact (refTet_convex.linear_image (lin3 A : ℝ × ℝ × ℝ →ₗ[ℝ] ℝ × ℝ × ℝ)).translate _

end Gemlab.Analytical
