import Verif.Props.Exactness
import Verif.Props.Definite2

/-!
# C100, continued: where the hypotheses hold, and where the default rule is not good enough
-/
namespace Gemlab.Props.Integ
open Gemlab Gemlab.Integ Gemlab.Spec.Integ Gemlab.Scratchpad Gemlab.Analytical Gemlab.Spec.Analytical Gemlab.Spec.Exactness Gemlab.Exactness
open Gemlab.GaussSpec
noncomputable section

/-- **C100, default rules.** The default rule of every kind of element is good enough, except for Qua17. -/
theorem C100_default (args : CommonArgs) (hk : args.pad.kind ≠ .qua17) (hp : args.axisymmetric = false) (hg : args.gauss = (GaussTable.new args.pad.kind).toGauss) :
    GoodRule args := by
  refine ⟨hp, ?_⟩
  have : ∀ k : GeoKind, k ≠ .qua17 → ∃ n e, (n, e) ∈ rules k.classOf ∧ GaussTable.newSized k.classOf n = .ok (GaussTable.new k) ∧ Enough k e := by
    intro k hk
    cases k
    case lin2 => exact ⟨2, .total 3, by simp [GeoKind.classOf, rules], rfl, by decide⟩
    case lin3 => exact ⟨3, .total 5, by simp [GeoKind.classOf, rules], rfl, by decide⟩
    case lin4 => exact ⟨4, .total 7, by simp [GeoKind.classOf, rules], rfl, by decide⟩
    case lin5 => exact ⟨5, .total 9, by simp [GeoKind.classOf, rules], rfl, by decide⟩
    case tri3 => exact ⟨3, .total 2, by simp [GeoKind.classOf, rules], rfl, by decide⟩
    case tri6 => exact ⟨7, .total 5, by simp [GeoKind.classOf, rules], rfl, by decide⟩
    case tri10 => exact ⟨12, .total 6, by simp [GeoKind.classOf, rules], rfl, by decide⟩
    case tri15 => exact ⟨16, .total 8, by simp [GeoKind.classOf, rules], rfl, by decide⟩
    case qua4 => exact ⟨4, .perVariable 3, by simp [GeoKind.classOf, rules], rfl, by decide⟩
    case qua8 => exact ⟨9, .perVariable 5, by simp [GeoKind.classOf, rules], rfl, by decide⟩
    case qua9 => exact ⟨9, .perVariable 5, by simp [GeoKind.classOf, rules], rfl, by decide⟩
    case qua12 => exact ⟨16, .perVariable 7, by simp [GeoKind.classOf, rules], rfl, by decide⟩
    case qua16 => exact ⟨16, .perVariable 7, by simp [GeoKind.classOf, rules], rfl, by decide⟩
    case qua17 => exact absurd rfl hk
    case tet4 => exact ⟨4, .total 2, by simp [GeoKind.classOf, rules], rfl, by decide⟩
    case tet10 => exact ⟨14, .total 5, by simp [GeoKind.classOf, rules], rfl, by decide⟩
    case tet20 => exact ⟨24, .total 6, by simp [GeoKind.classOf, rules], rfl, by decide⟩
    case hex8 => exact ⟨8, .perVariable 3, by simp [GeoKind.classOf, rules], rfl, by decide⟩
    case hex20 => exact ⟨27, .perVariable 5, by simp [GeoKind.classOf, rules], rfl, by decide⟩
    case hex32 => exact ⟨64, .perVariable 7, by simp [GeoKind.classOf, rules], rfl, by decide⟩
  obtain ⟨n, e, h1, h2, h3⟩ := this _ hk
  exact ⟨n, e, _, h1, h2, hg, h3⟩

theorem exists_inverse {d : Nat} {A : Nat → Nat → ℝ} (h : detN d A ≠ 0) : ∃ M : Nat → Nat → ℝ,
    (∀ i < d, ∀ j < d, ∑ l ∈ Finset.range d, A i l * M l j = if i = j then 1 else 0) ∧
    ∀ i < d, ∀ j < d, ∑ l ∈ Finset.range d, M i l * A l j = if i = j then 1 else 0 := by
  let a : Matrix (Fin d) (Fin d) ℝ := Matrix.of fun i j => A i j
  have hu : IsUnit a.det := by rw [isUnit_iff_ne_zero]; exact h
  refine ⟨fun i j => if hij : i < d ∧ j < d then a⁻¹ ⟨i, hij.1⟩ ⟨j, hij.2⟩ else 0, fun i hi j hj => ?_, fun i hi j hj => ?_⟩
  · have := congrFun (congrFun (Matrix.mul_nonsing_inv a hu) ⟨i, hi⟩) ⟨j, hj⟩
    rw [Matrix.mul_apply, Matrix.one_apply] at this
    rw [Finset.sum_range]
    simp only [Fin.mk.injEq] at this
    rw [← this]
    exact Finset.sum_congr rfl fun l _ => congrArg (A i l * ·) (dif_pos (⟨l.2, hj⟩ : (l : Nat) < d ∧ j < d))
  · have := congrFun (congrFun (Matrix.nonsing_inv_mul a hu) ⟨i, hi⟩) ⟨j, hj⟩
    rw [Matrix.mul_apply, Matrix.one_apply] at this
    rw [Finset.sum_range]
    simp only [Fin.mk.injEq] at this
    rw [← this]
    exact Finset.sum_congr rfl fun l _ => congrArg (· * A l j) (dif_pos (⟨hi, l.2⟩ : i < d ∧ (l : Nat) < d))

/-- **C100, affine elements.** Every affine image of the reference element with a non-zero Jacobian determinant meets the hypotheses. -/
theorem C100_affine (pad : Scratchpad) (hf : pad.kind.ndim = pad.spaceNdim) (ha : Spec.Definite.Affine pad) {ξ₀ : Nat → ℝ} (hdet : detJ pad ξ₀ ≠ 0) :
    ∃ b A M B, AffineImage pad b A M ∧ IsGradientField pad B := by
  obtain ⟨b, A, hA⟩ := ha
  have hj : ∀ ξ, ∀ i < pad.spaceNdim, ∀ j < pad.spaceNdim, jac pad ξ i j = A i j := by
    intro ξ i hi j hj
    exact Definite.jac_affine pad (b := b) (fun m hm => by rw [hA m hm i hi, hf]) ξ (by rw [hf]; exact hj)
  have e : detJ pad ξ₀ = detN pad.spaceNdim A := by
    unfold detJ detN
    congr 1
    ext i j
    exact hj ξ₀ i i.2 j j.2
  rw [e] at hdet
  obtain ⟨M, h1, h2⟩ := exists_inverse hdet
  refine ⟨b, A, M, fun ξ m l => ∑ a ∈ Finset.range pad.spaceNdim, Shapes.calcDeriv pad.kind ξ m a * M a l, ⟨hf, hA, h1⟩, fun ξ m hm j hj' => ?_⟩
  rw [Finset.sum_congr rfl fun i hi => by rw [hj ξ i (Finset.mem_range.1 hi) j hj', Finset.sum_mul], Finset.sum_comm]
  rw [Finset.sum_congr rfl fun a hal => by
    rw [Finset.sum_congr rfl fun i _ => mul_assoc _ _ _, ← Finset.mul_sum, h2 a (Finset.mem_range.1 hal) j hj']]
  simp [hj']

/-- **C100, triangles and tetrahedra.** All elements of these kinds are affine images. -/
theorem C100_simplex (pad : Scratchpad) (hk : (pad.kind = .tri3 ∧ pad.spaceNdim = 2) ∨ (pad.kind = .tet4 ∧ pad.spaceNdim = 3)) : Spec.Definite.Affine pad := by
  refine ⟨fun i => pad.X 0 i, fun i j => pad.X (j + 1) i - pad.X 0 i, fun m hm i hi => ?_⟩
  rcases hk with ⟨h1, h2⟩ | ⟨h1, h2⟩
  · rw [h1] at hm ⊢
    rw [h2]
    have hm : m < 3 := hm
    have r : ∀ a < 3, ∀ j < 2, (Shapes.refCoord .tri3 a j : ℝ) = if a = j + 1 then 1 else 0 := by
      intro a ha j hj
      have q : ∀ a < 3, ∀ j < 2, Shapes.refCoordQ .tri3 a j = if a = j + 1 then 1 else 0 := by decide +kernel
      unfold Shapes.refCoord
      rw [q a ha j hj]
      split <;> simp
    rw [Finset.sum_congr rfl fun j hj => by rw [r m hm j (Finset.mem_range.1 hj)]]
    interval_cases m <;> simp [Finset.sum_range_succ]
  · rw [h1] at hm ⊢
    rw [h2]
    have hm : m < 4 := hm
    have r : ∀ a < 4, ∀ j < 3, (Shapes.refCoord .tet4 a j : ℝ) = if a = j + 1 then 1 else 0 := by
      intro a ha j hj
      have q : ∀ a < 4, ∀ j < 3, Shapes.refCoordQ .tet4 a j = if a = j + 1 then 1 else 0 := by decide +kernel
      unfold Shapes.refCoord
      rw [q a ha j hj]
      split <;> simp
    rw [Finset.sum_congr rfl fun j hj => by rw [r m hm j (Finset.mem_range.1 hj)]]
    interval_cases m <;> simp [Finset.sum_range_succ]

/-- The hypotheses are met: reference elements of all kinds (except Qua17 and lines), with their default tables. -/
example (k : GeoKind) (hk : k ≠ .qua17) (hd : 2 ≤ k.ndim) : let args := CommonArgs.new (referencePad k) (GaussTable.new k).toGauss
    GoodRule args ∧ (∃ b A M B, AffineImage args.pad b A M ∧ IsGradientField args.pad B) ∧
      ∀ p < args.gauss.npoint, ∃ r, args.pad.calcGradient exactInverse (args.gauss.coords p) = .ok r := by
  intro args
  refine ⟨C100_default args hk rfl rfl, ?_, fun p _ => ?_⟩
  · refine C100_affine args.pad rfl ⟨fun _ => 0, fun i j => if i = j then 1 else 0, fun m _ i hi => ?_⟩ (ξ₀ := fun _ => 0)
      (by change detJ (referencePad k) _ ≠ 0; rw [detJ_reference k hd]; exact one_ne_zero)
    have hi : i < k.ndim := hi
    simp [args, CommonArgs.new, Scratchpad.X, referencePad, hi]
  · obtain ⟨⟨d, q, hq⟩, _⟩ := exists_gradient k (args.gauss.coords p) (fun _ => 0)
    exact ⟨_, hq⟩

/-- The quadrature of an expression with a table, as a rational number. -/
def quadPE (t : GaussTable) (e : PE) : ℚ := (t.data.map fun r => GaussRow.get r 3 * e.evalQ (fun i => GaussRow.get r i)).sum

theorem quadPE_eq (t : GaussTable) (e : PE) :
    ∑ p ∈ Finset.range t.toGauss.npoint, t.toGauss.weight p * PE.eval (t.toGauss.coords p) e = ((quadPE t e : ℚ) : ℝ) := by
  unfold quadPE
  have : ∀ l : List GaussRow, (((l.map fun r => GaussRow.get r 3 * e.evalQ (fun i => GaussRow.get r i)).sum : ℚ) : ℝ) =
      (l.map fun r => ((GaussRow.get r 3 : ℚ) : ℝ) * PE.eval (fun i => ((GaussRow.get r i : ℚ) : ℝ)) e).sum := by
    intro l
    induction l with
    | nil => simp
    | cons x l ih => rw [List.map_cons, List.sum_cons, List.map_cons, List.sum_cons, Rat.cast_add, ih, Rat.cast_mul, PE.eval_cast]
  rw [this, ← Fin.sum_univ_fun_getElem]
  change ∑ p ∈ Finset.range t.data.length, _ = _
  rw [Finset.sum_range]
  refine Finset.sum_congr rfl fun p _ => ?_
  have e : t.data.getD p (0, 0, 0, 0) = t.data[p] := by rw [List.getD_eq_getElem?_getD, List.getElem?_eq_getElem p.2]; rfl
  simp only [GaussTable.toGauss, Gauss.coords, Gauss.weight, e]
  rfl

theorem qua17_numbers : (Np .qua17 4 * Np .qua17 4).norm.isSome = true ∧ quadPE (GaussTable.new .qua17) (Np .qua17 4 * Np .qua17 4) < 3 / 10 ∧
    41 / 100 < intPE .qua (Np .qua17 4 * Np .qua17 4) := by decide +kernel

/-- **C100, Qua17.** The default rule is not good enough for Qua17: on the reference square, the entry of node 4 in the matrix of products of shape functions
is less than 0.3, but the integral is greater than 0.41. -/
theorem C100_qua17 : let pad := referencePad .qua17
    ∃ k' p', mat01Nsn exactInverse ⟨17, 17, fun _ => 0⟩ (CommonArgs.new pad (GaussTable.new .qua17).toGauss) (fun _ _ _ => .ok 1) = (k', .ok p') ∧
      k'.val (4, 4) < 3 / 10 ∧ 41 / 100 < elementIntegral pad (fun ξ => N pad 4 ξ * N pad 4 ξ) := by
  intro pad
  have hdet := fun ξ => detJ_reference .qua17 (by decide) ξ
  have hr : ∀ p, ∃ r, pad.calcGradient exactInverse ((GaussTable.new .qua17).toGauss.coords p) = .ok r := fun p => by
    obtain ⟨⟨d, q, hq⟩, _⟩ := exists_gradient .qua17 ((GaussTable.new .qua17).toGauss.coords p) (fun _ => 0)
    exact ⟨_, hq⟩
  choose r hr using hr
  obtain ⟨k', p', e, h⟩ := C37_mat_01_nsn exactInverse_spec ⟨17, 17, fun _ => 0⟩ (CommonArgs.new pad (GaussTable.new .qua17).toGauss) (fun _ _ _ => .ok 1) (fun _ => 1)
    (fun p => (r p).2.gradient) (by simp [CommonArgs.new, pad, referencePad, GeoKind.nnode]) (by simp [CommonArgs.new, pad, referencePad, GeoKind.nnode])
    (fun p _ => ⟨⟨_, hr p⟩, gradient_exists exactInverse_spec (d := (r p).1) (hr p)⟩) (fun p _ bb _ => rfl)
  obtain ⟨n1, n2, n3⟩ := qua17_numbers
  refine ⟨k', p', e, ?_, ?_⟩
  · have a := added2_eq h (m := 4) (n := 4) (by decide) (by decide)
    have : k'.val (4, 4) = ((quadPE (GaussTable.new .qua17) (Np .qua17 4 * Np .qua17 4) : ℚ) : ℝ) := by
      rw [← quadPE_eq]
      have e1 : k'.val (4, 4) = added2 (CommonArgs.new pad (GaussTable.new .qua17).toGauss) ⟨17, 17, fun _ => 0⟩ k' (0 + 4) (0 + 4) := by
        unfold added2; simp
      rw [e1]
      refine Eq.trans a ?_
      unfold Spec.Integ.quadrature factor
      refine Finset.sum_congr rfl fun p _ => ?_
      simp only [CommonArgs.new, Bool.false_eq_true, if_false, mul_one, one_mul]
      rw [hdet, PE.eval_mul]
      simp only [mul_one]
      rfl
    rw [this]
    have := (Rat.cast_lt (K := ℝ)).2 n2
    push_cast at this
    exact this
  · rw [element_expr hdet 1 (Np .qua17 4 * Np .qua17 4) n1 (f := fun ξ => N pad 4 ξ * N pad 4 ξ) (fun ξ => by rw [one_mul, PE.eval_mul]; rfl), one_mul, one_mul]
    have := (Rat.cast_lt (K := ℝ)).2 n3
    push_cast at this
    exact this

end
end Gemlab.Props.Integ
