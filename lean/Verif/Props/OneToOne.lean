import Verif.Proofs.OneToOne
import Verif.Props.Scratchpad
import Verif.Props.Normals
import Verif.Spec.Analytical
import Verif.Proofs.Winding
import Verif.Props.Winding
import Mathlib.Topology.Order.IntermediateValue

/-!
# C79: The maps of cells are one-to-one
-/
namespace Gemlab.Scratchpad
open Gemlab.Shapes Gemlab.Spec.Analytical
noncomputable section

/-- The determinant of the Jacobian at a place. -/
def detAt (pad : Scratchpad) (ξ : Nat → ℝ) : ℝ :=
  detN pad.spaceNdim fun i j => ∑ m ∈ Finset.range pad.kind.nnode, pad.X m i * Shapes.calcDeriv pad.kind ξ m j

theorem zero_of_det {n : Nat} {J : Nat → Nat → ℝ} (hd : detN n J ≠ 0) {v : Nat → ℝ} (h : ∀ i < n, ∑ j ∈ Finset.range n, J i j * v j = 0) : ∀ j < n, v j = 0 := by
  unfold detN at hd
  have := Matrix.eq_zero_of_mulVec_eq_zero hd (v := fun j : Fin n => v j) (by
    funext i
    have := h i i.2
    rw [Finset.sum_range] at this
    exact this)
  intro j hj
  exact congrFun this ⟨j, hj⟩

theorem coords_difference {pad : Scratchpad} (hk : Quadratic pad.kind) (a b : Nat → ℝ) (i : Nat) :
    Shapes.calcCoords pad.kind pad.X a i - Shapes.calcCoords pad.kind pad.X b i =
      ∑ j ∈ Finset.range pad.kind.ndim, (∑ m ∈ Finset.range pad.kind.nnode, pad.X m i * Shapes.calcDeriv pad.kind (halfway a b) m j) * (a j - b j) := by
  unfold Shapes.calcCoords
  rw [← Finset.sum_sub_distrib]
  simp only [Finset.sum_mul]
  rw [Finset.sum_comm]
  refine Finset.sum_congr rfl fun m hm => ?_
  rw [← mul_sub, interp_difference hk a b (Finset.mem_range.1 hm), Finset.mul_sum]
  exact Finset.sum_congr rfl fun j _ => by ring

theorem jacobian_det {inv : MatInverse} (hinv : InverseSpec inv) {pad pad' : Scratchpad} (hd : pad.kind.ndim = pad.spaceNdim) {ξ : Nat → ℝ} {d : ℝ}
    (h : calcJacobian inv pad ξ = .ok (d, pad')) : d = detAt pad ξ ∧ d ≠ 0 := by
  have := (C31_det hinv h).1 hd
  obtain ⟨_, ⟨_, ji, _, rfl⟩ | ⟨h1, _⟩⟩ := calcJacobian_ok h
  · exact this
  · exact absurd hd h1

theorem halfway_point (r s t r' s' t' : ℝ) : halfway (point r s t) (point r' s' t') = point ((r + r') / 2) ((s + s') / 2) ((t + t') / 2) := by
  funext i
  unfold halfway point
  split_ifs <;> norm_num

theorem halfway_reference {c : GeoClass} {r s t r' s' t' : ℝ} (h : GaussSpec.InReference c r s t) (h' : GaussSpec.InReference c r' s' t') :
    GaussSpec.InReference c ((r + r') / 2) ((s + s') / 2) ((t + t') / 2) := by
  cases c <;> simp only [GaussSpec.InReference] at h h' ⊢ <;> refine ⟨?_, ?_⟩ <;> (try refine ⟨?_, ?_⟩) <;> (try refine ⟨?_, ?_⟩) <;> (try refine ⟨?_, ?_⟩) <;> (try refine ⟨?_, ?_⟩) <;> linarith

/-- If the Jacobian can be computed (and inverted) at all places of the reference cell, different local coordinates give different places: for all kinds with
interpolation functions of degree two at most (Tri3, Tri6, Qua4, Tet4, Tet10). -/
theorem C79_one_to_one {inv : MatInverse} (hinv : InverseSpec inv) {pad : Scratchpad} (hk : Quadratic pad.kind) (hd : pad.kind.ndim = pad.spaceNdim)
    (hreg : ∀ r s t, GaussSpec.InReference pad.kind.classOf r s t → ∃ R, calcJacobian inv pad (point r s t) = .ok R)
    {r s t r' s' t' : ℝ} (h : GaussSpec.InReference pad.kind.classOf r s t) (h' : GaussSpec.InReference pad.kind.classOf r' s' t')
    {x x' : Nat → ℝ} {p p' : Scratchpad} (hx : calcCoords pad pad.spaceNdim (point r s t) = .ok (x, p)) (hx' : calcCoords pad pad.spaceNdim (point r' s' t') = .ok (x', p'))
    (heq : ∀ i < pad.spaceNdim, x i = x' i) : r = r' ∧ s = s' ∧ t = t' := by
  have hok : pad.okXxt = true := by
    unfold calcCoords at hx
    split at hx
    · simp at hx
    · rename_i hn; simpa using hn
  rw [calcCoords_ok hok] at hx hx'
  simp only [Res.ok.injEq, Prod.mk.injEq] at hx hx'
  obtain ⟨rfl, -⟩ := hx
  obtain ⟨rfl, -⟩ := hx'
  obtain ⟨⟨d, q⟩, hR⟩ := hreg _ _ _ (halfway_reference h h')
  obtain ⟨hd1, hd2⟩ := jacobian_det hinv hd hR
  rw [hd1] at hd2
  unfold detAt at hd2
  have hz := zero_of_det hd2 (v := fun j => point r s t j - point r' s' t' j) (by
    intro i hi
    have := coords_difference hk (point r s t) (point r' s' t') i
    rw [heq i hi, sub_self, halfway_point, hd] at this
    exact this.symm)
  have hn : pad.kind.ndim = 1 ∧ pad.kind.classOf = .lin ∨ pad.kind.ndim = 2 ∧ (pad.kind.classOf = .tri ∨ pad.kind.classOf = .qua) ∨ pad.kind.ndim = 3 := by
    generalize pad.kind = k
    cases k <;> decide
  rw [← hd] at hz
  rcases hn with ⟨hn, hc⟩ | ⟨hn, hc⟩ | hn <;> rw [hn] at hz
  · rw [hc] at h h'
    simp only [GaussSpec.InReference] at h h'
    have z0 := hz 0 (by omega)
    simp only [point, if_pos] at z0
    exact ⟨by linarith, by linarith, by linarith⟩
  · have z0 := hz 0 (by omega)
    have z1 := hz 1 (by omega)
    simp [point] at z0 z1
    have ht : t = t' := by
      rcases hc with hc | hc <;> rw [hc] at h h' <;> simp only [GaussSpec.InReference] at h h' <;> linarith
    exact ⟨by linarith, by linarith, ht⟩
  · have z0 := hz 0 (by omega)
    have z1 := hz 1 (by omega)
    have z2 := hz 2 (by omega)
    simp [point] at z0 z1 z2
    exact ⟨by linarith, by linarith, by linarith⟩

/-! ## Quadrilaterals -/

/-- The position of node `m` of a pad in the plane. -/
def corner (pad : Scratchpad) (m : Nat) : ℝ × ℝ := (pad.X m 0, pad.X m 1)

/-- The corners of a triangle or quadrilateral in a pad. -/
def padCorners (pad : Scratchpad) : List (ℝ × ℝ) := if pad.kind.classOf = .tri then [corner pad 0, corner pad 1, corner pad 2] else [corner pad 0, corner pad 1, corner pad 2, corner pad 3]

/-- The determinant of a Qua4 is interpolated from its values at the corners, which are the signed areas of the corner triangles (over two). -/
theorem qua4_det {pad : Scratchpad} (hk : pad.kind = .qua4) (h2 : pad.spaceNdim = 2) (ξ : Nat → ℝ) :
    4 * detAt pad ξ = Shapes.calcInterp .qua4 ξ 0 * Mesh.sideOf (corner pad 3) (corner pad 0) (corner pad 1) + Shapes.calcInterp .qua4 ξ 1 * Mesh.sideOf (corner pad 0) (corner pad 1) (corner pad 2) +
      Shapes.calcInterp .qua4 ξ 2 * Mesh.sideOf (corner pad 1) (corner pad 2) (corner pad 3) + Shapes.calcInterp .qua4 ξ 3 * Mesh.sideOf (corner pad 2) (corner pad 3) (corner pad 0) := by
  unfold detAt
  rw [h2, detN_two, hk]
  simp only [GeoKind.nnode, Finset.sum_range_succ, Finset.sum_range_zero, zero_add]
  simp [Shapes.calcInterp, Shapes.calcDeriv, Shapes.interp, Shapes.deriv, qua4Interp, qua4Deriv, corner, Mesh.sideOf, eval_lit ξ]
  ring

theorem convex_of_four {a b c d : ℝ × ℝ} (t1 : 0 < Mesh.sideOf a b c) (t2 : 0 < Mesh.sideOf b c d) (t3 : 0 < Mesh.sideOf c d a) (t4 : 0 < Mesh.sideOf d a b) :
    Mesh.ConvexCcw [a, b, c, d] := by
  have z : ∀ x y : ℝ × ℝ, Mesh.sideOf x y x = 0 := by intro x y; unfold Mesh.sideOf; ring
  have z' : ∀ x y : ℝ × ℝ, Mesh.sideOf x y y = 0 := by intro x y; unfold Mesh.sideOf; ring
  have z'' : ∀ x y : ℝ × ℝ, Mesh.sideOf x x y = 0 := by intro x y; unfold Mesh.sideOf; ring
  have r : ∀ {x y w : ℝ × ℝ}, 0 < Mesh.sideOf x y w → 0 < Mesh.sideOf y w x := by intro x y w h; rw [Mesh.sideOf_cycle]; exact h
  have ne : ∀ {x y w : ℝ × ℝ}, 0 < Mesh.sideOf x y w → x ≠ y ∧ y ≠ w ∧ x ≠ w := by
    intro x y w h
    refine ⟨?_, ?_, ?_⟩ <;> rintro rfl
    · rw [z''] at h; exact lt_irrefl _ h
    · rw [z'] at h; exact lt_irrefl _ h
    · rw [z] at h; exact lt_irrefl _ h
  refine ⟨by simp, ?_, ?_⟩
  · simp only [List.nodup_cons, List.mem_cons, List.not_mem_nil, or_false, not_or, not_false_eq_true, List.nodup_nil, and_true]
    exact ⟨⟨(ne t1).1, (ne t1).2.2, (ne t3).2.1.symm⟩, ⟨(ne t1).2.1, (ne t2).2.2⟩, (ne t2).2.1⟩
  · simp only [Mesh.sidesOf, List.cons_append, List.nil_append, List.zip_cons_cons, List.zip_nil_right, List.mem_cons, List.not_mem_nil, or_false, forall_eq_or_imp, forall_eq, true_or, or_true, true_and, and_true]
    exact ⟨⟨.inr (.inr t1), .inr (.inr (r t4))⟩, ⟨.inr (.inr (r t1)), .inr (.inr t2)⟩, ⟨.inr (.inr t3), .inr (.inr (r t2))⟩, ⟨.inr (.inr t4), .inr (.inr (r t3))⟩⟩

theorem qua4_interp (r s t : ℝ) : Shapes.calcInterp .qua4 (point r s t) 0 = (1 - r) * (1 - s) / 4 ∧ Shapes.calcInterp .qua4 (point r s t) 1 = (1 + r) * (1 - s) / 4 ∧
    Shapes.calcInterp .qua4 (point r s t) 2 = (1 + r) * (1 + s) / 4 ∧ Shapes.calcInterp .qua4 (point r s t) 3 = (1 - r) * (1 + s) / 4 := by
  refine ⟨?_, ?_, ?_, ?_⟩ <;> simp [Shapes.calcInterp, Shapes.interp, qua4Interp, point, eval_lit] <;> ring

theorem qua4_coords {pad : Scratchpad} (hk : pad.kind = .qua4) (r s t : ℝ) (i : Nat) :
    4 * Shapes.calcCoords pad.kind pad.X (point r s t) i = (1 - r) * (1 - s) * pad.X 0 i + (1 + r) * (1 - s) * pad.X 1 i + (1 + r) * (1 + s) * pad.X 2 i + (1 - r) * (1 + s) * pad.X 3 i := by
  obtain ⟨e0, e1, e2, e3⟩ := qua4_interp r s t
  rw [hk]
  unfold Shapes.calcCoords
  simp only [GeoKind.nnode, Finset.sum_range_succ, Finset.sum_range_zero, zero_add]
  rw [e0, e1, e2, e3]; ring

theorem jacobian_exists {inv : MatInverse} (hreg : ∀ n a, detN n a ≠ 0 → ∃ R, inv n a = .ok R) {pad : Scratchpad} (hok : pad.okXxt = true) (hd : pad.kind.ndim = pad.spaceNdim)
    {ξ : Nat → ℝ} (h : detAt pad ξ ≠ 0) : ∃ R, calcJacobian inv pad ξ = .ok R := by
  obtain ⟨⟨d, ji⟩, hR⟩ := hreg _ _ h
  refine ⟨(d, { pad.fillJacobian ξ with invJacobian := ji }), ?_⟩
  unfold calcJacobian
  rw [hok]
  simp only [Bool.not_true, Bool.false_eq_true, if_false]
  have h1 : (pad.fillJacobian ξ).kind.ndim = (pad.fillJacobian ξ).spaceNdim := hd
  rw [if_pos h1]
  have h2 : inv (pad.fillJacobian ξ).spaceNdim (pad.fillJacobian ξ).jacobian = .ok (d, ji) := hR
  rw [h2]
  rfl

/-- A Qua4 is valid (the Jacobian can be computed and its determinant is positive everywhere) if and only if its corners form a convex counterclockwise
polygon. -/
theorem C79_qua4_valid {inv : MatInverse} (hinv : InverseSpec inv) (hreg : ∀ n a, detN n a ≠ 0 → ∃ R, inv n a = .ok R) {pad : Scratchpad}
    (hk : pad.kind = .qua4) (h2 : pad.spaceNdim = 2) (hok : pad.okXxt = true) :
    (∀ r s t, GaussSpec.InReference .qua r s t → ∃ d p, calcJacobian inv pad (point r s t) = .ok (d, p) ∧ 0 < d) ↔
      Mesh.ConvexCcw [corner pad 0, corner pad 1, corner pad 2, corner pad 3] := by
  have hd : pad.kind.ndim = pad.spaceNdim := by rw [hk, h2]; rfl
  constructor
  · intro h
    have get : ∀ r s, GaussSpec.InReference .qua r s 0 → 0 < 4 * detAt pad (point r s 0) := by
      intro r s hrs
      obtain ⟨d, p, h1, h3⟩ := h r s 0 hrs
      rw [(jacobian_det hinv hd h1).1] at h3
      linarith
    have g0 := get (-1) (-1) (by norm_num [GaussSpec.InReference])
    have g1 := get 1 (-1) (by norm_num [GaussSpec.InReference])
    have g2 := get 1 1 (by norm_num [GaussSpec.InReference])
    have g3 := get (-1) 1 (by norm_num [GaussSpec.InReference])
    rw [qua4_det hk h2] at g0 g1 g2 g3
    obtain ⟨a0, a1, a2, a3⟩ := qua4_interp (-1) (-1) 0
    obtain ⟨b0, b1, b2, b3⟩ := qua4_interp 1 (-1) 0
    obtain ⟨c0, c1, c2, c3⟩ := qua4_interp 1 1 0
    obtain ⟨d0, d1, d2, d3⟩ := qua4_interp (-1) 1 0
    rw [a0, a1, a2, a3] at g0
    rw [b0, b1, b2, b3] at g1
    rw [c0, c1, c2, c3] at g2
    rw [d0, d1, d2, d3] at g3
    norm_num at g0 g1 g2 g3
    exact convex_of_four g1 g2 g3 g0
  · intro h r s t hrs
    obtain ⟨t1, t2, t3, t4⟩ := Mesh.convex_four h
    simp only [GaussSpec.InReference] at hrs
    obtain ⟨r1, r2, s1, s2, -⟩ := hrs
    have hp : 0 < detAt pad (point r s t) := by
      have e := qua4_det hk h2 (point r s t)
      obtain ⟨e0, e1, e2, e3⟩ := qua4_interp r s t
      have n0 : 0 ≤ Shapes.calcInterp .qua4 (point r s t) 0 := by rw [e0]; exact div_nonneg (mul_nonneg (by linarith) (by linarith)) (by norm_num)
      have n1 : 0 ≤ Shapes.calcInterp .qua4 (point r s t) 1 := by rw [e1]; exact div_nonneg (mul_nonneg (by linarith) (by linarith)) (by norm_num)
      have n2 : 0 ≤ Shapes.calcInterp .qua4 (point r s t) 2 := by rw [e2]; exact div_nonneg (mul_nonneg (by linarith) (by linarith)) (by norm_num)
      have n3 : 0 ≤ Shapes.calcInterp .qua4 (point r s t) 3 := by rw [e3]; exact div_nonneg (mul_nonneg (by linarith) (by linarith)) (by norm_num)
      have sum : Shapes.calcInterp .qua4 (point r s t) 0 + Shapes.calcInterp .qua4 (point r s t) 1 + Shapes.calcInterp .qua4 (point r s t) 2 + Shapes.calcInterp .qua4 (point r s t) 3 = 1 := by
        rw [e0, e1, e2, e3]; ring
      have m0 := mul_nonneg n0 t4.le
      have m1 := mul_nonneg n1 t1.le
      have m2 := mul_nonneg n2 t2.le
      have m3 := mul_nonneg n3 t3.le
      have hnn : 0 ≤ detAt pad (point r s t) := by linarith
      refine lt_of_le_of_ne hnn fun h0 => ?_
      have z0 := (mul_eq_zero.1 (show _ = (0:ℝ) by linarith : Shapes.calcInterp .qua4 (point r s t) 0 * _ = 0)).resolve_right t4.ne'
      have z1 := (mul_eq_zero.1 (show _ = (0:ℝ) by linarith : Shapes.calcInterp .qua4 (point r s t) 1 * _ = 0)).resolve_right t1.ne'
      have z2 := (mul_eq_zero.1 (show _ = (0:ℝ) by linarith : Shapes.calcInterp .qua4 (point r s t) 2 * _ = 0)).resolve_right t2.ne'
      have z3 := (mul_eq_zero.1 (show _ = (0:ℝ) by linarith : Shapes.calcInterp .qua4 (point r s t) 3 * _ = 0)).resolve_right t3.ne'
      linarith
    obtain ⟨⟨d, q⟩, hR⟩ := jacobian_exists hreg hok hd hp.ne'
    exact ⟨d, q, hR, by rw [(jacobian_det hinv hd hR).1]; exact hp⟩

/-- Collinear points. -/
theorem exists_between {L R p : ℝ × ℝ} (hne : L ≠ R) (h : Mesh.sideOf L R p = 0) : ∃ τ : ℝ, p.1 = L.1 + τ * (R.1 - L.1) ∧ p.2 = L.2 + τ * (R.2 - L.2) := by
  unfold Mesh.sideOf at h
  by_cases h1 : R.1 - L.1 = 0
  · have h2 : R.2 - L.2 ≠ 0 := fun h2 => hne (Prod.ext (by linarith) (by linarith))
    refine ⟨(p.2 - L.2) / (R.2 - L.2), ?_, by rw [div_mul_cancel₀ _ h2]; ring⟩
    rw [h1] at h ⊢
    have : (p.1 - L.1) * (R.2 - L.2) = 0 := by linarith
    have := (mul_eq_zero.1 this).resolve_right h2
    linarith
  · refine ⟨(p.1 - L.1) / (R.1 - L.1), by rw [div_mul_cancel₀ _ h1]; ring, ?_⟩
    field_simp
    linarith

/-- Every point of a convex quadrilateral is the place of some local coordinates. -/
theorem quad_onto {a b c d p : ℝ × ℝ} (t1 : 0 < Mesh.sideOf a b c) (t2 : 0 < Mesh.sideOf b c d) (t3 : 0 < Mesh.sideOf c d a) (t4 : 0 < Mesh.sideOf d a b)
    (p1 : 0 ≤ Mesh.sideOf a b p) (p2 : 0 ≤ Mesh.sideOf b c p) (p3 : 0 ≤ Mesh.sideOf c d p) (p4 : 0 ≤ Mesh.sideOf d a p) :
    ∃ r s : ℝ, -1 ≤ r ∧ r ≤ 1 ∧ -1 ≤ s ∧ s ≤ 1 ∧
      4 * p.1 = (1 - r) * (1 - s) * a.1 + (1 + r) * (1 - s) * b.1 + (1 + r) * (1 + s) * c.1 + (1 - r) * (1 + s) * d.1 ∧
      4 * p.2 = (1 - r) * (1 - s) * a.2 + (1 + r) * (1 - s) * b.2 + (1 + r) * (1 + s) * c.2 + (1 - r) * (1 + s) * d.2 := by
  let L : ℝ → ℝ × ℝ := fun s => (((1 - s) * a.1 + (1 + s) * d.1) / 2, ((1 - s) * a.2 + (1 + s) * d.2) / 2)
  let R : ℝ → ℝ × ℝ := fun s => (((1 - s) * b.1 + (1 + s) * c.1) / 2, ((1 - s) * b.2 + (1 + s) * c.2) / 2)
  have hcont : ContinuousOn (fun s => Mesh.sideOf (L s) (R s) p) (Set.Icc (-1) 1) := by
    apply Continuous.continuousOn
    simp only [Mesh.sideOf, L, R]
    fun_prop
  have e1 : Mesh.sideOf (L (-1)) (R (-1)) p = Mesh.sideOf a b p := by simp only [Mesh.sideOf, L, R]; ring
  have e2 : Mesh.sideOf (L 1) (R 1) p = -Mesh.sideOf c d p := by simp only [Mesh.sideOf, L, R]; ring
  obtain ⟨s, ⟨s1, s2⟩, hs⟩ := intermediate_value_Icc' (by norm_num : (-1 : ℝ) ≤ 1) hcont (show (0 : ℝ) ∈ Set.Icc _ _ from ⟨by rw [e2]; linarith, by rw [e1]; linarith⟩)
  dsimp only at hs
  have hA : 0 < Mesh.sideOf b c (L s) := by
    have e : 2 * Mesh.sideOf b c (L s) = (1 - s) * Mesh.sideOf a b c + (1 + s) * Mesh.sideOf b c d := by simp only [Mesh.sideOf, L]; ring
    rcases lt_or_ge s 1 with h | h
    · have q1 := mul_pos (by linarith : 0 < 1 - s) t1
      have q2 := mul_nonneg (by linarith : 0 ≤ 1 + s) t2.le
      linarith
    · have : s = 1 := le_antisymm s2 h
      rw [this] at e ⊢
      linarith
  have hB : 0 < Mesh.sideOf d a (R s) := by
    have e : 2 * Mesh.sideOf d a (R s) = (1 - s) * Mesh.sideOf d a b + (1 + s) * Mesh.sideOf c d a := by simp only [Mesh.sideOf, R]; ring
    rcases lt_or_ge s 1 with h | h
    · have q1 := mul_pos (by linarith : 0 < 1 - s) t4
      have q2 := mul_nonneg (by linarith : 0 ≤ 1 + s) t3.le
      linarith
    · have : s = 1 := le_antisymm s2 h
      rw [this] at e ⊢
      linarith
  have hne : L s ≠ R s := by
    intro h
    rw [h] at hA
    have : Mesh.sideOf b c (R s) = 0 := by simp only [Mesh.sideOf, R]; ring
    linarith
  obtain ⟨τ, x1, x2⟩ := exists_between hne hs
  have f1 : Mesh.sideOf b c p = (1 - τ) * Mesh.sideOf b c (L s) := by
    have : Mesh.sideOf b c p = (1 - τ) * Mesh.sideOf b c (L s) + τ * Mesh.sideOf b c (R s) := by unfold Mesh.sideOf; rw [x1, x2]; ring
    have z : Mesh.sideOf b c (R s) = 0 := by simp only [Mesh.sideOf, R]; ring
    rw [this, z]; ring
  have f2 : Mesh.sideOf d a p = τ * Mesh.sideOf d a (R s) := by
    have : Mesh.sideOf d a p = (1 - τ) * Mesh.sideOf d a (L s) + τ * Mesh.sideOf d a (R s) := by unfold Mesh.sideOf; rw [x1, x2]; ring
    have z : Mesh.sideOf d a (L s) = 0 := by simp only [Mesh.sideOf, L]; ring
    rw [this, z]; ring
  have g1 : 0 ≤ 1 - τ := by
    by_contra h
    push Not at h
    have := mul_neg_of_neg_of_pos h hA
    linarith
  have g2 : 0 ≤ τ := by
    by_contra h
    push Not at h
    have := mul_neg_of_neg_of_pos h hB
    linarith
  refine ⟨2 * τ - 1, s, by linarith, by linarith, s1, s2, ?_, ?_⟩
  · rw [x1]; simp only [L, R]; ring
  · rw [x2]; simp only [L, R]; ring

/-- The places of a point with local coordinates in the reference square. -/
theorem C79_qua4_image {pad : Scratchpad} (hk : pad.kind = .qua4) (h2 : pad.spaceNdim = 2) (hok : pad.okXxt = true)
    (hc : Mesh.ConvexCcw [corner pad 0, corner pad 1, corner pad 2, corner pad 3]) (p : ℝ × ℝ) :
    (Mesh.InClosedPolygon [corner pad 0, corner pad 1, corner pad 2, corner pad 3] p ↔
      ∃ r s x q, GaussSpec.InReference .qua r s 0 ∧ calcCoords pad 2 (point r s 0) = .ok (x, q) ∧ x 0 = p.1 ∧ x 1 = p.2) ∧
    ∀ r s x q r' s' x' q', GaussSpec.InReference .qua r s 0 → calcCoords pad 2 (point r s 0) = .ok (x, q) → x 0 = p.1 → x 1 = p.2 →
      GaussSpec.InReference .qua r' s' 0 → calcCoords pad 2 (point r' s' 0) = .ok (x', q') → x' 0 = p.1 → x' 1 = p.2 → r = r' ∧ s = s' := by
  obtain ⟨t1, t2, t3, t4⟩ := Mesh.convex_four hc
  have r : ∀ {x y w : ℝ × ℝ}, 0 < Mesh.sideOf x y w → 0 < Mesh.sideOf y w x := by intro x y w h; rw [Mesh.sideOf_cycle]; exact h
  have z : ∀ x y : ℝ × ℝ, Mesh.sideOf x y x = 0 := by intro x y; unfold Mesh.sideOf; ring
  have z' : ∀ x y : ℝ × ℝ, Mesh.sideOf x y y = 0 := by intro x y; unfold Mesh.sideOf; ring
  have hco : ∀ ξ, calcCoords pad 2 ξ = .ok (Shapes.calcCoords pad.kind pad.X ξ, pad.calcInterp ξ) := by
    intro ξ
    rw [← h2]
    exact calcCoords_ok hok ξ
  refine ⟨⟨?_, ?_⟩, ?_⟩
  · intro h
    obtain ⟨r, s, r1, r2, s1, s2, e1, e2⟩ := quad_onto t1 t2 t3 t4 (h (corner pad 0, corner pad 1) (by simp [Mesh.sidesOf])) (h (corner pad 1, corner pad 2) (by simp [Mesh.sidesOf]))
      (h (corner pad 2, corner pad 3) (by simp [Mesh.sidesOf])) (h (corner pad 3, corner pad 0) (by simp [Mesh.sidesOf]))
    refine ⟨r, s, _, _, ⟨r1, r2, s1, s2, rfl⟩, hco _, ?_, ?_⟩
    · have := qua4_coords hk r s 0 0
      simp only [corner] at e1
      linarith
    · have := qua4_coords hk r s 0 1
      simp only [corner] at e2
      linarith
  · rintro ⟨u, v, x, q, ⟨u1, u2, v1, v2, -⟩, hx, e1, e2⟩
    rw [hco] at hx
    simp only [Res.ok.injEq, Prod.mk.injEq] at hx
    obtain ⟨rfl, -⟩ := hx
    have c1 := qua4_coords hk u v 0 0
    have c2 := qua4_coords hk u v 0 1
    rw [e1] at c1
    rw [e2] at c2
    have w0 : 0 ≤ (1 - u) * (1 - v) := mul_nonneg (by linarith) (by linarith)
    have w1 : 0 ≤ (1 + u) * (1 - v) := mul_nonneg (by linarith) (by linarith)
    have w2 : 0 ≤ (1 + u) * (1 + v) := mul_nonneg (by linarith) (by linarith)
    have w3 : 0 ≤ (1 - u) * (1 + v) := mul_nonneg (by linarith) (by linarith)
    have key : ∀ e f : ℝ × ℝ, 0 ≤ Mesh.sideOf e f (corner pad 0) → 0 ≤ Mesh.sideOf e f (corner pad 1) → 0 ≤ Mesh.sideOf e f (corner pad 2) → 0 ≤ Mesh.sideOf e f (corner pad 3) →
        0 ≤ Mesh.sideOf e f p := by
      intro e f k0 k1 k2 k3
      have : 4 * Mesh.sideOf e f p = (1 - u) * (1 - v) * Mesh.sideOf e f (corner pad 0) + (1 + u) * (1 - v) * Mesh.sideOf e f (corner pad 1) +
          (1 + u) * (1 + v) * Mesh.sideOf e f (corner pad 2) + (1 - u) * (1 + v) * Mesh.sideOf e f (corner pad 3) := by
        simp only [Mesh.sideOf, corner]
        linear_combination (f.1 - e.1) * c2 - (f.2 - e.2) * c1
      have := mul_nonneg w0 k0
      have := mul_nonneg w1 k1
      have := mul_nonneg w2 k2
      have := mul_nonneg w3 k3
      linarith
    intro sd hs
    simp only [Mesh.sidesOf, List.cons_append, List.nil_append, List.zip_cons_cons, List.zip_nil_right, List.mem_cons, List.not_mem_nil, or_false] at hs
    rcases hs with rfl | rfl | rfl | rfl
    · exact key _ _ (z _ _).ge (z' _ _).ge t1.le (r t4).le
    · exact key _ _ (r t1).le (z _ _).ge (z' _ _).ge t2.le
    · exact key _ _ t3.le (r t2).le (z _ _).ge (z' _ _).ge
    · exact key _ _ (z' _ _).ge t4.le (r t3).le (z _ _).ge
  · intro u v x q u' v' x' q' h1 h3 e1 e2 h4 h5 e3 e4
    have hd : pad.kind.ndim = pad.spaceNdim := by rw [hk, h2]; rfl
    have hcl : pad.kind.classOf = .qua := by rw [hk]; rfl
    have hv := (C79_qua4_valid exactInverse_spec (fun n a hna => ⟨_, by unfold exactInverse; rw [if_neg hna]⟩) hk h2 hok).2 hc
    rw [← h2] at h3 h5
    have := C79_one_to_one exactInverse_spec (by rw [hk]; decide) hd (fun r s t hrst => by
      obtain ⟨d, p, hh, -⟩ := hv r s t (by rw [← hcl]; exact hrst)
      exact ⟨_, hh⟩) (by rw [hcl]; exact h1) (by rw [hcl]; exact h4) h3 h5 (by
        intro i hi
        rw [h2] at hi
        interval_cases i
        · rw [e1, e3]
        · rw [e2, e4])
    exact ⟨this.1, this.2.1⟩

end
end Gemlab.Scratchpad
