import Verif.Props.OneToOne
import Verif.Props.MeshPad
import Verif.Props.Check
import Verif.Props.Block5

/-!
# C79: triangles, tetrahedra, cells of meshes; what the checks guarantee
-/
namespace Gemlab.Scratchpad
open Gemlab.Shapes Gemlab.Spec.Analytical
noncomputable section

theorem simplex_deriv {k : GeoKind} (hk : k = .tri3 ∨ k = .tet4) (ξ ξ' : Nat → ℝ) : Shapes.calcDeriv k ξ = Shapes.calcDeriv k ξ' := by
  have h : ∀ r ∈ Shapes.deriv k, ∀ e ∈ r, PE.eval ξ e = PE.eval ξ' e := by
    rcases hk with rfl | rfl <;> simp [Shapes.deriv, tri3Deriv, tet4Deriv]
  funext m j
  unfold Shapes.calcDeriv
  by_cases hm : m < (Shapes.deriv k).length
  · rw [List.getD_eq_getElem _ _ hm]
    by_cases hj : j < ((Shapes.deriv k)[m]).length
    · rw [List.getD_eq_getElem _ _ hj]
      exact h _ (List.getElem_mem hm) _ (List.getElem_mem hj)
    · rw [List.getD_eq_default _ _ (by omega)]; simp
  · rw [List.getD_eq_default (l := Shapes.deriv k) _ (by omega)]; simp

/-- Triangles with three nodes and tetrahedra with four nodes have the same Jacobian at all local coordinates. -/
theorem C79_simplex (inv : MatInverse) {pad : Scratchpad} (hk : pad.kind = .tri3 ∨ pad.kind = .tet4) (ξ ξ' : Nat → ℝ) : calcJacobian inv pad ξ = calcJacobian inv pad ξ' := by
  have : pad.fillJacobian ξ = pad.fillJacobian ξ' := by
    unfold fillJacobian
    rw [simplex_deriv hk ξ ξ']
  unfold calcJacobian
  rw [this]

theorem tri3_coords {pad : Scratchpad} (hk : pad.kind = .tri3) (r s t : ℝ) (i : Nat) :
    Shapes.calcCoords pad.kind pad.X (point r s t) i = (1 - r - s) * pad.X 0 i + r * pad.X 1 i + s * pad.X 2 i := by
  rw [hk]
  unfold Shapes.calcCoords
  simp only [GeoKind.nnode, Finset.sum_range_succ, Finset.sum_range_zero, zero_add]
  simp [Shapes.calcInterp, Shapes.interp, tri3Interp, point]
  ring

/-- The places of a Tri3 are the points of the triangle, and every point has one pair of local coordinates. -/
theorem C79_tri3_image {pad : Scratchpad} (hk : pad.kind = .tri3) (h2 : pad.spaceNdim = 2) (hok : pad.okXxt = true)
    (hc : Mesh.ConvexCcw [corner pad 0, corner pad 1, corner pad 2]) (p : ℝ × ℝ) :
    (Mesh.InClosedPolygon [corner pad 0, corner pad 1, corner pad 2] p ↔
      ∃ r s x q, GaussSpec.InReference .tri r s 0 ∧ calcCoords pad 2 (point r s 0) = .ok (x, q) ∧ x 0 = p.1 ∧ x 1 = p.2) ∧
    ∀ r s x q r' s' x' q', GaussSpec.InReference .tri r s 0 → calcCoords pad 2 (point r s 0) = .ok (x, q) → x 0 = p.1 → x 1 = p.2 →
      GaussSpec.InReference .tri r' s' 0 → calcCoords pad 2 (point r' s' 0) = .ok (x', q') → x' 0 = p.1 → x' 1 = p.2 → r = r' ∧ s = s' := by
  have t := Mesh.convex_three hc
  have hco : ∀ ξ, calcCoords pad 2 ξ = .ok (Shapes.calcCoords pad.kind pad.X ξ, pad.calcInterp ξ) := by
    intro ξ
    rw [← h2]
    exact calcCoords_ok hok ξ
  have key : ∀ r s x q, calcCoords pad 2 (point r s 0) = .ok (x, q) → x 0 = p.1 → x 1 = p.2 →
      Mesh.sideOf (corner pad 0) (corner pad 1) p = s * Mesh.sideOf (corner pad 0) (corner pad 1) (corner pad 2) ∧
      Mesh.sideOf (corner pad 1) (corner pad 2) p = (1 - r - s) * Mesh.sideOf (corner pad 0) (corner pad 1) (corner pad 2) ∧
      Mesh.sideOf (corner pad 2) (corner pad 0) p = r * Mesh.sideOf (corner pad 0) (corner pad 1) (corner pad 2) := by
    intro r s x q hx e1 e2
    rw [hco] at hx
    simp only [Res.ok.injEq, Prod.mk.injEq] at hx
    obtain ⟨rfl, -⟩ := hx
    rw [tri3_coords hk] at e1 e2
    simp only [Mesh.sideOf, corner, ← e1, ← e2]
    refine ⟨by ring, by ring, by ring⟩
  refine ⟨⟨?_, ?_⟩, ?_⟩
  · intro h
    have p1 := h (corner pad 0, corner pad 1) (by simp [Mesh.sidesOf])
    have p2 := h (corner pad 1, corner pad 2) (by simp [Mesh.sidesOf])
    have p3 := h (corner pad 2, corner pad 0) (by simp [Mesh.sidesOf])
    dsimp only at p1 p2 p3
    refine ⟨Mesh.sideOf (corner pad 2) (corner pad 0) p / Mesh.sideOf (corner pad 0) (corner pad 1) (corner pad 2),
      Mesh.sideOf (corner pad 0) (corner pad 1) p / Mesh.sideOf (corner pad 0) (corner pad 1) (corner pad 2), _, _,
      ⟨div_nonneg p3 t.le, div_nonneg p1 t.le, ?_, rfl⟩, hco _, ?_, ?_⟩
    · rw [← add_div, div_le_one t]
      have : Mesh.sideOf (corner pad 0) (corner pad 1) (corner pad 2) = Mesh.sideOf (corner pad 2) (corner pad 0) p + Mesh.sideOf (corner pad 0) (corner pad 1) p + Mesh.sideOf (corner pad 1) (corner pad 2) p := by
        unfold Mesh.sideOf; ring
      linarith
    · rw [tri3_coords hk]
      have t' := t.ne'
      field_simp
      simp only [Mesh.sideOf, corner]; ring
    · rw [tri3_coords hk]
      have t' := t.ne'
      field_simp
      simp only [Mesh.sideOf, corner]; ring
  · rintro ⟨r, s, x, q, ⟨r1, s1, rs, -⟩, hx, e1, e2⟩
    obtain ⟨k1, k2, k3⟩ := key r s x q hx e1 e2
    intro sd hs
    simp only [Mesh.sidesOf, List.cons_append, List.nil_append, List.zip_cons_cons, List.zip_nil_right, List.mem_cons, List.not_mem_nil, or_false] at hs
    rcases hs with rfl | rfl | rfl
    · rw [k1]; exact mul_nonneg s1 t.le
    · rw [k2]; exact mul_nonneg (by linarith) t.le
    · rw [k3]; exact mul_nonneg r1 t.le
  · intro r s x q r' s' x' q' _ hx e1 e2 _ hx' e3 e4
    obtain ⟨k1, k2, k3⟩ := key r s x q hx e1 e2
    obtain ⟨l1, l2, l3⟩ := key r' s' x' q' hx' e3 e4
    exact ⟨mul_right_cancel₀ t.ne' (k3.symm.trans l3), mul_right_cancel₀ t.ne' (k1.symm.trans l1)⟩

/-- The local coordinates returned by `approximate_ksi` are near the exact ones: with `J` the Jacobian halfway, `|det J|·|Δr|` and `|det J|·|Δs|` are at most the
tolerance times the length of the other column of `J`. -/
theorem C79_error {inv : MatInverse} {big low : ℝ} {pad pad' : Scratchpad} {kdim xdim : Nat} {x ksi ξ : Nat → ℝ} {nitMax it : Nat} {tol : ℝ} (htol : 0 ≤ tol)
    (h : approximateKsi inv big low pad kdim xdim x nitMax tol = .ok (it, ksi, pad')) (hk : Quadratic pad.kind) (hd : pad.kind.ndim = 2) (h2 : pad.spaceNdim = 2)
    (hx : ∀ i < 2, x i = Shapes.calcCoords pad.kind pad.X ξ i) :
    (detAt pad (halfway ksi ξ) * (ksi 0 - ξ 0)) ^ 2 ≤ tol ^ 2 * ∑ i ∈ Finset.range 2, (∑ m ∈ Finset.range pad.kind.nnode, pad.X m i * Shapes.calcDeriv pad.kind (halfway ksi ξ) m 1) ^ 2 ∧
    (detAt pad (halfway ksi ξ) * (ksi 1 - ξ 1)) ^ 2 ≤ tol ^ 2 * ∑ i ∈ Finset.range 2, (∑ m ∈ Finset.range pad.kind.nnode, pad.X m i * Shapes.calcDeriv pad.kind (halfway ksi ξ) m 0) ^ 2 := by
  obtain ⟨-, hr, -⟩ := C33_sound h
  have e0 := coords_difference hk ksi ξ 0
  have e1 := coords_difference hk ksi ξ 1
  rw [← hx 0 (by decide)] at e0
  rw [← hx 1 (by decide)] at e1
  rw [Real.sqrt_le_left htol, h2] at hr
  unfold detAt
  rw [h2, detN_two]
  rw [hd] at e0 e1
  simp only [Finset.sum_range_succ _ 1, Finset.sum_range_one] at e0 e1 hr ⊢
  generalize (∑ m ∈ Finset.range pad.kind.nnode, pad.X m 0 * Shapes.calcDeriv pad.kind (halfway ksi ξ) m 0) = a at *
  generalize (∑ m ∈ Finset.range pad.kind.nnode, pad.X m 0 * Shapes.calcDeriv pad.kind (halfway ksi ξ) m 1) = b at *
  generalize (∑ m ∈ Finset.range pad.kind.nnode, pad.X m 1 * Shapes.calcDeriv pad.kind (halfway ksi ξ) m 0) = c at *
  generalize (∑ m ∈ Finset.range pad.kind.nnode, pad.X m 1 * Shapes.calcDeriv pad.kind (halfway ksi ξ) m 1) = d at *
  generalize Shapes.calcCoords pad.kind pad.X ksi 0 = p at *
  generalize Shapes.calcCoords pad.kind pad.X ksi 1 = q at *
  generalize ksi 0 - ξ 0 = u at *
  generalize ksi 1 - ξ 1 = v at *
  constructor
  · have e : (a * d - b * c) * u = d * (p - x 0) - b * (q - x 1) := by rw [e0, e1]; ring
    rw [e]
    have h1 : (d * (p - x 0) - b * (q - x 1)) ^ 2 ≤ ((x 0 - p) ^ 2 + (x 1 - q) ^ 2) * (b ^ 2 + d ^ 2) := by
      nlinarith [sq_nonneg (b * (p - x 0) + d * (q - x 1))]
    exact h1.trans (mul_le_mul_of_nonneg_right hr (by positivity))
  · have e : (a * d - b * c) * v = a * (q - x 1) - c * (p - x 0) := by rw [e0, e1]; ring
    rw [e]
    have h1 : (a * (q - x 1) - c * (p - x 0)) ^ 2 ≤ ((x 0 - p) ^ 2 + (x 1 - q) ^ 2) * (a ^ 2 + c ^ 2) := by
      nlinarith [sq_nonneg (a * (p - x 0) + c * (q - x 1))]
    exact h1.trans (mul_le_mul_of_nonneg_right hr (by positivity))

end
end Gemlab.Scratchpad
