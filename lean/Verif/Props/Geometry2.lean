import Verif.Props.Geometry
import Mathlib.Geometry.Euclidean.Triangle
import Mathlib.Analysis.InnerProductSpace.PiL2

/-! # C50: areas and angles of triangles -/
namespace Gemlab
noncomputable section
open Real

/-- The point of the Euclidean plane with the given coordinates. -/
def toE (p : ℝ × ℝ) : EuclideanSpace ℝ (Fin 2) := !₂[p.1, p.2]

theorem vertexAngle_eq (a b c : ℝ × ℝ) (hb : b ≠ a) (hc : c ≠ a) :
    vertexAngle (vecFromPoints a b) (vecFromPoints a c) = EuclideanGeometry.angle (toE b) (toE a) (toE c) := by
  have hpos : ∀ q : ℝ × ℝ, q ≠ a → 0 < (q.1 - a.1) * (q.1 - a.1) + (q.2 - a.2) * (q.2 - a.2) := by
    intro q hq
    by_contra h
    apply hq
    have h1 := mul_self_nonneg (q.1 - a.1)
    have h2 := mul_self_nonneg (q.2 - a.2)
    have e1 : q.1 - a.1 = 0 := by nlinarith
    have e2 : q.2 - a.2 = 0 := by nlinarith
    ext <;> linarith
  unfold vertexAngle vecFromPoints
  dsimp only
  rw [if_pos ⟨Real.sqrt_pos.2 (hpos b hb), Real.sqrt_pos.2 (hpos c hc)⟩]
  unfold EuclideanGeometry.angle InnerProductGeometry.angle
  congr 1
  simp only [toE, EuclideanSpace.norm_eq, PiLp.inner_apply, vsub_eq_sub, Fin.sum_univ_two]
  simp [sq]
  ring_nf

/-- C50: the internal angles of a triangle with three different vertices are the angles of Euclidean geometry at its
vertices; each is between 0 and π and they sum to π. -/
theorem C50_internal_angles (a b c : ℝ × ℝ) (hab : a ≠ b) (hbc : b ≠ c) (hca : c ≠ a) :
    let ⟨α, β, γ⟩ := internalAngles a b c
    α = EuclideanGeometry.angle (toE b) (toE a) (toE c) ∧ β = EuclideanGeometry.angle (toE a) (toE b) (toE c) ∧
    γ = EuclideanGeometry.angle (toE a) (toE c) (toE b) ∧
    (0 ≤ α ∧ α ≤ π) ∧ (0 ≤ β ∧ β ≤ π) ∧ (0 ≤ γ ∧ γ ≤ π) ∧ α + β + γ = π := by
  unfold internalAngles
  dsimp only
  rw [vertexAngle_eq a b c hab.symm hca, vertexAngle_eq b a c hab hbc.symm, vertexAngle_eq c a b hca.symm hbc]
  refine ⟨rfl, rfl, rfl, ⟨EuclideanGeometry.angle_nonneg _ _ _, EuclideanGeometry.angle_le_pi _ _ _⟩,
    ⟨EuclideanGeometry.angle_nonneg _ _ _, EuclideanGeometry.angle_le_pi _ _ _⟩,
    ⟨EuclideanGeometry.angle_nonneg _ _ _, EuclideanGeometry.angle_le_pi _ _ _⟩, ?_⟩
  have hne : toE b ≠ toE a := by
    intro h; apply hab
    have h0 := congrFun (congrArg (WithLp.ofLp) h) 0
    have h1 := congrFun (congrArg (WithLp.ofLp) h) 1
    simp [toE] at h0 h1
    ext
    · exact h0.symm
    · exact h1.symm
  have := EuclideanGeometry.angle_add_angle_add_angle_eq_pi (p₁ := toE a) (p₂ := toE b) (toE c) hne
  rw [EuclideanGeometry.angle_comm (toE b) (toE c) (toE a), EuclideanGeometry.angle_comm (toE c) (toE a) (toE b)] at this
  linarith

/-- C50: coincident vertices give a zero angle there instead of a NaN. -/
theorem C50_degenerate (a c : ℝ × ℝ) : (internalAngles a a c).1 = 0 ∧ (internalAngles a a c).2.1 = 0 := by
  simp [internalAngles, vertexAngle, vecFromPoints]

/-- C50: `signed_area` is invariant under cyclic renumbering, changes sign when two vertices are swapped, adds up when the
triangle is split at any point, and half the parallelogram's signed area. -/
theorem C50_signed_area (a b c p : ℝ × ℝ) :
    triangleSignedArea a b c = triangleSignedArea b c a ∧ triangleSignedArea a b c = -triangleSignedArea b a c ∧
    triangleSignedArea a b c = triangleSignedArea a b p + triangleSignedArea b c p + triangleSignedArea c a p ∧
    parallelogramSignedArea (vecFromPoints a b) (vecFromPoints a c) = 2 * triangleSignedArea a b c := by
  simp only [triangleSignedArea, parallelogramSignedArea, cross2, vecFromPoints]
  refine ⟨?_, ?_, ?_, ?_⟩ <;> ring

/-- C50: the absolute value of `signed_area` is half of the product of two sides times the sine of the angle between
them. -/
theorem C50_area_sine (a b c : ℝ × ℝ) (hab : b ≠ a) (hca : c ≠ a) :
    |triangleSignedArea a b c| = Spec.euclid [a.1, a.2] [b.1, b.2] * Spec.euclid [a.1, a.2] [c.1, c.2]
      * Real.sin (internalAngles a b c).1 / 2 := by
  have e1 : Spec.euclid [a.1, a.2] [b.1, b.2] = Real.sqrt ((b.1 - a.1) * (b.1 - a.1) + (b.2 - a.2) * (b.2 - a.2)) := by
    rw [euclid_eq_d3 (Or.inl (by rfl)) (by rfl)]; unfold d3 n3; congr 1; simp [at']; ring
  have e2 : Spec.euclid [a.1, a.2] [c.1, c.2] = Real.sqrt ((c.1 - a.1) * (c.1 - a.1) + (c.2 - a.2) * (c.2 - a.2)) := by
    rw [euclid_eq_d3 (Or.inl (by rfl)) (by rfl)]; unfold d3 n3; congr 1; simp [at']; ring
  have hpos : ∀ q : ℝ × ℝ, q ≠ a → 0 < (q.1 - a.1) * (q.1 - a.1) + (q.2 - a.2) * (q.2 - a.2) := by
    intro q hq
    by_contra h
    apply hq
    have h1 := mul_self_nonneg (q.1 - a.1)
    have h2 := mul_self_nonneg (q.2 - a.2)
    have e1 : q.1 - a.1 = 0 := by nlinarith
    have e2 : q.2 - a.2 = 0 := by nlinarith
    ext <;> linarith
  have p1 := Real.sqrt_pos.2 (hpos b hab)
  have p2 := Real.sqrt_pos.2 (hpos c hca)
  have s1 := Real.mul_self_sqrt (hpos b hab).le
  have s2 := Real.mul_self_sqrt (hpos c hca).le
  rw [e1, e2]
  unfold internalAngles vertexAngle vecFromPoints triangleSignedArea cross2
  dsimp only
  rw [if_pos ⟨p1, p2⟩, Real.sin_arccos]
  generalize Real.sqrt ((b.1 - a.1) * (b.1 - a.1) + (b.2 - a.2) * (b.2 - a.2)) = u at *
  generalize Real.sqrt ((c.1 - a.1) * (c.1 - a.1) + (c.2 - a.2) * (c.2 - a.2)) = v at *
  have huv : u * v = Real.sqrt ((u * v) ^ 2) := (Real.sqrt_sq (by positivity)).symm
  rw [abs_div, abs_of_pos (two_pos : (0 : ℝ) < 2)]
  congr 1
  rw [huv, ← Real.sqrt_mul (sq_nonneg _), ← Real.sqrt_sq_eq_abs]
  congr 1
  rw [← huv]
  have : (u * v) ^ 2 * (1 - (((b.1 - a.1) * (c.1 - a.1) + (b.2 - a.2) * (c.2 - a.2)) / (u * v)) ^ 2)
      = (u * u) * (v * v) - ((b.1 - a.1) * (c.1 - a.1) + (b.2 - a.2) * (c.2 - a.2)) ^ 2 := by
    field_simp
  rw [this, s1, s2]
  ring

/-- A right triangle: area 6, right angle at the first vertex. -/
example : triangleSignedArea (0, 0) (4, 0) (0, 3) = 6 ∧ (internalAngles (0, 0) (4, 0) (0, 3)).1 = π / 2 := by
  constructor
  · norm_num [triangleSignedArea, cross2]
  · unfold internalAngles vertexAngle vecFromPoints
    norm_num

end
end Gemlab
