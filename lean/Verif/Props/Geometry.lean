import Verif.Proofs.Geometry
import Mathlib.Tactic.NormNum
import Mathlib.Analysis.Convex.Hull
import Mathlib.Analysis.Convex.Combination

/-!
# C34, C36: distances and barycentric coordinates
-/
namespace Gemlab
noncomputable section
open Spec

/-- C36: `point_point_distance` is the Euclidean distance for two points of equal length 2 or 3. -/
theorem C36_point_point (a b : List ℝ) (ha : a.length = 2 ∨ a.length = 3) (hb : b.length = a.length) :
    pointPointDistance a b = .ok (euclid a b) := by
  rw [pointPointDistance_eq ha hb, euclid_eq_d3 ha hb]

/-- C36: other lengths are rejected. -/
theorem C36_point_point_err (a b : List ℝ) (h : ¬((a.length = 2 ∨ a.length = 3) ∧ b.length = a.length)) :
    ∃ e, pointPointDistance a b = .err e := by
  unfold pointPointDistance
  by_cases h1 : a.length < 2 ∨ a.length > 3
  · rw [if_pos h1]; exact ⟨_, rfl⟩
  · rw [if_neg h1, if_pos (by omega)]; exact ⟨_, rfl⟩

theorem isDistTo_line {a b c : List ℝ} (ha : a.length = 2 ∨ a.length = 3) (hb : b.length = a.length)
    (hc : c.length = a.length) (hn : 0 < nn3 a b) : IsDistTo c (OnLine a b) (d3 c (linePoint a b (foot a b c))) := by
  refine ⟨⟨_, ⟨_, rfl⟩, euclid_eq_d3 (by omega) (by rw [length_linePoint hb, hc])⟩, ?_⟩
  rintro s ⟨t, rfl⟩
  rw [euclid_eq_d3 (by omega) (by rw [length_linePoint hb, hc])]
  exact foot_min hb hn t

/-- The distance to a set is unique. -/
theorem isDistTo_unique {p : List ℝ} {S : List ℝ → Prop} {d d' : ℝ} (h : IsDistTo p S d) (h' : IsDistTo p S d') : d = d' := by
  obtain ⟨⟨s, hs, e⟩, m⟩ := h
  obtain ⟨⟨s', hs', e'⟩, m'⟩ := h'
  have h1 := m s' hs'
  have h2 := m' s hs
  linarith

/-- C36: `point_line_distance` is the (minimum) distance to the infinite line through `a` and `b`; it is an error exactly
when the segment is too short (`|b-a|² ≤ f64::EPSILON`). -/
theorem C36_point_line (a b c : List ℝ) (ha : a.length = 2 ∨ a.length = 3) (hb : b.length = a.length)
    (hc : c.length = a.length) :
    (euclid a b ^ 2 ≤ f64Epsilon → ∃ e, pointLineDistance a b c = .err e) ∧
    (f64Epsilon < euclid a b ^ 2 → ∃ d, pointLineDistance a b c = .ok d ∧ IsDistTo c (OnLine a b) d) := by
  rw [pointLineDistance_eq ha hb hc]
  have e : euclid a b ^ 2 = nn3 a b := by rw [euclid_eq_d3 ha hb, nn3_eq]; ring
  rw [e]
  refine ⟨fun h => ⟨_, if_pos h⟩, fun h => ⟨_, if_neg (not_le.2 h), ?_⟩⟩
  exact isDistTo_line ha hb hc (f64Epsilon_pos.trans h)

/-- C36: `point_circle_distance` is the signed distance to the circle: its absolute value is the distance to the
circle and it is negative exactly inside. -/
theorem C36_point_circle (center p : List ℝ) (radius : ℝ) (hr : 0 ≤ radius) (hc : center.length = 2) (hp : p.length = 2) :
    ∃ d, pointCircleDistance center radius p = .ok d ∧ IsDistTo p (OnCircle center radius) |d| ∧
      (d < 0 ↔ euclid center p < radius) := by
  unfold pointCircleDistance
  rw [if_neg (by omega), if_neg (by omega), pointPointDistance_eq (Or.inl hc) (by omega)]
  refine ⟨_, rfl, ⟨?_, ?_⟩, ?_⟩
  · -- attained
    by_cases h0 : d3 center p = 0
    · refine ⟨[at' center 0 + radius, at' center 1], ⟨rfl, ?_⟩, ?_⟩
      · rw [euclid_eq_d3 (Or.inl hc) (by rw [hc]; rfl)]
        apply n3_eq_of_sq hr
        have h1 := at'_of_ge (v := center) (i := 2) (by omega)
        simp only [at', List.getD_cons_zero, List.getD_cons_succ, List.getD_nil] at *
        rw [h1]; ring
      · rw [euclid_eq_d3 (Or.inl hp) (by rw [hp]; rfl), h0]
        have hz := n3_sq (at' center 0 - at' p 0) (at' center 1 - at' p 1) (at' center 2 - at' p 2)
        change d3 center p * d3 center p = _ at hz
        rw [h0] at hz
        have e0 : at' center 0 - at' p 0 = 0 := by nlinarith [mul_self_nonneg (at' center 0 - at' p 0), mul_self_nonneg (at' center 1 - at' p 1), mul_self_nonneg (at' center 2 - at' p 2)]
        have e1 : at' center 1 - at' p 1 = 0 := by nlinarith [mul_self_nonneg (at' center 0 - at' p 0), mul_self_nonneg (at' center 1 - at' p 1), mul_self_nonneg (at' center 2 - at' p 2)]
        apply n3_eq_of_sq (abs_nonneg _)
        have h1 := at'_of_ge (v := p) (i := 2) (by omega)
        have a1 : at' p 0 = at' center 0 := by linarith
        have a2 : at' p 1 = at' center 1 := by linarith
        rw [abs_mul_abs_self, h1, a1, a2]
        simp only [at', List.getD_cons_zero, List.getD_cons_succ, List.getD_nil]
        ring
    · have hpos : 0 < d3 center p := lt_of_le_of_ne (d3_nonneg _ _) (Ne.symm h0)
      set δ := d3 center p with hδ
      have hz := n3_sq (at' center 0 - at' p 0) (at' center 1 - at' p 1) (at' center 2 - at' p 2)
      change d3 center p * d3 center p = _ at hz
      rw [← hδ, at'_of_ge (v := p) (i := 2) (by omega), at'_of_ge (v := center) (i := 2) (by omega)] at hz
      refine ⟨[at' center 0 + (radius / δ) * (at' p 0 - at' center 0), at' center 1 + (radius / δ) * (at' p 1 - at' center 1)], ⟨rfl, ?_⟩, ?_⟩
      · rw [euclid_eq_d3 (Or.inl hc) (by rw [hc]; rfl)]
        apply n3_eq_of_sq hr
        have e : radius * radius = (radius / δ) * (radius / δ) * (δ * δ) := by field_simp
        rw [e, hz, at'_of_ge (v := center) (i := 2) (by omega)]
        simp only [at', List.getD_cons_zero, List.getD_cons_succ, List.getD_nil]
        ring
      · rw [euclid_eq_d3 (Or.inl hp) (by rw [hp]; rfl)]
        apply n3_eq_of_sq (abs_nonneg _)
        have e : δ - radius = (1 - radius / δ) * δ := by field_simp
        rw [abs_mul_abs_self, e, at'_of_ge (v := p) (i := 2) (by omega)]
        have e2 : (1 - radius / δ) * δ * ((1 - radius / δ) * δ) = (1 - radius / δ) * (1 - radius / δ) * (δ * δ) := by ring
        rw [e2, hz]
        simp only [at', List.getD_cons_zero, List.getD_cons_succ, List.getD_nil]
        ring
  · rintro s ⟨hs, hs'⟩
    rw [euclid_eq_d3 (Or.inl hc) (by omega)] at hs'
    rw [euclid_eq_d3 (Or.inl hp) (by omega)]
    have t1 := d3_triangle center p s
    have t2 := d3_triangle center s p
    rw [d3_comm s p] at t2
    rw [abs_le]; constructor <;> linarith
  · rw [euclid_eq_d3 (Or.inl hc) (by omega)]
    constructor <;> intro h <;> linarith

/-- In 3D there is a unit vector orthogonal to a given vector. -/
theorem exists_orth (x y z : ℝ) : ∃ u v w : ℝ, u * x + v * y + w * z = 0 ∧ u * u + v * v + w * w = 1 := by
  by_cases h : x = 0 ∧ y = 0
  · exact ⟨1, 0, 0, by rw [h.1]; ring, by norm_num⟩
  · have hp : 0 < x * x + y * y := by
      rcases not_and_or.1 h with h | h
      · have := mul_self_pos.2 h; nlinarith [mul_self_nonneg y]
      · have := mul_self_pos.2 h; nlinarith [mul_self_nonneg x]
    set r := Real.sqrt (x * x + y * y)
    have hr : 0 < r := Real.sqrt_pos.2 hp
    have hrr : r * r = x * x + y * y := Real.mul_self_sqrt hp.le
    refine ⟨-y / r, x / r, 0, by field_simp; ring, ?_⟩
    field_simp
    nlinarith

/-- C36: `point_cylinder_distance` is the signed distance to the surface of the infinite cylinder: its absolute value is
the distance to the surface and it is negative exactly when the point is closer to the axis than the radius; it is an
error exactly when the axis segment is too short. -/
theorem C36_point_cylinder (a b p : List ℝ) (radius : ℝ) (hr : 0 ≤ radius) (ha : a.length = 3) (hb : b.length = 3)
    (hp : p.length = 3) :
    (euclid a b ^ 2 ≤ f64Epsilon → ∃ e, pointCylinderDistance a b radius p = .err e) ∧
    (f64Epsilon < euclid a b ^ 2 → ∃ d, pointCylinderDistance a b radius p = .ok d ∧
      IsDistTo p (OnCylinder a b radius) |d| ∧ ∃ δ, IsDistTo p (OnLine a b) δ ∧ (d < 0 ↔ δ < radius)) := by
  have hb' : b.length = a.length := by omega
  unfold pointCylinderDistance
  rw [if_neg (by omega), if_neg (by omega), if_neg (by omega), pointLineDistance_eq (Or.inr ha) hb' (by omega)]
  have e : euclid a b ^ 2 = nn3 a b := by rw [euclid_eq_d3 (Or.inr ha) hb', nn3_eq]; ring
  rw [e]
  constructor
  · intro h; rw [if_pos h]; exact ⟨_, rfl⟩
  intro h
  rw [if_neg (not_le.2 h)]
  have hn : 0 < nn3 a b := f64Epsilon_pos.trans h
  have hline := isDistTo_line (c := p) (Or.inr ha) hb' (by omega) hn
  have horth := foot_orth (c := p) hb' hn
  set f := linePoint a b (foot a b p) with hf
  have hfl : f.length = 3 := by rw [hf, length_linePoint hb', ha]
  refine ⟨_, rfl, ⟨?_, ?_⟩, _, hline, ?_⟩
  · -- a point of the surface at that distance: f + radius * u with u the unit direction from f to p
    obtain ⟨u, v, w, ho, hu, hx⟩ : ∃ u v w : ℝ,
        u * (at' b 0 - at' a 0) + v * (at' b 1 - at' a 1) + w * (at' b 2 - at' a 2) = 0 ∧ u * u + v * v + w * w = 1 ∧
        (at' p 0 = at' f 0 + d3 p f * u ∧ at' p 1 = at' f 1 + d3 p f * v ∧ at' p 2 = at' f 2 + d3 p f * w) := by
      have hz := n3_sq (at' p 0 - at' f 0) (at' p 1 - at' f 1) (at' p 2 - at' f 2)
      change d3 p f * d3 p f = _ at hz
      by_cases h0 : d3 p f = 0
      · rw [h0] at hz ⊢
        obtain ⟨u, v, w, h1, h2⟩ := exists_orth (at' b 0 - at' a 0) (at' b 1 - at' a 1) (at' b 2 - at' a 2)
        have q0 := mul_self_nonneg (at' p 0 - at' f 0)
        have q1 := mul_self_nonneg (at' p 1 - at' f 1)
        have q2 := mul_self_nonneg (at' p 2 - at' f 2)
        refine ⟨u, v, w, h1, h2, ?_, ?_, ?_⟩
        · have : at' p 0 - at' f 0 = 0 := by nlinarith
          linarith
        · have : at' p 1 - at' f 1 = 0 := by nlinarith
          linarith
        · have : at' p 2 - at' f 2 = 0 := by nlinarith
          linarith
      · generalize hδ : d3 p f = δ at *
        refine ⟨(at' p 0 - at' f 0) / δ, (at' p 1 - at' f 1) / δ, (at' p 2 - at' f 2) / δ, ?_, ?_, ?_, ?_, ?_⟩
        · field_simp; linarith
        · field_simp; nlinarith
        · field_simp; ring
        · field_simp; ring
        · field_simp; ring
    have hpos := d3_nonneg p f
    set δ := d3 p f with hδ
    have h3 : ∀ x y z : ℝ, at' [x, y, z] 0 = x ∧ at' [x, y, z] 1 = y ∧ at' [x, y, z] 2 = z := by
      intro x y z; simp [at']
    obtain ⟨s0, s1, s2⟩ := h3 (at' f 0 + radius * u) (at' f 1 + radius * v) (at' f 2 + radius * w)
    set s : List ℝ := [at' f 0 + radius * u, at' f 1 + radius * v, at' f 2 + radius * w] with hs
    have hsl : s.length = 3 := rfl
    refine ⟨s, ⟨hsl, ?_⟩, ?_⟩
    · have hl := isDistTo_line (c := s) (Or.inr ha) hb' (by omega) hn
      have hfoot : foot a b s = foot a b p := by
        unfold foot; congr 1
        rw [s0, s1, s2]
        have e0 := at'_linePoint hb' (foot a b p) 0
        have e1 := at'_linePoint hb' (foot a b p) 1
        have e2 := at'_linePoint hb' (foot a b p) 2
        rw [← hf] at e0 e1 e2
        obtain ⟨p0, p1, p2⟩ := hx
        rw [p0, p1, p2]
        linear_combination (radius - δ) * ho
      rw [hfoot, ← hf] at hl
      have : d3 s f = radius := by
        apply n3_eq_of_sq hr
        rw [s0, s1, s2]
        linear_combination (radius * radius) * hu
      rwa [this] at hl
    · rw [euclid_eq_d3 (Or.inr hp) (by omega)]
      apply n3_eq_of_sq (abs_nonneg _)
      obtain ⟨p0, p1, p2⟩ := hx
      rw [abs_mul_abs_self, s0, s1, s2, p0, p1, p2]
      linear_combination ((δ - radius) * (δ - radius)) * hu
  · rintro s ⟨hs, hs'⟩
    have hl := isDistTo_line (c := s) (Or.inr ha) hb' (by omega) hn
    have := isDistTo_unique hl hs'
    have t1 := lineDist_lip (c := p) (c' := s) hb' hn
    have t2 := lineDist_lip (c := s) (c' := p) hb' hn
    rw [euclid_eq_d3 (Or.inr hp) (by omega)]
    rw [this, ← hf] at t1
    rw [this, ← hf, d3_comm s p] at t2
    rw [abs_le]; constructor <;> linarith
  · constructor <;> intro h <;> linarith

/-! ## Barycentric coordinates -/

/-- Twice the signed area of a triangle. -/
def triArea2 (a b c : ℝ × ℝ) : ℝ := (b.1 - a.1) * (c.2 - a.2) - (c.1 - a.1) * (b.2 - a.2)

/-- Six times the signed volume of a tetrahedron: the determinant of the three edge vectors from `a`. -/
def tetVol6 (a b c d : ℝ × ℝ × ℝ) : ℝ :=
  (b.1 - a.1) * ((c.2.1 - a.2.1) * (d.2.2 - a.2.2) - (c.2.2 - a.2.2) * (d.2.1 - a.2.1))
  - (b.2.1 - a.2.1) * ((c.1 - a.1) * (d.2.2 - a.2.2) - (c.2.2 - a.2.2) * (d.1 - a.1))
  + (b.2.2 - a.2.2) * ((c.1 - a.1) * (d.2.1 - a.2.1) - (c.2.1 - a.2.1) * (d.1 - a.1))

/-- C34: the coordinates of `triangle_coords` sum to one and reproduce the point; no other coordinates do. -/
theorem C34_triangle_coords (a b c p : ℝ × ℝ) (h : triArea2 a b c ≠ 0) (z : ℝ × ℝ × ℝ) :
    z = triangleCoords a b c p ↔ z.1 + z.2.1 + z.2.2 = 1 ∧ z.1 • a + z.2.1 • b + z.2.2 • c = p := by
  obtain ⟨a1, a2⟩ := a; obtain ⟨b1, b2⟩ := b; obtain ⟨c1, c2⟩ := c; obtain ⟨p1, p2⟩ := p; obtain ⟨u, v, w⟩ := z
  have h' : a1 * (b2 - c2) + b1 * (c2 - a2) + c1 * (a2 - b2) ≠ 0 := by
    intro e; apply h; unfold triArea2; simp only; linarith
  simp only [triangleCoords, Prod.mk.injEq, Prod.smul_mk, Prod.mk_add_mk, smul_eq_mul]
  constructor
  · rintro ⟨rfl, rfl, rfl⟩
    refine ⟨?_, ?_, ?_⟩
    · rw [← add_div, ← add_div, div_eq_one_iff_eq h']; ring
    all_goals (rw [div_mul_eq_mul_div, div_mul_eq_mul_div, div_mul_eq_mul_div, ← add_div, ← add_div, div_eq_iff h']; ring)
  · rintro ⟨hs, rfl, rfl⟩
    have hu : u = 1 - v - w := by linarith
    subst hu
    refine ⟨?_, ?_, ?_⟩ <;> (rw [eq_div_iff h']; ring)

/-- C34: `in_triangle` of the coordinates of `p` is true exactly when `p` is in the (closed) triangle. -/
theorem C34_in_triangle (a b c p : ℝ × ℝ) (h : triArea2 a b c ≠ 0) :
    inTriangle (triangleCoords a b c p) = true ↔ p ∈ convexHull ℝ {a, b, c} := by
  have key := C34_triangle_coords a b c p h
  have hin : ∀ z : ℝ × ℝ × ℝ, inTriangle z = true ↔ 0 ≤ z.1 ∧ 0 ≤ z.2.1 ∧ 0 ≤ z.2.2 := by
    intro z; unfold inTriangle; split <;> rename_i hz
    · constructor
      · intro h; simp at h
      · rintro ⟨h1, h2, h3⟩; rcases hz with hz | hz | hz <;> linarith
    · simp only [not_or, not_lt] at hz; simp [hz]
  rw [hin]
  constructor
  · intro hz
    obtain ⟨hs, hp⟩ := (key _).1 rfl
    have := (convex_convexHull ℝ ({a, b, c} : Set (ℝ × ℝ))).sum_mem (t := Finset.univ)
      (w := ![(triangleCoords a b c p).1, (triangleCoords a b c p).2.1, (triangleCoords a b c p).2.2]) (z := ![a, b, c])
      (by intro i _; fin_cases i; exacts [hz.1, hz.2.1, hz.2.2]) (by simp [Fin.sum_univ_three, hs])
      (by intro i _; fin_cases i <;> exact subset_convexHull ℝ _ (by simp))
    rw [Fin.sum_univ_three] at this
    rw [← hp]; exact this
  · intro hp
    have hconv : Convex ℝ {q : ℝ × ℝ | ∃ z : ℝ × ℝ × ℝ, (0 ≤ z.1 ∧ 0 ≤ z.2.1 ∧ 0 ≤ z.2.2) ∧ z.1 + z.2.1 + z.2.2 = 1 ∧
        z.1 • a + z.2.1 • b + z.2.2 • c = q} := by
      rintro q ⟨z, ⟨h1, h2, h3⟩, hs, rfl⟩ q' ⟨z', ⟨h1', h2', h3'⟩, hs', rfl⟩ α β hα hβ hab
      refine ⟨(α * z.1 + β * z'.1, α * z.2.1 + β * z'.2.1, α * z.2.2 + β * z'.2.2), ⟨by positivity, by positivity, by positivity⟩, ?_, ?_⟩
      · simp only; linear_combination α * hs + β * hs' + hab
      · ext <;> simp <;> ring
    have hsub : ({a, b, c} : Set (ℝ × ℝ)) ⊆ {q : ℝ × ℝ | ∃ z : ℝ × ℝ × ℝ, (0 ≤ z.1 ∧ 0 ≤ z.2.1 ∧ 0 ≤ z.2.2) ∧ z.1 + z.2.1 + z.2.2 = 1 ∧
        z.1 • a + z.2.1 • b + z.2.2 • c = q} := by
      intro q hq
      simp only [Set.mem_insert_iff, Set.mem_singleton_iff] at hq
      rcases hq with rfl | rfl | rfl
      · exact ⟨(1, 0, 0), by norm_num, by norm_num, by simp⟩
      · exact ⟨(0, 1, 0), by norm_num, by norm_num, by simp⟩
      · exact ⟨(0, 0, 1), by norm_num, by norm_num, by simp⟩
    obtain ⟨z, hz, hs, hq⟩ := convexHull_min hsub hconv hp
    rw [← (key z).2 ⟨hs, hq⟩]
    exact hz

/-- C34: the coordinates of `tetrahedron_coords` sum to one and reproduce the point; no other coordinates do. -/
theorem C34_tetrahedron_coords (a b c d p : ℝ × ℝ × ℝ) (h : tetVol6 a b c d ≠ 0) (z : ℝ × ℝ × ℝ × ℝ) :
    z = tetrahedronCoords a b c d p ↔
      z.1 + z.2.1 + z.2.2.1 + z.2.2.2 = 1 ∧ z.1 • a + z.2.1 • b + z.2.2.1 • c + z.2.2.2 • d = p := by
  obtain ⟨x1, y1, z1⟩ := a; obtain ⟨x2, y2, z2⟩ := b; obtain ⟨x3, y3, z3⟩ := c; obtain ⟨x4, y4, z4⟩ := d
  obtain ⟨x, y, zz⟩ := p; obtain ⟨u, v, w, t⟩ := z
  have hv : (x2 - x1) * ((y2 - y3) * (z3 - z4) - (y3 - y4) * (z2 - z3))
    + (x3 - x2) * ((y3 - y4) * (z1 - z2) - (y1 - y2) * (z3 - z4))
    + (x4 - x3) * ((y1 - y2) * (z2 - z3) - (y2 - y3) * (z1 - z2)) ≠ 0 := by
    intro e; apply h; unfold tetVol6; simp only; linarith
  simp only [tetrahedronCoords, Prod.mk.injEq, Prod.smul_mk, Prod.mk_add_mk, smul_eq_mul]
  constructor
  · rintro ⟨rfl, rfl, rfl, rfl⟩
    refine ⟨?_, ?_, ?_, ?_⟩
    · rw [← add_div, ← add_div, ← add_div, div_eq_one_iff_eq hv]; ring
    all_goals (rw [div_mul_eq_mul_div, div_mul_eq_mul_div, div_mul_eq_mul_div, div_mul_eq_mul_div, ← add_div, ← add_div, ← add_div, div_eq_iff hv]; ring)
  · rintro ⟨hs, rfl, rfl, rfl⟩
    have hu : u = 1 - v - w - t := by linarith
    subst hu
    refine ⟨?_, ?_, ?_, ?_⟩ <;> (rw [eq_div_iff hv]; ring)

/-- C34: `in_tetrahedron` of the coordinates of `p` is true exactly when `p` is in the (closed) tetrahedron. -/
theorem C34_in_tetrahedron (a b c d p : ℝ × ℝ × ℝ) (h : tetVol6 a b c d ≠ 0) :
    inTetrahedron (tetrahedronCoords a b c d p) = true ↔ p ∈ convexHull ℝ {a, b, c, d} := by
  have key := C34_tetrahedron_coords a b c d p h
  have hin : ∀ z : ℝ × ℝ × ℝ × ℝ, inTetrahedron z = true ↔ 0 ≤ z.1 ∧ 0 ≤ z.2.1 ∧ 0 ≤ z.2.2.1 ∧ 0 ≤ z.2.2.2 := by
    intro z; unfold inTetrahedron; split <;> rename_i hz
    · constructor
      · intro h; simp at h
      · rintro ⟨h1, h2, h3, h4⟩; rcases hz with hz | hz | hz | hz <;> linarith
    · simp only [not_or, not_lt] at hz; simp [hz]
  rw [hin]
  constructor
  · intro hz
    obtain ⟨hs, hp⟩ := (key _).1 rfl
    have := (convex_convexHull ℝ ({a, b, c, d} : Set (ℝ × ℝ × ℝ))).sum_mem (t := Finset.univ)
      (w := ![(tetrahedronCoords a b c d p).1, (tetrahedronCoords a b c d p).2.1, (tetrahedronCoords a b c d p).2.2.1,
        (tetrahedronCoords a b c d p).2.2.2]) (z := ![a, b, c, d])
      (by intro i _; fin_cases i; exacts [hz.1, hz.2.1, hz.2.2.1, hz.2.2.2]) (by simp [Fin.sum_univ_four, hs])
      (by intro i _; fin_cases i <;> exact subset_convexHull ℝ _ (by simp))
    rw [Fin.sum_univ_four] at this
    rw [← hp]; exact this
  · intro hp
    have hconv : Convex ℝ {q : ℝ × ℝ × ℝ | ∃ z : ℝ × ℝ × ℝ × ℝ, (0 ≤ z.1 ∧ 0 ≤ z.2.1 ∧ 0 ≤ z.2.2.1 ∧ 0 ≤ z.2.2.2) ∧
        z.1 + z.2.1 + z.2.2.1 + z.2.2.2 = 1 ∧ z.1 • a + z.2.1 • b + z.2.2.1 • c + z.2.2.2 • d = q} := by
      rintro q ⟨z, ⟨h1, h2, h3, h4⟩, hs, rfl⟩ q' ⟨z', ⟨h1', h2', h3', h4'⟩, hs', rfl⟩ α β hα hβ hab
      refine ⟨(α * z.1 + β * z'.1, α * z.2.1 + β * z'.2.1, α * z.2.2.1 + β * z'.2.2.1, α * z.2.2.2 + β * z'.2.2.2),
        ⟨by positivity, by positivity, by positivity, by positivity⟩, ?_, ?_⟩
      · simp only; linear_combination α * hs + β * hs' + hab
      · ext <;> simp <;> ring
    have hsub : ({a, b, c, d} : Set (ℝ × ℝ × ℝ)) ⊆ {q : ℝ × ℝ × ℝ | ∃ z : ℝ × ℝ × ℝ × ℝ,
        (0 ≤ z.1 ∧ 0 ≤ z.2.1 ∧ 0 ≤ z.2.2.1 ∧ 0 ≤ z.2.2.2) ∧
        z.1 + z.2.1 + z.2.2.1 + z.2.2.2 = 1 ∧ z.1 • a + z.2.1 • b + z.2.2.1 • c + z.2.2.2 • d = q} := by
      intro q hq
      simp only [Set.mem_insert_iff, Set.mem_singleton_iff] at hq
      rcases hq with rfl | rfl | rfl | rfl
      · exact ⟨(1, 0, 0, 0), by norm_num, by norm_num, by simp⟩
      · exact ⟨(0, 1, 0, 0), by norm_num, by norm_num, by simp⟩
      · exact ⟨(0, 0, 1, 0), by norm_num, by norm_num, by simp⟩
      · exact ⟨(0, 0, 0, 1), by norm_num, by norm_num, by simp⟩
    obtain ⟨z, hz, hs, hq⟩ := convexHull_min hsub hconv hp
    rw [← (key z).2 ⟨hs, hq⟩]
    exact hz

/-! ## Witnesses -/

/-- The hypotheses of the triangle and tetrahedron theorems hold for concrete shapes. -/
example : triArea2 (0, 0) (2, 0) (1, 3) ≠ 0 ∧ tetVol6 (0, 0, 0) (1, 0, 0) (0, 2, 0) (1, 1, 3) ≠ 0 := by
  constructor <;> norm_num [triArea2, tetVol6]

/-- ... and the tests answer differently for points inside and outside. -/
example : inTriangle (triangleCoords (0, 0) (2, 0) (1, 3) (1, 1)) = true ∧
    inTriangle (triangleCoords (0, 0) (2, 0) (1, 3) (3, 1)) = false := by
  constructor <;> norm_num [inTriangle, triangleCoords]

/-- A line, a circle and a cylinder to which the distance theorems apply. -/
example : f64Epsilon < euclid [0, 0, 0] [1, 2, 2] ^ 2 := by
  rw [euclid_eq_d3 (Or.inr (by rfl)) (by rfl), d3, n3_eq_of_sq (r := 3) (by norm_num) (by simp [at']; norm_num)]
  norm_num [f64Epsilon]

end
end Gemlab
