import Verif.Spec.Piercing
import Mathlib.Data.Sign.Basic
import Mathlib.Tactic.Ring
import Mathlib.Tactic.LinearCombination
import Mathlib.Tactic.FieldSimp
import Mathlib.Tactic.Linarith
import Mathlib.Tactic.Positivity

/-!
# A ray and a tetrahedron
-/
namespace Gemlab.Piercing
noncomputable section

/-- The volumes and the sides of the edges. -/
def vol (p a b c : Space) : ℝ := det3 (sub a p) (sub b p) (sub c p)
def side (p d a b : Space) : ℝ := det3 (sub a p) (sub b p) d

theorem side_swap (p d a b : Space) : side p d b a = -side p d a b := by
  simp only [side, det3, sub]; ring

/-- Three numbers whose sum is zero: all are zero, or both signs occur. -/
def bal (x y z : SignType) : Bool := (x == 0 && y == 0 && z == 0) || ((x == 1 || y == 1 || z == 1) && (x == -1 || y == -1 || z == -1))

theorem bal_of {x y z : ℝ} (h : x + y + z = 0) : bal (SignType.sign x) (SignType.sign y) (SignType.sign z) = true := by
  rcases lt_trichotomy x 0 with hx | hx | hx <;> rcases lt_trichotomy y 0 with hy | hy | hy <;> rcases lt_trichotomy z 0 with hz | hz | hz <;>
    first
      | (exfalso; linarith)
      | (simp only [hx, hy, hz, sign_neg, sign_pos, sign_zero]; decide)

/-- What a triangle contributes, by the signs. -/
def pc (x y z v : SignType) : Int :=
  if x == 1 && y == 1 && z == 1 && v == 1 then 1 else if x == -1 && y == -1 && z == -1 && v == -1 then -1 else 0

def ofB (b : Bool) : SignType := if b then 1 else -1

/-- The statement for the signs. -/
def signCase (ab ac ae bc be ce va vb vc ve : SignType) : Bool :=
  !(bal (vb * ab) (vc * ac) (ve * ae) && bal (-(va * ab)) (vc * bc) (ve * be) && bal (-(va * ac)) (-(vb * bc)) (ve * ce) &&
    bal (-(va * ae)) (-(vb * be)) (-(vc * ce)) && bal (ab * ce) (-(ac * be)) (ae * bc) &&
    (va == 1 || vb == 1 || vc == 1 || ve == 1) && ((va == -1 || vb == -1 || vc == -1 || ve == -1) || (va == 1 && vb == 1 && vc == 1 && ve == 1))) ||
  (pc bc ce (-be) va + pc ae (-ce) (-ac) vb + pc ab be (-ae) vc + pc ac (-bc) (-ab) ve ==
    if va == 1 && vb == 1 && vc == 1 && ve == 1 then 1 else 0)

theorem signs : ∀ ab ac ae bc be ce : Bool, ∀ va vb vc ve : SignType, signCase (ofB ab) (ofB ac) (ofB ae) (ofB bc) (ofB be) (ofB ce) va vb vc ve = true := by
  decide +kernel

theorem mean3 {α β γ : ℝ} {a b c x : Space} (h : IsMean [(α, a), (β, b), (γ, c)] x) :
    α + β + γ = 1 ∧ α * a.1 + β * b.1 + γ * c.1 = x.1 ∧ α * a.2.1 + β * b.2.1 + γ * c.2.1 = x.2.1 ∧ α * a.2.2 + β * b.2.2 + γ * c.2.2 = x.2.2 := by
  obtain ⟨h1, h2, h3, h4⟩ := h
  simp only [List.map_cons, List.map_nil, List.sum_cons, List.sum_nil, add_zero] at h1 h2 h3 h4
  exact ⟨by linarith, by linarith, by linarith, by linarith⟩

theorem mean3' {α β γ : ℝ} {a b c x : Space} (h1 : α + β + γ = 1) (h2 : α * a.1 + β * b.1 + γ * c.1 = x.1)
    (h3 : α * a.2.1 + β * b.2.1 + γ * c.2.1 = x.2.1) (h4 : α * a.2.2 + β * b.2.2 + γ * c.2.2 = x.2.2) : IsMean [(α, a), (β, b), (γ, c)] x := by
  refine ⟨?_, ?_, ?_, ?_⟩ <;> simp only [List.map_cons, List.map_nil, List.sum_cons, List.sum_nil, add_zero] <;> linarith

theorem normal_sum (p d a b c : Space) : det3 (sub b a) (sub c a) d = side p d a b + side p d b c + side p d c a := by
  simp only [side, det3, sub]; ring

/-- Where the ray meets the triangle. -/
theorem meets_sides {p d a b c : Space} {t α β γ : ℝ}
    (h : IsMean [(α, a), (β, b), (γ, c)] (p.1 + t * d.1, p.2.1 + t * d.2.1, p.2.2 + t * d.2.2)) :
    t * side p d a b = γ * vol p a b c ∧ t * side p d b c = α * vol p a b c ∧ t * side p d c a = β * vol p a b c := by
  obtain ⟨h1, h2, h3, h4⟩ := mean3 h
  simp only at h2 h3 h4
  have e1 : t * d.1 = α * (a.1 - p.1) + β * (b.1 - p.1) + γ * (c.1 - p.1) := by linear_combination -h2 + p.1 * h1
  have e2 : t * d.2.1 = α * (a.2.1 - p.2.1) + β * (b.2.1 - p.2.1) + γ * (c.2.1 - p.2.1) := by linear_combination -h3 + p.2.1 * h1
  have e3 : t * d.2.2 = α * (a.2.2 - p.2.2) + β * (b.2.2 - p.2.2) + γ * (c.2.2 - p.2.2) := by linear_combination -h4 + p.2.2 * h1
  have key : ∀ x y : Space, t * side p d x y = det3 (sub x p) (sub y p) (t * d.1, t * d.2.1, t * d.2.2) := by
    intro x y
    simp only [side, det3]; ring
  refine ⟨?_, ?_, ?_⟩ <;> rw [key, e1, e2, e3] <;> simp only [vol, det3, sub] <;> ring

theorem sides_meet {p d a b c : Space} (hS : side p d a b + side p d b c + side p d c a ≠ 0) (hv : 0 < vol p a b c / (side p d a b + side p d b c + side p d c a))
    (h1 : 0 < side p d a b / (side p d a b + side p d b c + side p d c a)) (h2 : 0 < side p d b c / (side p d a b + side p d b c + side p d c a))
    (h3 : 0 < side p d c a / (side p d a b + side p d b c + side p d c a)) : Meets p d a b c := by
  refine ⟨_, _, _, _, hv, h2, h3, h1, mean3' ?_ ?_ ?_ ?_⟩
  · field_simp; ring
  all_goals
    field_simp
    simp only [side, vol, det3, sub]
    ring

theorem piercing_eq (p d a b c : Space) : piercing p d a b c =
    pc (SignType.sign (side p d a b)) (SignType.sign (side p d b c)) (SignType.sign (side p d c a)) (SignType.sign (vol p a b c)) := by
  unfold piercing
  rw [normal_sum p d a b c]
  split_ifs with hm h1 h2
  · obtain ⟨t, α, β, γ, ht, hα, hβ, hγ, h⟩ := hm
    obtain ⟨e1, e2, e3⟩ := meets_sides h
    have hs := (mean3 h).1
    have hv : t * (side p d a b + side p d b c + side p d c a) = vol p a b c := by
      linear_combination e1 + e2 + e3 + vol p a b c * hs
    have hv0 : 0 < vol p a b c := by rw [← hv]; positivity
    have p1 : 0 < side p d a b := pos_of_mul_pos_right (a := t) (by rw [e1]; positivity) ht.le
    have p2 : 0 < side p d b c := pos_of_mul_pos_right (a := t) (by rw [e2]; positivity) ht.le
    have p3 : 0 < side p d c a := pos_of_mul_pos_right (a := t) (by rw [e3]; positivity) ht.le
    rw [sign_pos p1, sign_pos p2, sign_pos p3, sign_pos hv0]
    rfl
  · obtain ⟨t, α, β, γ, ht, hα, hβ, hγ, h⟩ := hm
    obtain ⟨e1, e2, e3⟩ := meets_sides h
    have hs := (mean3 h).1
    have hv : t * (side p d a b + side p d b c + side p d c a) = vol p a b c := by
      linear_combination e1 + e2 + e3 + vol p a b c * hs
    have hv0 : vol p a b c < 0 := by rw [← hv]; exact mul_neg_of_pos_of_neg ht h2
    have p1 : side p d a b < 0 := by
      by_contra hc; have := mul_neg_of_pos_of_neg hγ hv0; nlinarith [mul_nonneg ht.le (not_lt.1 hc)]
    have p2 : side p d b c < 0 := by
      by_contra hc; have := mul_neg_of_pos_of_neg hα hv0; nlinarith [mul_nonneg ht.le (not_lt.1 hc)]
    have p3 : side p d c a < 0 := by
      by_contra hc; have := mul_neg_of_pos_of_neg hβ hv0; nlinarith [mul_nonneg ht.le (not_lt.1 hc)]
    rw [sign_neg p1, sign_neg p2, sign_neg p3, sign_neg hv0]
    rfl
  · obtain ⟨t, α, β, γ, ht, hα, hβ, hγ, h⟩ := hm
    obtain ⟨e1, e2, e3⟩ := meets_sides h
    have hs := (mean3 h).1
    have h0 : side p d a b + side p d b c + side p d c a = 0 := le_antisymm (not_lt.1 h1) (not_lt.1 h2)
    have hv0 : vol p a b c = 0 := by
      have : t * (side p d a b + side p d b c + side p d c a) = vol p a b c := by linear_combination e1 + e2 + e3 + vol p a b c * hs
      rw [← this, h0, mul_zero]
    rw [hv0, sign_zero]
    unfold pc
    simp
  · unfold pc
    symm
    split_ifs with c1 c2
    · exfalso
      apply hm
      simp only [Bool.and_eq_true, beq_iff_eq, sign_eq_one_iff] at c1
      obtain ⟨⟨⟨x, y⟩, z⟩, v⟩ := c1
      have hS : 0 < side p d a b + side p d b c + side p d c a := by linarith
      exact sides_meet hS.ne' (div_pos v hS) (div_pos x hS) (div_pos y hS) (div_pos z hS)
    · exfalso
      apply hm
      simp only [Bool.and_eq_true, beq_iff_eq, sign_eq_neg_one_iff] at c2
      obtain ⟨⟨⟨x, y⟩, z⟩, v⟩ := c2
      have hS : side p d a b + side p d b c + side p d c a < 0 := by linarith
      exact sides_meet hS.ne (div_pos_of_neg_of_neg v hS) (div_pos_of_neg_of_neg x hS) (div_pos_of_neg_of_neg y hS) (div_pos_of_neg_of_neg z hS)
    · rfl

/-- Turning a triangle changes nothing; reversing it changes the sign. -/
theorem piercing_turn (p d a b c : Space) : piercing p d b c a = piercing p d a b c := by
  have hv : vol p b c a = vol p a b c := by simp only [vol, det3, sub]; ring
  rw [piercing_eq, piercing_eq, hv]
  generalize SignType.sign (side p d a b) = x
  generalize SignType.sign (side p d b c) = y
  generalize SignType.sign (side p d c a) = z
  generalize SignType.sign (vol p a b c) = w
  revert x y z w
  decide

theorem piercing_reverse (p d a b c : Space) : piercing p d a c b = -piercing p d a b c := by
  have hv : vol p a c b = -vol p a b c := by simp only [vol, det3, sub]; ring
  rw [piercing_eq, piercing_eq, hv, side_swap p d c a, side_swap p d b c, side_swap p d a b]
  simp only [Left.sign_neg]
  generalize SignType.sign (side p d a b) = x
  generalize SignType.sign (side p d b c) = y
  generalize SignType.sign (side p d c a) = z
  generalize SignType.sign (vol p a b c) = w
  revert x y z w
  decide

/-! ## The tetrahedron -/

theorem mean4 {α β γ δ : ℝ} {a b c e x : Space} (h : IsMean [(α, a), (β, b), (γ, c), (δ, e)] x) :
    α + β + γ + δ = 1 ∧ α * a.1 + β * b.1 + γ * c.1 + δ * e.1 = x.1 ∧ α * a.2.1 + β * b.2.1 + γ * c.2.1 + δ * e.2.1 = x.2.1 ∧
      α * a.2.2 + β * b.2.2 + γ * c.2.2 + δ * e.2.2 = x.2.2 := by
  obtain ⟨h1, h2, h3, h4⟩ := h
  simp only [List.map_cons, List.map_nil, List.sum_cons, List.sum_nil, add_zero] at h1 h2 h3 h4
  exact ⟨by linarith, by linarith, by linarith, by linarith⟩

theorem vol_sum (p a b c e : Space) : vol p b c e + vol p a e c + vol p a b e + vol p a c b = det3 (sub b a) (sub c a) (sub e a) := by
  simp only [vol, det3, sub]; ring

/-- The weights of a mean are the shares of the volumes. -/
theorem mean_volumes {α β γ δ : ℝ} {a b c e p : Space} (h : IsMean [(α, a), (β, b), (γ, c), (δ, e)] p) :
    vol p b c e = α * det3 (sub b a) (sub c a) (sub e a) ∧ vol p a e c = β * det3 (sub b a) (sub c a) (sub e a) ∧
      vol p a b e = γ * det3 (sub b a) (sub c a) (sub e a) ∧ vol p a c b = δ * det3 (sub b a) (sub c a) (sub e a) := by
  obtain ⟨h1, h2, h3, h4⟩ := mean4 h
  obtain ⟨p1, p2, p3⟩ := p
  simp only at h2 h3 h4
  subst h2 h3 h4
  obtain rfl : α = 1 - β - γ - δ := by linarith
  refine ⟨?_, ?_, ?_, ?_⟩ <;> simp only [vol, det3, sub] <;> ring

theorem inTetrahedron_iff {p a b c e : Space} (h : Positive a b c e) :
    InTetrahedron p a b c e ↔ 0 < vol p b c e ∧ 0 < vol p a e c ∧ 0 < vol p a b e ∧ 0 < vol p a c b := by
  unfold Positive at h
  constructor
  · rintro ⟨α, β, γ, δ, h1, h2, h3, h4, hm⟩
    obtain ⟨e1, e2, e3, e4⟩ := mean_volumes hm
    rw [e1, e2, e3, e4]
    exact ⟨by positivity, by positivity, by positivity, by positivity⟩
  · rintro ⟨h1, h2, h3, h4⟩
    refine ⟨_, _, _, _, div_pos h1 h, div_pos h2 h, div_pos h3 h, div_pos h4 h, ?_⟩
    have hs := vol_sum p a b c e
    have hD := h.ne'
    refine ⟨?_, ?_, ?_, ?_⟩ <;> simp only [List.map_cons, List.map_nil, List.sum_cons, List.sum_nil, add_zero]
    · rw [← add_div, ← add_div, ← add_div, div_eq_one_iff_eq hD]
      linarith
    all_goals
      field_simp
      simp only [vol, det3, sub]
      ring

/-- A point of the tetrahedron (or its boundary) with a zero volume is on a face. -/
theorem on_face {p a b c e : Space} (h : Positive a b c e) (h1 : 0 ≤ vol p b c e) (h2 : 0 ≤ vol p a e c) (h3 : 0 ≤ vol p a b e) (h4 : 0 ≤ vol p a c b)
    (h0 : vol p b c e = 0 ∨ vol p a e c = 0 ∨ vol p a b e = 0 ∨ vol p a c b = 0) :
    OnTriangle p b c e ∨ OnTriangle p a e c ∨ OnTriangle p a b e ∨ OnTriangle p a c b := by
  have hD : 0 < det3 (sub b a) (sub c a) (sub e a) := h
  have hs := vol_sum p a b c e
  have x1 : vol p b c e * a.1 + vol p a e c * b.1 + vol p a b e * c.1 + vol p a c b * e.1 = det3 (sub b a) (sub c a) (sub e a) * p.1 := by
    simp only [vol, det3, sub]; ring
  have x2 : vol p b c e * a.2.1 + vol p a e c * b.2.1 + vol p a b e * c.2.1 + vol p a c b * e.2.1 = det3 (sub b a) (sub c a) (sub e a) * p.2.1 := by
    simp only [vol, det3, sub]; ring
  have x3 : vol p b c e * a.2.2 + vol p a e c * b.2.2 + vol p a b e * c.2.2 + vol p a c b * e.2.2 = det3 (sub b a) (sub c a) (sub e a) * p.2.2 := by
    simp only [vol, det3, sub]; ring
  generalize det3 (sub b a) (sub c a) (sub e a) = D at *
  generalize vol p b c e = va at *
  generalize vol p a e c = vb at *
  generalize vol p a b e = vc at *
  generalize vol p a c b = ve at *
  rcases h0 with rfl | rfl | rfl | rfl
  · refine .inl ⟨vb / D, vc / D, ve / D, by positivity, by positivity, by positivity, mean3' ?_ ?_ ?_ ?_⟩ <;> field_simp <;> linarith
  · refine .inr (.inl ⟨va / D, ve / D, vc / D, by positivity, by positivity, by positivity, mean3' ?_ ?_ ?_ ?_⟩) <;> field_simp <;> linarith
  · refine .inr (.inr (.inl ⟨va / D, vb / D, ve / D, by positivity, by positivity, by positivity, mean3' ?_ ?_ ?_ ?_⟩)) <;> field_simp <;> linarith
  · refine .inr (.inr (.inr ⟨va / D, vc / D, vb / D, by positivity, by positivity, by positivity, mean3' ?_ ?_ ?_ ?_⟩)) <;> field_simp <;> linarith

theorem sign_ofB {x : ℝ} (h : x ≠ 0) : SignType.sign x = ofB (decide (0 < x)) := by
  rcases lt_or_gt_of_ne h with h | h
  · rw [sign_neg h]; simp [ofB, not_lt.2 h.le]
  · rw [sign_pos h]; simp [ofB, h]

open Classical in
/-- A ray leaves a tetrahedron once more than it enters it exactly if it starts inside. -/
theorem pierce_tetrahedron {p d a b c e : Space} (h : Positive a b c e) (hab : PassesBy p d a b) (hac : PassesBy p d a c) (hae : PassesBy p d a e)
    (hbc : PassesBy p d b c) (hbe : PassesBy p d b e) (hce : PassesBy p d c e)
    (hp : ¬ (OnTriangle p b c e ∨ OnTriangle p a e c ∨ OnTriangle p a b e ∨ OnTriangle p a c b)) :
    piercing p d b c e + piercing p d a e c + piercing p d a b e + piercing p d a c b = if InTetrahedron p a b c e then 1 else 0 := by
  have hin := inTetrahedron_iff (p := p) h
  have hsum := vol_sum p a b c e
  have hD : 0 < det3 (sub b a) (sub c a) (sub e a) := h
  rw [← hsum] at hD
  have hface := fun h1 h2 h3 h4 h0 => hp (on_face (p := p) h h1 h2 h3 h4 h0)
  rw [piercing_eq, piercing_eq, piercing_eq, piercing_eq]
  have r1 : vol p a e c * side p d a b + vol p a b e * side p d a c + vol p a c b * side p d a e = 0 := by
    simp only [vol, side, det3, sub]; ring
  have r2 : -(vol p b c e * side p d a b) + vol p a b e * side p d b c + vol p a c b * side p d b e = 0 := by
    simp only [vol, side, det3, sub]; ring
  have r3 : -(vol p b c e * side p d a c) + -(vol p a e c * side p d b c) + vol p a c b * side p d c e = 0 := by
    simp only [vol, side, det3, sub]; ring
  have r4 : -(vol p b c e * side p d a e) + -(vol p a e c * side p d b e) + -(vol p a b e * side p d c e) = 0 := by
    simp only [vol, side, det3, sub]; ring
  have r5 : side p d a b * side p d c e + -(side p d a c * side p d b e) + side p d a e * side p d b c = 0 := by
    simp only [side, det3, sub]; ring
  have b1 := bal_of r1
  have b2 := bal_of r2
  have b3 := bal_of r3
  have b4 := bal_of r4
  have b5 := bal_of r5
  simp only [Left.sign_neg, sign_mul] at b1 b2 b3 b4 b5
  rw [side_swap p d b e, side_swap p d c e, side_swap p d a c, side_swap p d a e, side_swap p d b c, side_swap p d a b]
  simp only [Left.sign_neg]
  have key := signs (decide (0 < side p d a b)) (decide (0 < side p d a c)) (decide (0 < side p d a e)) (decide (0 < side p d b c))
    (decide (0 < side p d b e)) (decide (0 < side p d c e)) (SignType.sign (vol p b c e)) (SignType.sign (vol p a e c)) (SignType.sign (vol p a b e))
    (SignType.sign (vol p a c b))
  have hab : side p d a b ≠ 0 := hab
  have hac : side p d a c ≠ 0 := hac
  have hae : side p d a e ≠ 0 := hae
  have hbc : side p d b c ≠ 0 := hbc
  have hbe : side p d b e ≠ 0 := hbe
  have hce : side p d c e ≠ 0 := hce
  rw [← sign_ofB hab, ← sign_ofB hac, ← sign_ofB hae, ← sign_ofB hbc, ← sign_ofB hbe, ← sign_ofB hce] at key
  unfold signCase at key
  rw [b1, b2, b3, b4, b5] at key
  have c1 : (SignType.sign (vol p b c e) == 1 || SignType.sign (vol p a e c) == 1 || SignType.sign (vol p a b e) == 1 || SignType.sign (vol p a c b) == 1) = true := by
    by_contra hc
    simp only [Bool.or_eq_true, beq_iff_eq, sign_eq_one_iff, not_or, not_lt] at hc
    linarith [hc.1.1.1, hc.1.1.2, hc.1.2, hc.2]
  have c2 : ((SignType.sign (vol p b c e) == -1 || SignType.sign (vol p a e c) == -1 || SignType.sign (vol p a b e) == -1 || SignType.sign (vol p a c b) == -1) ||
      (SignType.sign (vol p b c e) == 1 && SignType.sign (vol p a e c) == 1 && SignType.sign (vol p a b e) == 1 && SignType.sign (vol p a c b) == 1)) = true := by
    by_contra hc
    simp only [Bool.or_eq_true, Bool.and_eq_true, beq_iff_eq, sign_eq_one_iff, sign_eq_neg_one_iff, not_or, not_lt, not_and_or] at hc
    obtain ⟨⟨⟨⟨n1, n2⟩, n3⟩, n4⟩, n5⟩ := hc
    refine hface n1 n2 n3 n4 ?_
    rcases n5 with ((n | n) | n) | n
    · exact .inl (le_antisymm n n1)
    · exact .inr (.inl (le_antisymm n n2))
    · exact .inr (.inr (.inl (le_antisymm n n3)))
    · exact .inr (.inr (.inr (le_antisymm n n4)))
  rw [c1, c2] at key
  simp only [Bool.and_self, Bool.not_true, Bool.false_or, beq_iff_eq] at key
  rw [key]
  by_cases hi : InTetrahedron p a b c e
  · obtain ⟨q1, q2, q3, q4⟩ := hin.1 hi
    rw [if_pos hi, sign_pos q1, sign_pos q2, sign_pos q3, sign_pos q4]
    rfl
  · rw [if_neg hi, if_neg]
    intro hh
    simp only [Bool.and_eq_true, beq_iff_eq, sign_eq_one_iff] at hh
    exact hi (hin.2 ⟨hh.1.1.1, hh.1.1.2, hh.1.2, hh.2⟩)

end
end Gemlab.Piercing
