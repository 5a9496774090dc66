import Verif.Spec.Winding
import Mathlib.Tactic.LinearCombination
import Mathlib.Tactic.Linarith
import Mathlib.Tactic.FieldSimp

/-!
# Winding numbers of convex triangles and quadrilaterals
-/
namespace Gemlab.Mesh
noncomputable section

theorem sideOf_swap (a b p : ℝ × ℝ) : sideOf b a p = -sideOf a b p := by
  unfold sideOf; ring

theorem sideOf_cycle (a b p : ℝ × ℝ) : sideOf b p a = sideOf a b p := by
  unfold sideOf; ring

theorem crossing_swap (p a b : ℝ × ℝ) : crossing p b a = -crossing p a b := by
  unfold crossing
  rw [sideOf_swap a b p]
  by_cases h1 : a.2 ≤ p.2 ∧ p.2 < b.2 ∧ 0 < sideOf a b p
  · rw [if_neg (fun h => by linarith [h.1, h1.2.1]), if_pos ⟨h1.1, h1.2.1, by linarith [h1.2.2]⟩, if_pos h1]
  · rw [if_neg h1]
    by_cases h2 : b.2 ≤ p.2 ∧ p.2 < a.2 ∧ sideOf a b p < 0
    · rw [if_pos ⟨h2.1, h2.2.1, by linarith [h2.2.2]⟩, if_pos h2]; simp
    · rw [if_neg (fun h => h2 ⟨h.1, h.2.1, by linarith [h.2.2]⟩), if_neg (fun h => h1 ⟨h.1, h.2.1, by linarith [h.2.2]⟩), if_neg h2]; simp

theorem crossing_up {p a b : ℝ × ℝ} (ha : a.2 ≤ p.2) (hb : p.2 < b.2) : crossing p a b = if 0 < sideOf a b p then 1 else 0 := by
  unfold crossing
  by_cases h : 0 < sideOf a b p
  · rw [if_pos ⟨ha, hb, h⟩, if_pos h]
  · rw [if_neg (fun q => h q.2.2), if_neg (fun q => by linarith [q.1]), if_neg h]

theorem crossing_down {p a b : ℝ × ℝ} (ha : p.2 < a.2) (hb : b.2 ≤ p.2) : crossing p a b = if sideOf a b p < 0 then -1 else 0 := by
  unfold crossing
  rw [if_neg (fun q => by linarith [q.1])]
  by_cases h : sideOf a b p < 0
  · rw [if_pos ⟨hb, ha, h⟩, if_pos h]
  · rw [if_neg (fun q => h q.2.2), if_neg h]

theorem crossing_low {p a b : ℝ × ℝ} (ha : a.2 ≤ p.2) (hb : b.2 ≤ p.2) : crossing p a b = 0 := by
  unfold crossing
  rw [if_neg (fun q => by linarith [q.2.1]), if_neg (fun q => by linarith [q.2.1])]

theorem crossing_high {p a b : ℝ × ℝ} (ha : p.2 < a.2) (hb : p.2 < b.2) : crossing p a b = 0 := by
  unfold crossing
  rw [if_neg (fun q => by linarith [q.1]), if_neg (fun q => by linarith [q.1])]

/-- A point of the line of a side at a height between the ends is on the side. -/
theorem on_side {p a b : ℝ × ℝ} (ha : a.2 ≤ p.2) (hb : p.2 < b.2) (h : sideOf a b p = 0) : p ∈ segment ℝ a b := by
  have hu : 0 < b.2 - a.2 := by linarith
  refine ⟨(b.2 - p.2) / (b.2 - a.2), (p.2 - a.2) / (b.2 - a.2), by apply div_nonneg <;> linarith, by apply div_nonneg <;> linarith, by field_simp; ring, ?_⟩
  unfold sideOf at h
  apply Prod.ext
  · show (b.2 - p.2) / (b.2 - a.2) * a.1 + (p.2 - a.2) / (b.2 - a.2) * b.1 = p.1
    field_simp
    linear_combination h
  · show (b.2 - p.2) / (b.2 - a.2) * a.2 + (p.2 - a.2) / (b.2 - a.2) * b.2 = p.2
    field_simp
    ring

theorem on_level {p a d : ℝ × ℝ} (ha : a.2 = p.2) (hd : d.2 = p.2) (h1 : d.1 ≤ p.1) (h2 : p.1 ≤ a.1) (hne : d.1 < a.1) : p ∈ segment ℝ d a := by
  have hu : 0 < a.1 - d.1 := by linarith
  refine ⟨(a.1 - p.1) / (a.1 - d.1), (p.1 - d.1) / (a.1 - d.1), by apply div_nonneg <;> linarith, by apply div_nonneg <;> linarith, by field_simp; ring, ?_⟩
  apply Prod.ext
  · show (a.1 - p.1) / (a.1 - d.1) * d.1 + (p.1 - d.1) / (a.1 - d.1) * a.1 = p.1
    field_simp
    ring
  · show (a.1 - p.1) / (a.1 - d.1) * d.2 + (p.1 - d.1) / (a.1 - d.1) * a.2 = p.2
    rw [ha, hd]; field_simp; ring

/-- The rising side `a b` and the falling side `c d` at the height of `p`: interpolation along the level line. -/
theorem level_identity (p a b c d e f : ℝ × ℝ) :
    (sideOf a b p * (c.2 - d.2) + sideOf c d p * (b.2 - a.2)) * sideOf e f p =
      sideOf c d p * ((b.2 - p.2) * sideOf e f a + (p.2 - a.2) * sideOf e f b) +
      sideOf a b p * ((c.2 - p.2) * sideOf e f d + (p.2 - d.2) * sideOf e f c) := by
  unfold sideOf; ring

/-- The two crossings add up to one if `p` is between the sides and to zero otherwise. -/
theorem two_crossings {p a b c d : ℝ × ℝ} (ha : a.2 ≤ p.2) (hb : p.2 < b.2) (hc : p.2 < c.2) (hd : d.2 ≤ p.2)
    (h1 : 0 ≤ sideOf a b c) (h2 : 0 ≤ sideOf a b d) (n1 : p ∉ segment ℝ a b) (n2 : p ∉ segment ℝ c d) :
    crossing p a b + crossing p c d = if 0 < sideOf a b p ∧ 0 < sideOf c d p then 1 else 0 := by
  have z1 : sideOf a b p ≠ 0 := fun h => n1 (on_side ha hb h)
  have z2 : sideOf c d p ≠ 0 := fun h => n2 (by
    rw [segment_symm]; exact on_side hd hc (by rw [sideOf_swap, h, neg_zero]))
  rw [crossing_up ha hb, crossing_down hc hd]
  rcases lt_or_gt_of_ne z1 with p1 | p1 <;> rcases lt_or_gt_of_ne z2 with p2 | p2
  · exfalso
    have := level_identity p a b c d a b
    have e1 : sideOf a b a = 0 := by unfold sideOf; ring
    have e2 : sideOf a b b = 0 := by unfold sideOf; ring
    rw [e1, e2] at this
    have k : sideOf a b p * (c.2 - d.2) + sideOf c d p * (b.2 - a.2) = (c.2 - p.2) * sideOf a b d + (p.2 - d.2) * sideOf a b c := by
      apply mul_right_cancel₀ z1
      linarith
    have k1 : sideOf a b p * (c.2 - d.2) < 0 := mul_neg_of_neg_of_pos p1 (by linarith)
    have k2 : sideOf c d p * (b.2 - a.2) < 0 := mul_neg_of_neg_of_pos p2 (by linarith)
    have k3 : 0 ≤ (c.2 - p.2) * sideOf a b d := mul_nonneg (by linarith) h2
    have k4 : 0 ≤ (p.2 - d.2) * sideOf a b c := mul_nonneg (by linarith) h1
    linarith
  · rw [if_neg (by linarith), if_neg (by linarith), if_neg (fun h => by linarith [h.1])]; rfl
  · rw [if_pos p1, if_pos p2, if_neg (fun h => by linarith [h.2])]; rfl
  · rw [if_pos p1, if_neg (by linarith), if_pos ⟨p1, p2⟩]; rfl

/-- Between the sides, a third side with a strictly positive low corner has `p` on its left. -/
theorem third_side {p a b c d e f : ℝ × ℝ} (ha : a.2 ≤ p.2) (hb : p.2 < b.2) (hc : p.2 < c.2) (hd : d.2 ≤ p.2)
    (p1 : 0 < sideOf a b p) (p2 : 0 < sideOf c d p) (ga : 0 ≤ sideOf e f a) (gb : 0 ≤ sideOf e f b) (gc : 0 ≤ sideOf e f c)
    (gd : 0 ≤ sideOf e f d) (g : 0 < sideOf e f a ∨ 0 < sideOf e f d) : 0 < sideOf e f p := by
  have k := level_identity p a b c d e f
  have w : 0 < sideOf a b p * (c.2 - d.2) + sideOf c d p * (b.2 - a.2) :=
    add_pos (mul_pos p1 (by linarith)) (mul_pos p2 (by linarith))
  have t1 : 0 ≤ (b.2 - p.2) * sideOf e f a := mul_nonneg (by linarith) ga
  have t2 : 0 ≤ (p.2 - a.2) * sideOf e f b := mul_nonneg (by linarith) gb
  have t3 : 0 ≤ (c.2 - p.2) * sideOf e f d := mul_nonneg (by linarith) gd
  have t4 : 0 ≤ (p.2 - d.2) * sideOf e f c := mul_nonneg (by linarith) gc
  have r : 0 < (sideOf a b p * (c.2 - d.2) + sideOf c d p * (b.2 - a.2)) * sideOf e f p := by
    rw [k]
    rcases g with g | g
    · exact add_pos_of_pos_of_nonneg (mul_pos p2 (add_pos_of_pos_of_nonneg (mul_pos (by linarith) g) t2)) (mul_nonneg p1.le (add_nonneg t3 t4))
    · exact add_pos_of_nonneg_of_pos (mul_nonneg p2.le (add_nonneg t1 t2)) (mul_pos p1 (add_pos_of_pos_of_nonneg (mul_pos (by linarith) g) t4))
  exact pos_of_mul_pos_right r w.le

/-- Between the sides, the low side `d a` has `p` on its left unless `p` is on it. -/
theorem low_side {p a b c d : ℝ × ℝ} (ha : a.2 ≤ p.2) (hb : p.2 < b.2) (hc : p.2 < c.2) (hd : d.2 ≤ p.2)
    (p1 : 0 < sideOf a b p) (p2 : 0 < sideOf c d p) (gb : 0 < sideOf d a b) (gc : 0 < sideOf d a c) (n : p ∉ segment ℝ d a) : 0 < sideOf d a p := by
  have k := level_identity p a b c d d a
  have e1 : sideOf d a a = 0 := by unfold sideOf; ring
  have e2 : sideOf d a d = 0 := by unfold sideOf; ring
  rw [e1, e2, mul_zero, mul_zero, zero_add, zero_add] at k
  have w : 0 < sideOf a b p * (c.2 - d.2) + sideOf c d p * (b.2 - a.2) :=
    add_pos (mul_pos p1 (by linarith)) (mul_pos p2 (by linarith))
  rcases lt_or_eq_of_le ha with ha' | ha'
  · refine pos_of_mul_pos_right (a := _) ?_ w.le
    rw [k]
    exact add_pos_of_pos_of_nonneg (mul_pos p2 (mul_pos (by linarith) gb)) (mul_nonneg p1.le (mul_nonneg (by linarith) gc.le))
  rcases lt_or_eq_of_le hd with hd' | hd'
  · refine pos_of_mul_pos_right (a := _) ?_ w.le
    rw [k]
    exact add_pos_of_nonneg_of_pos (mul_nonneg p2.le (mul_nonneg (by linarith) gb.le)) (mul_pos p1 (mul_pos (by linarith) gc))
  · exfalso
    unfold sideOf at p1 p2
    rw [ha', sub_self, mul_zero, zero_sub, ← neg_mul, neg_sub] at p1
    have q1 : 0 < a.1 - p.1 := pos_of_mul_pos_left p1 (by linarith)
    have q2 : 0 < (p.1 - d.1) * (c.2 - p.2) := by rw [hd'] at p2; nlinarith
    have q3 : 0 < p.1 - d.1 := pos_of_mul_pos_left q2 (by linarith)
    exact n (on_level ha' hd' (by linarith) (by linarith) (by linarith))

/-- The triangle `a b c` runs around `p` once if `p` is inside and not at all otherwise. -/
def Wind3 (p a b c : ℝ × ℝ) : Prop :=
  crossing p a b + crossing p b c + crossing p c a = if 0 < sideOf a b p ∧ 0 < sideOf b c p ∧ 0 < sideOf c a p then 1 else 0

/-- The quadrilateral `a b c d` runs around `p` once if `p` is inside and not at all otherwise. -/
def Wind4 (p a b c d : ℝ × ℝ) : Prop :=
  crossing p a b + crossing p b c + crossing p c d + crossing p d a =
    if 0 < sideOf a b p ∧ 0 < sideOf b c p ∧ 0 < sideOf c d p ∧ 0 < sideOf d a p then 1 else 0

theorem Wind3.rot {p a b c : ℝ × ℝ} (h : Wind3 p a b c) : Wind3 p b c a := by
  unfold Wind3 at *
  rw [show crossing p b c + crossing p c a + crossing p a b = crossing p a b + crossing p b c + crossing p c a by ring, h]
  congr 1
  apply propext; tauto

theorem Wind4.rot {p a b c d : ℝ × ℝ} (h : Wind4 p a b c d) : Wind4 p b c d a := by
  unfold Wind4 at *
  rw [show crossing p b c + crossing p c d + crossing p d a + crossing p a b = crossing p a b + crossing p b c + crossing p c d + crossing p d a by ring, h]
  congr 1
  apply propext; tauto

theorem ite_same {P Q : Prop} [Decidable P] [Decidable Q] {x : ℤ} (hx : x = if P then 1 else 0) (h : P ↔ Q) : x = if Q then 1 else 0 := by
  rw [hx]; congr 1; exact propext h

/-- Barycentric identity. -/
theorem bary (a b c p : ℝ × ℝ) (H : ℝ) :
    sideOf b c p * (a.2 - H) + sideOf c a p * (b.2 - H) + sideOf a b p * (c.2 - H) = sideOf a b c * (p.2 - H) := by
  unfold sideOf; ring

theorem wind3 {p a b c : ℝ × ℝ} (t : 0 < sideOf a b c) (n1 : p ∉ segment ℝ a b) (n2 : p ∉ segment ℝ b c) (n3 : p ∉ segment ℝ c a) : Wind3 p a b c := by
  -- one low corner
  have one : ∀ {a b c : ℝ × ℝ}, 0 < sideOf a b c → p ∉ segment ℝ a b → p ∉ segment ℝ b c → p ∉ segment ℝ c a →
      a.2 ≤ p.2 → p.2 < b.2 → p.2 < c.2 → Wind3 p a b c := by
    intro a b c t n1 n2 n3 ha hb hc
    have e0 : sideOf a b a = 0 := by unfold sideOf; ring
    have e1 : sideOf b c b = 0 := by unfold sideOf; ring
    have e2 : sideOf b c c = 0 := by unfold sideOf; ring
    have e3 : 0 < sideOf b c a := by rw [sideOf_cycle]; exact t
    unfold Wind3
    rw [crossing_high hb hc, add_zero]
    refine ite_same (two_crossings ha hb hc ha t.le e0.ge n1 n3) ⟨fun h => ⟨h.1, ?_, h.2⟩, fun h => ⟨h.1, h.2.2⟩⟩
    exact third_side ha hb hc ha h.1 h.2 e3.le e1.ge e2.ge e3.le (Or.inl e3)
  -- two low corners
  have two : ∀ {a b c : ℝ × ℝ}, 0 < sideOf a b c → p ∉ segment ℝ a b → p ∉ segment ℝ b c → p ∉ segment ℝ c a →
      a.2 ≤ p.2 → p.2 < b.2 → c.2 ≤ p.2 → Wind3 p a b c := by
    intro a b c t n1 n2 n3 ha hb hc
    have e1 : sideOf a b b = 0 := by unfold sideOf; ring
    have e3 : 0 < sideOf c a b := by rw [sideOf_cycle, sideOf_cycle]; exact t
    unfold Wind3
    rw [crossing_low hc ha, add_zero]
    refine ite_same (two_crossings ha hb hb hc e1.ge t.le n1 n2) ⟨fun h => ⟨h.1, h.2, ?_⟩, fun h => ⟨h.1, h.2.1⟩⟩
    exact low_side ha hb hb hc h.1 h.2 e3 e3 n3
  have t2 : 0 < sideOf b c a := by rw [sideOf_cycle]; exact t
  have t3 : 0 < sideOf c a b := by rw [sideOf_cycle]; exact t2
  rcases le_or_gt a.2 p.2 with ha | ha <;> rcases le_or_gt b.2 p.2 with hb | hb <;> rcases le_or_gt c.2 p.2 with hc | hc
  · unfold Wind3
    rw [crossing_low ha hb, crossing_low hb hc, crossing_low hc ha, if_neg]
    · rfl
    · rintro ⟨s1, s2, s3⟩
      have k := bary a b c p p.2
      have q1 : sideOf b c p * (a.2 - p.2) ≤ 0 := mul_nonpos_of_nonneg_of_nonpos s2.le (by linarith)
      have q2 : sideOf c a p * (b.2 - p.2) ≤ 0 := mul_nonpos_of_nonneg_of_nonpos s3.le (by linarith)
      have q3 : sideOf a b p * (c.2 - p.2) ≤ 0 := mul_nonpos_of_nonneg_of_nonpos s1.le (by linarith)
      rw [sub_self p.2, mul_zero] at k
      have r1 : a.2 - p.2 = 0 := by
        have : sideOf b c p * (a.2 - p.2) = 0 := by linarith
        rcases mul_eq_zero.1 this with h | h
        · linarith
        · exact h
      have r2 : b.2 - p.2 = 0 := by
        have : sideOf c a p * (b.2 - p.2) = 0 := by linarith
        rcases mul_eq_zero.1 this with h | h
        · linarith
        · exact h
      have r3 : c.2 - p.2 = 0 := by
        have : sideOf a b p * (c.2 - p.2) = 0 := by linarith
        rcases mul_eq_zero.1 this with h | h
        · linarith
        · exact h
      have : sideOf a b c = 0 := by
        unfold sideOf
        rw [show c.2 - a.2 = 0 by linarith, show b.2 - a.2 = 0 by linarith]; ring
      linarith
  · exact (two t2 n2 n3 n1 hb hc ha).rot.rot
  · exact (two t n1 n2 n3 ha hb hc)
  · exact one t n1 n2 n3 ha hb hc
  · exact (two t3 n3 n1 n2 hc ha hb).rot
  · exact (one t2 n2 n3 n1 hb hc ha).rot.rot
  · exact (one t3 n3 n1 n2 hc ha hb).rot
  · unfold Wind3
    rw [crossing_high ha hb, crossing_high hb hc, crossing_high hc ha, if_neg]
    · rfl
    · rintro ⟨s1, s2, s3⟩
      have k := bary a b c p p.2
      have q1 : 0 < sideOf b c p * (a.2 - p.2) := mul_pos s2 (by linarith)
      have q2 : 0 < sideOf c a p * (b.2 - p.2) := mul_pos s3 (by linarith)
      have q3 : 0 < sideOf a b p * (c.2 - p.2) := mul_pos s1 (by linarith)
      rw [sub_self p.2, mul_zero] at k
      linarith

theorem wind4 {p a b c d : ℝ × ℝ} (t1 : 0 < sideOf a b c) (t2 : 0 < sideOf b c d) (t3 : 0 < sideOf c d a) (t4 : 0 < sideOf d a b)
    (n1 : p ∉ segment ℝ a b) (n2 : p ∉ segment ℝ b c) (n3 : p ∉ segment ℝ c d) (n4 : p ∉ segment ℝ d a) : Wind4 p a b c d := by
  have z : ∀ x y : ℝ × ℝ, sideOf x y x = 0 := by intro x y; unfold sideOf; ring
  have z' : ∀ x y : ℝ × ℝ, sideOf x y y = 0 := by intro x y; unfold sideOf; ring
  have r : ∀ {x y w : ℝ × ℝ}, 0 < sideOf x y w → 0 < sideOf y w x := by intro x y w h; rw [sideOf_cycle]; exact h
  -- one low corner
  have one : ∀ {a b c d : ℝ × ℝ}, 0 < sideOf a b c → 0 < sideOf b c d → 0 < sideOf c d a → 0 < sideOf d a b →
      p ∉ segment ℝ a b → p ∉ segment ℝ d a → a.2 ≤ p.2 → p.2 < b.2 → p.2 < c.2 → p.2 < d.2 → Wind4 p a b c d := by
    intro a b c d t1 t2 t3 t4 n1 n4 ha hb hc hd
    unfold Wind4
    rw [crossing_high hb hc, crossing_high hc hd, add_zero, add_zero]
    refine ite_same (two_crossings ha hb hd ha (r t4).le (z a b).ge n1 n4) ⟨fun h => ⟨h.1, ?_, ?_, h.2⟩, fun h => ⟨h.1, h.2.2.2⟩⟩
    · exact third_side ha hb hd ha h.1 h.2 (r t1).le (z b c).ge t2.le (r t1).le (Or.inl (r t1))
    · exact third_side ha hb hd ha h.1 h.2 t3.le (r t2).le (z' c d).ge t3.le (Or.inl t3)
  -- two low corners
  have two : ∀ {a b c d : ℝ × ℝ}, 0 < sideOf a b c → 0 < sideOf b c d → 0 < sideOf c d a → 0 < sideOf d a b →
      p ∉ segment ℝ a b → p ∉ segment ℝ c d → p ∉ segment ℝ d a → a.2 ≤ p.2 → p.2 < b.2 → p.2 < c.2 → d.2 ≤ p.2 → Wind4 p a b c d := by
    intro a b c d t1 t2 t3 t4 n1 n3 n4 ha hb hc hd
    unfold Wind4
    rw [crossing_high hb hc, crossing_low hd ha, add_zero, add_zero]
    refine ite_same (two_crossings ha hb hc hd t1.le (r t4).le n1 n3) ⟨fun h => ⟨h.1, ?_, h.2, ?_⟩, fun h => ⟨h.1, h.2.2.1⟩⟩
    · exact third_side ha hb hc hd h.1 h.2 (r t1).le (z b c).ge (z' b c).ge t2.le (Or.inl (r t1))
    · exact low_side ha hb hc hd h.1 h.2 t4 (r t3) n4
  -- three low corners
  have three : ∀ {a b c d : ℝ × ℝ}, 0 < sideOf a b c → 0 < sideOf b c d → 0 < sideOf c d a → 0 < sideOf d a b →
      p ∉ segment ℝ a b → p ∉ segment ℝ b c → a.2 ≤ p.2 → p.2 < b.2 → c.2 ≤ p.2 → d.2 ≤ p.2 → Wind4 p a b c d := by
    intro a b c d t1 t2 t3 t4 n1 n2 ha hb hc hd
    unfold Wind4
    rw [crossing_low hc hd, crossing_low hd ha, add_zero, add_zero]
    refine ite_same (two_crossings ha hb hb hc (z' a b).ge t1.le n1 n2) ⟨fun h => ⟨h.1, h.2, ?_, ?_⟩, fun h => ⟨h.1, h.2.1⟩⟩
    · exact third_side ha hb hb hc h.1 h.2 t3.le (r t2).le (r t2).le (z c d).ge (Or.inl t3)
    · exact third_side ha hb hb hc h.1 h.2 (z' d a).ge t4.le t4.le (r t3).le (Or.inr (r t3))
  -- alternating corners
  have alt : ∀ {a b c d : ℝ × ℝ}, 0 < sideOf a b c → 0 < sideOf b c d → 0 < sideOf c d a → 0 < sideOf d a b →
      a.2 ≤ p.2 → p.2 < b.2 → c.2 ≤ p.2 → p.2 < d.2 → False := by
    intro a b c d t1 t2 t3 t4 ha hb hc hd
    have k : sideOf b c d * (a.2 - p.2) + sideOf d a b * (c.2 - p.2) = sideOf c d a * (b.2 - p.2) + sideOf a b c * (d.2 - p.2) := by
      unfold sideOf; ring
    have q1 := mul_nonpos_of_nonneg_of_nonpos t2.le (sub_nonpos.2 ha)
    have q2 := mul_nonpos_of_nonneg_of_nonpos t4.le (sub_nonpos.2 hc)
    have q3 := mul_pos t3 (sub_pos.2 hb)
    have q4 := mul_pos t1 (sub_pos.2 hd)
    linarith
  -- the two triangles of the diagonal
  have low : ∀ {a b c d : ℝ × ℝ}, 0 < sideOf a b c → 0 < sideOf c d a →
      a.2 ≤ p.2 → b.2 ≤ p.2 → c.2 ≤ p.2 → d.2 ≤ p.2 → 0 < sideOf a b p → 0 < sideOf b c p → 0 ≤ sideOf c a p → False := by
    intro a b c d t1 t3 ha hb hc hd s1 s2 s3
    have k := bary a b c p p.2
    have q1 : sideOf b c p * (a.2 - p.2) ≤ 0 := mul_nonpos_of_nonneg_of_nonpos s2.le (by linarith)
    have q2 : sideOf c a p * (b.2 - p.2) ≤ 0 := mul_nonpos_of_nonneg_of_nonpos s3 (by linarith)
    have q3 : sideOf a b p * (c.2 - p.2) ≤ 0 := mul_nonpos_of_nonneg_of_nonpos s1.le (by linarith)
    rw [sub_self p.2, mul_zero] at k
    have r1 : a.2 - p.2 = 0 := by
      have : sideOf b c p * (a.2 - p.2) = 0 := by linarith
      rcases mul_eq_zero.1 this with h | h
      · linarith
      · exact h
    have r3 : c.2 - p.2 = 0 := by
      have : sideOf a b p * (c.2 - p.2) = 0 := by linarith
      rcases mul_eq_zero.1 this with h | h
      · linarith
      · exact h
    have u1 : sideOf a b c = (a.1 - c.1) * (b.2 - p.2) := by
      unfold sideOf
      rw [show a.2 = p.2 by linarith, show c.2 = p.2 by linarith]; ring
    have u3 : sideOf c d a = (c.1 - a.1) * (d.2 - p.2) := by
      unfold sideOf
      rw [show a.2 = p.2 by linarith, show c.2 = p.2 by linarith]; ring
    rw [u1] at t1
    rw [u3] at t3
    rcases le_total a.1 c.1 with h | h
    · have := mul_nonpos_of_nonneg_of_nonpos (sub_nonneg.2 h) (sub_nonpos.2 hd)
      linarith
    · have := mul_nonpos_of_nonneg_of_nonpos (sub_nonneg.2 h) (sub_nonpos.2 hb)
      linarith
  have high : ∀ {a b c : ℝ × ℝ}, p.2 < a.2 → p.2 < b.2 → p.2 < c.2 → 0 < sideOf a b p → 0 < sideOf b c p → 0 ≤ sideOf c a p → False := by
    intro a b c ha hb hc s1 s2 s3
    have k := bary a b c p p.2
    have q1 : 0 < sideOf b c p * (a.2 - p.2) := mul_pos s2 (by linarith)
    have q2 : 0 ≤ sideOf c a p * (b.2 - p.2) := mul_nonneg s3 (by linarith)
    have q3 : 0 < sideOf a b p * (c.2 - p.2) := mul_pos s1 (by linarith)
    rw [sub_self p.2, mul_zero] at k
    linarith
  rcases le_or_gt a.2 p.2 with ha | ha <;> rcases le_or_gt b.2 p.2 with hb | hb <;> rcases le_or_gt c.2 p.2 with hc | hc <;>
    rcases le_or_gt d.2 p.2 with hd | hd
  · unfold Wind4
    rw [crossing_low ha hb, crossing_low hb hc, crossing_low hc hd, crossing_low hd ha, if_neg]
    · rfl
    · rintro ⟨s1, s2, s3, s4⟩
      rcases le_total 0 (sideOf c a p) with h | h
      · exact low t1 t3 ha hb hc hd s1 s2 h
      · exact low t3 t1 hc hd ha hb s3 s4 (by rw [sideOf_swap]; linarith)
  · exact (three t3 t4 t1 t2 n3 n4 hc hd ha hb).rot.rot
  · exact (three t2 t3 t4 t1 n2 n3 hb hc hd ha).rot.rot.rot
  · exact (two t2 t3 t4 t1 n2 n4 n1 hb hc hd ha).rot.rot.rot
  · exact three t1 t2 t3 t4 n1 n2 ha hb hc hd
  · exact (alt t1 t2 t3 t4 ha hb hc hd).elim
  · exact two t1 t2 t3 t4 n1 n3 n4 ha hb hc hd
  · exact one t1 t2 t3 t4 n1 n4 ha hb hc hd
  · exact (three t4 t1 t2 t3 n4 n1 hd ha hb hc).rot
  · exact (two t3 t4 t1 t2 n3 n1 n2 hc hd ha hb).rot.rot
  · exact (alt t2 t3 t4 t1 hb hc hd ha).elim
  · exact (one t2 t3 t4 t1 n2 n1 hb hc hd ha).rot.rot.rot
  · exact (two t4 t1 t2 t3 n4 n2 n3 hd ha hb hc).rot
  · exact (one t3 t4 t1 t2 n3 n2 hc hd ha hb).rot.rot
  · exact (one t4 t1 t2 t3 n4 n3 hd ha hb hc).rot
  · unfold Wind4
    rw [crossing_high ha hb, crossing_high hb hc, crossing_high hc hd, crossing_high hd ha, if_neg]
    · rfl
    · rintro ⟨s1, s2, s3, s4⟩
      rcases le_total 0 (sideOf c a p) with h | h
      · exact high ha hb hc s1 s2 h
      · exact high hc hd ha s3 s4 (by rw [sideOf_swap]; linarith)

end
end Gemlab.Mesh
