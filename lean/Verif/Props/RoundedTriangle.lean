import Verif.Proofs.RoundedTriangle
import Verif.Props.Geometry
import Verif.Props.Rounded2

/-!
# C91: the test whether a point is in a triangle, with rounding

A triangle is given by its three corners; edge `i` is the one opposite to corner `i`, from corner `i + 1` to corner `i + 2` (modulo three). All corners and
points are in the square `|x| ≤ M`, `|y| ≤ M`, and `tol = 23 * u * M^2` with the relative error `u` of one operation.
-/
namespace Gemlab.Rounded
noncomputable section
open Gemlab.Spec

/-- The corners of a triangle. -/
abbrev Corners := Fin 3 → ℝ × ℝ

/-- Twice the signed area of a triangle (the exact one). -/
def area2 (t : Corners) : ℝ := triArea2 (t 0) (t 1) (t 2)

/-- The length of edge `i` times the distance of `p` from the line through the edge, positive on the side of the triangle (the exact one). -/
def depth (t : Corners) (i : Fin 3) (p : ℝ × ℝ) : ℝ := SignType.sign (area2 t) * triArea2 p (t (i + 1)) (t (i + 2))

/-- The point is in the square. -/
def In (M : ℝ) (p : ℝ × ℝ) : Prop := |p.1| ≤ M ∧ |p.2| ≤ M

/-- The computed coordinate `i` of the point. -/
def zeta (fl : ℝ → ℝ) (t : Corners) (p : ℝ × ℝ) (i : Fin 3) : ℝ :=
  let z := triangleCoords fl (t 0) (t 1) (t 2) p
  ![z.1, z.2.1, z.2.2] i

/-- The computed answer. -/
def found (fl : ℝ → ℝ) (t : Corners) (p : ℝ × ℝ) : Bool := inTriangle (triangleCoords fl (t 0) (t 1) (t 2) p)

/-- Without rounding, the functions are those of `Model/Geometry`. -/
theorem C91_exact : triangleCoords id = Gemlab.triangleCoords := rfl

theorem found_iff (fl : ℝ → ℝ) (t : Corners) (p : ℝ × ℝ) : found fl t p = true ↔ ∀ i, 0 ≤ zeta fl t p i := by
  rw [Fin.forall_fin_succ, Fin.forall_fin_two]
  unfold found inTriangle zeta
  simp only [Fin.succ_zero_eq_one, Fin.succ_one_eq_two, Matrix.cons_val]
  split <;> rename_i hz
  · simp only [Bool.false_eq_true, false_iff]
    rintro ⟨h1, h2, h3⟩; rcases hz with hz | hz | hz <;> linarith
  · simp only [not_or, not_lt] at hz; simp [hz]

variable {fl : ℝ → ℝ} {u M : ℝ}

theorem area_near (R : Rounding fl u) {a b c : ℝ × ℝ} (ha : In M a) (hb : In M b) (hc : In M c) :
    |side3 fl a b c - triArea2 a b c| ≤ 23 * (u * M ^ 2) := by
  have := side3_near R ha hb hc
  convert this using 3; unfold triArea2; ring

theorem In.nonneg {p : ℝ × ℝ} (h : In M p) : 0 ≤ M := (abs_nonneg _).trans h.1

/-- The computed numerator of coordinate `i`. -/
def num (fl : ℝ → ℝ) (t : Corners) (p : ℝ × ℝ) (i : Fin 3) : ℝ :=
  ![side3 fl p (t 1) (t 2), side3 fl (t 0) p (t 2), side3 fl (t 0) (t 1) p] i

theorem zeta_eq (t : Corners) (p : ℝ × ℝ) (i : Fin 3) : zeta fl t p i = fl (num fl t p i / side3 fl (t 0) (t 1) (t 2)) := by
  fin_cases i <;> rfl

theorem num_near (R : Rounding fl u) {t : Corners} (ht : ∀ k, In M (t k)) {p : ℝ × ℝ} (hp : In M p) (i : Fin 3) :
    |num fl t p i - triArea2 p (t (i + 1)) (t (i + 2))| ≤ 23 * (u * M ^ 2) := by
  fin_cases i
  · exact area_near R hp (ht 1) (ht 2)
  · change |side3 fl (t 0) p (t 2) - triArea2 p (t 2) (t 0)| ≤ _
    rw [show triArea2 p (t 2) (t 0) = triArea2 (t 0) p (t 2) by unfold triArea2; ring]
    exact area_near R (ht 0) hp (ht 2)
  · change |side3 fl (t 0) (t 1) p - triArea2 p (t 0) (t 1)| ≤ _
    rw [show triArea2 p (t 0) (t 1) = triArea2 (t 0) (t 1) p by unfold triArea2; ring]
    exact area_near R (ht 0) (ht 1) hp

theorem num_sum (R : Rounding fl u) (odd : ∀ x, fl (-x) = -fl x) (t : Corners) (p : ℝ × ℝ) (i : Fin 3) :
    (0 ≤ sum3 fl p (t (i + 1)) (t (i + 2)) → 0 ≤ num fl t p i) ∧ (sum3 fl p (t (i + 1)) (t (i + 2)) ≤ 0 → num fl t p i ≤ 0) := by
  fin_cases i
  · exact ⟨side3_nonneg R odd, side3_nonpos R odd⟩
  · have e : sum3 fl p (t 2) (t 0) = sum3 fl (t 0) p (t 2) := (sum3_cycle fl (t 0) p (t 2)).symm
    constructor
    · intro h; exact side3_nonneg R odd (a := t 0) (b := p) (c := t 2) (e ▸ h)
    · intro h; exact side3_nonpos R odd (a := t 0) (b := p) (c := t 2) (e ▸ h)
  · have e : sum3 fl p (t 0) (t 1) = sum3 fl (t 0) (t 1) p := sum3_cycle fl p (t 0) (t 1)
    constructor
    · intro h; exact side3_nonneg R odd (a := t 0) (b := t 1) (c := p) (e ▸ h)
    · intro h; exact side3_nonpos R odd (a := t 0) (b := t 1) (c := p) (e ▸ h)

/-- The computed area has the sign of the exact one. -/
theorem area_sign (R : Rounding fl u) {t : Corners} (ht : ∀ k, In M (t k)) (ha : 23 * (u * M ^ 2) < |area2 t|) :
    (0 < area2 t ∧ 0 < side3 fl (t 0) (t 1) (t 2)) ∨ (area2 t < 0 ∧ side3 fl (t 0) (t 1) (t 2) < 0) := by
  have h := abs_le.1 (area_near R (ht 0) (ht 1) (ht 2))
  change _ ≤ _ - area2 t ∧ _ - area2 t ≤ _ at h
  have hu : 0 ≤ u * M ^ 2 := mul_nonneg R.small.1 (sq_nonneg _)
  rcases lt_abs.1 ha with h' | h'
  · left; constructor <;> linarith
  · right; constructor <;> linarith

theorem div_nonneg_iff {s x y : ℝ} (R : Rounding fl u) (hs : (0 < s ∧ 0 < y) ∨ (s < 0 ∧ y < 0)) (h : 0 ≤ SignType.sign s * x) : 0 ≤ fl (x / y) := by
  refine R.nonneg ?_
  rcases hs with ⟨h1, h2⟩ | ⟨h1, h2⟩
  · rw [sign_pos h1] at h; simp at h; exact div_nonneg h h2.le
  · rw [sign_neg h1] at h; simp at h; exact div_nonneg_of_nonpos h h2.le

theorem zeta_nonneg (R : Rounding fl u) {t : Corners} (ht : ∀ k, In M (t k)) (ha : 23 * (u * M ^ 2) < |area2 t|) {p : ℝ × ℝ} (hp : In M p)
    {i : Fin 3} (h : 23 * (u * M ^ 2) ≤ depth t i p) : 0 ≤ zeta fl t p i := by
  rw [zeta_eq]
  refine div_nonneg_iff R (area_sign R ht ha) ?_
  have h1 := abs_le.1 (num_near R ht hp i)
  unfold depth at h
  rcases area_sign R ht ha with ⟨h3, -⟩ | ⟨h3, -⟩
  · rw [sign_pos h3] at h ⊢; simp at h ⊢; linarith
  · rw [sign_neg h3] at h ⊢; simp at h ⊢; linarith

/-- A point whose distance from each edge is large enough is found if it is inside … -/
theorem C91_inside (R : Rounding fl u) {t : Corners} (ht : ∀ k, In M (t k)) (ha : 23 * (u * M ^ 2) < |area2 t|) {p : ℝ × ℝ} (hp : In M p)
    (h : ∀ i, 23 * (u * M ^ 2) ≤ depth t i p) : found fl t p = true :=
  (found_iff fl t p).2 fun i => zeta_nonneg R ht ha hp (h i)

/-- … and not found if it is outside. -/
theorem C91_outside (R : Rounding fl u) {t : Corners} (ht : ∀ k, In M (t k)) (ha : 23 * (u * M ^ 2) < |area2 t|) {p : ℝ × ℝ} (hp : In M p)
    {i : Fin 3} (h : depth t i p < -(23 * (u * M ^ 2))) : found fl t p = false := by
  rw [← Bool.not_eq_true, found_iff]
  intro hz
  have hz := hz i
  rw [zeta_eq] at hz
  have h1 := abs_le.1 (num_near R ht hp i)
  have key : num fl t p i / side3 fl (t 0) (t 1) (t 2) < 0 := by
    unfold depth at h
    rcases area_sign R ht ha with ⟨h3, h4⟩ | ⟨h3, h4⟩
    · rw [sign_pos h3] at h; simp at h
      exact div_neg_of_neg_of_pos (by linarith) h4
    · rw [sign_neg h3] at h; simp at h
      exact div_neg_of_pos_of_neg (by linarith) h4
  have := abs_le.1 (R.error (num fl t p i / side3 fl (t 0) (t 1) (t 2)))
  rw [abs_of_neg key] at this
  have hs := R.small.2
  nlinarith

/-- The corners of a triangle are found. -/
theorem C91_corner (R : Rounding fl u) (odd : ∀ x, fl (-x) = -fl x) {t : Corners} (ht : ∀ k, In M (t k)) (ha : 23 * (u * M ^ 2) < |area2 t|) (k : Fin 3) :
    found fl t (t k) = true := by
  have hd : ∀ a b : ℝ × ℝ, side3 fl a a b = 0 ∧ side3 fl a b b = 0 ∧ side3 fl a b a = 0 := by
    have h0 : ∀ a b : ℝ × ℝ, sum3 fl a b b = 0 := by
      intro a b; have := sum3_swap odd a b b; linarith
    intro a b
    refine ⟨side3_eq_zero R odd ?_, side3_eq_zero R odd (h0 a b), side3_eq_zero R odd ?_⟩
    · rw [sum3_cycle, sum3_cycle]; exact h0 b a
    · rw [sum3_cycle]; exact h0 b a
  have hs := area_sign R ht ha
  have hne : side3 fl (t 0) (t 1) (t 2) ≠ 0 := by
    rcases hs with ⟨-, h⟩ | ⟨-, h⟩
    · exact h.ne'
    · exact h.ne
  have h1 : (0 : ℝ) ≤ fl 1 := R.nonneg zero_le_one
  rw [found_iff]
  intro i
  rw [zeta_eq]
  fin_cases k <;> fin_cases i <;> simp [num, hd, R.zero, hne, h1]

/-- No gap between two triangles: of two triangles on the two sides of a common edge, at least one does not exclude a point because of this edge. -/
theorem C91_shared_edge (R : Rounding fl u) (odd : ∀ x, fl (-x) = -fl x) {t₁ t₂ : Corners} (ht₁ : ∀ k, In M (t₁ k)) (ht₂ : ∀ k, In M (t₂ k))
    (ha₁ : 23 * (u * M ^ 2) < |area2 t₁|) (ha₂ : 23 * (u * M ^ 2) < |area2 t₂|) (same : SignType.sign (area2 t₁) = SignType.sign (area2 t₂))
    {i j : Fin 3} (h : t₁ (i + 1) = t₂ (j + 2) ∧ t₁ (i + 2) = t₂ (j + 1)) (p : ℝ × ℝ) : 0 ≤ zeta fl t₁ p i ∨ 0 ≤ zeta fl t₂ p j := by
  have n1 := num_sum R odd t₁ p i
  have n2 := num_sum R odd t₂ p j
  rw [h.1, h.2, sum3_swap odd] at n1
  rw [zeta_eq, zeta_eq]
  have key : 0 ≤ SignType.sign (area2 t₁) * num fl t₁ p i ∨ 0 ≤ SignType.sign (area2 t₂) * num fl t₂ p j := by
    rw [← same]
    rcases area_sign R ht₁ ha₁ with ⟨h3, h4⟩ | ⟨h3, h4⟩
    · rw [sign_pos h3]; simp
      rcases le_total 0 (sum3 fl p (t₂ (j + 1)) (t₂ (j + 2))) with h5 | h5
      · exact .inr (n2.1 h5)
      · exact .inl (n1.1 (by linarith))
    · rw [sign_neg h3]; simp
      rcases le_total 0 (sum3 fl p (t₂ (j + 1)) (t₂ (j + 2))) with h5 | h5
      · exact .inl (n1.2 (by linarith))
      · exact .inr (n2.2 h5)
  rcases key with h1 | h1
  · exact .inl (div_nonneg_iff R (area_sign R ht₁ ha₁) h1)
  · exact .inr (div_nonneg_iff R (area_sign R ht₂ ha₂) h1)

/-- A point on or near the common edge of two triangles, but not near the other four edges, is found in one of them. -/
theorem C91_two_cells (R : Rounding fl u) (odd : ∀ x, fl (-x) = -fl x) {t₁ t₂ : Corners} (ht₁ : ∀ k, In M (t₁ k)) (ht₂ : ∀ k, In M (t₂ k))
    (ha₁ : 23 * (u * M ^ 2) < |area2 t₁|) (ha₂ : 23 * (u * M ^ 2) < |area2 t₂|) (same : SignType.sign (area2 t₁) = SignType.sign (area2 t₂))
    {i j : Fin 3} (h : t₁ (i + 1) = t₂ (j + 2) ∧ t₁ (i + 2) = t₂ (j + 1)) {p : ℝ × ℝ} (hp : In M p)
    (h₁ : ∀ k, k ≠ i → 23 * (u * M ^ 2) ≤ depth t₁ k p) (h₂ : ∀ k, k ≠ j → 23 * (u * M ^ 2) ≤ depth t₂ k p) :
    found fl t₁ p = true ∨ found fl t₂ p = true := by
  rcases C91_shared_edge R odd ht₁ ht₂ ha₁ ha₂ same h p with hz | hz
  · left; rw [found_iff]; intro k
    by_cases hk : k = i
    · exact hk ▸ hz
    · exact zeta_nonneg R ht₁ ha₁ hp (h₁ k hk)
  · right; rw [found_iff]; intro k
    by_cases hk : k = j
    · exact hk ▸ hz
    · exact zeta_nonneg R ht₂ ha₂ hp (h₂ k hk)

/-- A cyclic sequence with both signs changes from non-negative to non-positive somewhere. -/
theorem sign_change (f : ℕ → ℝ) (n : ℕ) (hn : f n = f 0) {i j : ℕ} (hi : i < n) (hj : j < n) (h1 : 0 ≤ f i) (h2 : f j ≤ 0) :
    ∃ k < n, 0 ≤ f k ∧ f (k + 1) ≤ 0 := by
  by_contra hc
  push Not at hc
  have up : ∀ a, a < n → 0 ≤ f a → ∀ b, a < b → b ≤ n → 0 < f b := by
    intro a ha h b hab hb
    induction b, hab using Nat.le_induction with
    | base => exact hc a ha h
    | succ b hab ih => exact hc b (by omega) (ih (by omega)).le
  have h0 : 0 < f 0 := hn ▸ up i hi h1 n hi le_rfl
  rcases Nat.eq_zero_or_pos j with rfl | hj0
  · linarith
  · have := up 0 (by omega) h0.le j hj0 hj.le; linarith

/-- No gap around an inner point of the mesh: the triangles around the point `v` are `v`, `ring k`, `ring (k + 1)` counter-clockwise. A point `p` that is
not near the outer edges and for which two spokes have it on different sides clearly (so it is not too near to `v`) is found in one of the triangles. -/
theorem C91_fan (R : Rounding fl u) (odd : ∀ x, fl (-x) = -fl x) {v : ℝ × ℝ} {ring : ℕ → ℝ × ℝ} {n : ℕ} (hn : ring n = ring 0) (hv : In M v)
    (hr : ∀ k ≤ n, In M (ring k)) (ha : ∀ k < n, 23 * (u * M ^ 2) < triArea2 v (ring k) (ring (k + 1))) {p : ℝ × ℝ} (hp : In M p)
    (hout : ∀ k < n, 23 * (u * M ^ 2) ≤ triArea2 p (ring k) (ring (k + 1))) {i j : ℕ} (hi : i < n) (hj : j < n)
    (h1 : 23 * (u * M ^ 2) < triArea2 p v (ring i)) (h2 : triArea2 p v (ring j) < -(23 * (u * M ^ 2))) :
    ∃ k < n, found fl ![v, ring k, ring (k + 1)] p = true := by
  have sgn : ∀ k ≤ n, (23 * (u * M ^ 2) < triArea2 p v (ring k) → 0 ≤ sum3 fl p v (ring k)) ∧
      (triArea2 p v (ring k) < -(23 * (u * M ^ 2)) → sum3 fl p v (ring k) ≤ 0) := by
    intro k hk
    have hN := abs_le.1 (area_near R hp hv (hr k hk))
    constructor <;> intro h <;> by_contra hc <;> push Not at hc
    · have := side3_nonpos R odd hc.le; linarith
    · have := side3_nonneg R odd hc.le; linarith
  obtain ⟨k, hk, k1, k2⟩ := sign_change (fun k => sum3 fl p v (ring k)) n (by simp only [hn]) hi hj ((sgn i hi.le).1 h1) ((sgn j hj.le).2 h2)
  refine ⟨k, hk, ?_⟩
  have ht : ∀ q, In M ((![v, ring k, ring (k + 1)] : Corners) q) := by
    rw [Fin.forall_fin_succ, Fin.forall_fin_two]
    exact ⟨hv, hr k hk.le, hr (k + 1) hk⟩
  have hu : 0 ≤ u * M ^ 2 := mul_nonneg R.small.1 (sq_nonneg _)
  have hA : 0 < area2 ![v, ring k, ring (k + 1)] := lt_of_le_of_lt (by linarith) (ha k hk)
  have ha' : 23 * (u * M ^ 2) < |area2 ![v, ring k, ring (k + 1)]| := lt_of_lt_of_le (ha k hk) (le_abs_self _)
  have dn : ∀ q, 0 ≤ num fl ![v, ring k, ring (k + 1)] p q → 0 ≤ zeta fl ![v, ring k, ring (k + 1)] p q := by
    intro q hq
    rw [zeta_eq]
    refine div_nonneg_iff R (area_sign R ht ha') ?_
    rw [sign_pos hA]; simpa using hq
  rw [found_iff, Fin.forall_fin_succ, Fin.forall_fin_two]
  refine ⟨?_, ?_, ?_⟩
  · refine zeta_nonneg R ht ha' hp ?_
    unfold depth; rw [sign_pos hA]; simpa using hout k hk
  · refine dn 1 ((num_sum R odd _ p 1).1 ?_)
    change 0 ≤ sum3 fl p (ring (k + 1)) v
    rw [sum3_swap odd]; linarith
  · exact dn 2 ((num_sum R odd _ p 2).1 k1)

end
end Gemlab.Rounded
