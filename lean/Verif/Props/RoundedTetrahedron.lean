import Verif.Proofs.RoundedTetrahedron
import Verif.Props.Geometry

/-!
# C92: the test whether a point is in a tetrahedron, with rounding

All corners and points are in the cube `|x| ≤ M`, `|y| ≤ M`, `|z| ≤ M`; `u` is the relative error of one operation.
-/
namespace Gemlab.Rounded
noncomputable section
open Gemlab.Spec

/-- The corners of a tetrahedron. -/
abbrev Corners4 := Fin 4 → ℝ × ℝ × ℝ

/-- Six times the signed volume of a tetrahedron (the exact one). -/
def vol6 (t : Corners4) : ℝ := tetVol6 (t 0) (t 1) (t 2) (t 3)

/-- Twice the area of the face opposite to corner `i` times the distance of `p` from its plane, positive on the side of the tetrahedron (the exact one):
six times the volume of the tetrahedron of the face and `p`. -/
def depth4 (t : Corners4) (i : Fin 4) (p : ℝ × ℝ × ℝ) : ℝ := SignType.sign (vol6 t) * vol6 (Function.update t i p)

/-- The point is in the cube. -/
def In3 (M : ℝ) (p : ℝ × ℝ × ℝ) : Prop := |p.1| ≤ M ∧ |p.2.1| ≤ M ∧ |p.2.2| ≤ M

/-- The computed answer. -/
def found4 (fl : ℝ → ℝ) (t : Corners4) (p : ℝ × ℝ × ℝ) : Bool := inTetrahedron (tetrahedronCoords fl (t 0) (t 1) (t 2) (t 3) p)

/-- The computed coordinate `i` of the point. -/
def zeta4 (fl : ℝ → ℝ) (t : Corners4) (p : ℝ × ℝ × ℝ) (i : Fin 4) : ℝ :=
  let z := tetrahedronCoords fl (t 0) (t 1) (t 2) (t 3) p
  ![z.1, z.2.1, z.2.2.1, z.2.2.2] i

/-- Without rounding, the functions are those of `Model/Geometry`. -/
theorem C92_exact : tetrahedronCoords id = Gemlab.tetrahedronCoords := rfl

theorem forall_fin4 {P : Fin 4 → Prop} : (∀ i, P i) ↔ P 0 ∧ P 1 ∧ P 2 ∧ P 3 := by
  constructor
  · intro h; exact ⟨h 0, h 1, h 2, h 3⟩
  · rintro ⟨h0, h1, h2, h3⟩ i
    fin_cases i
    exacts [h0, h1, h2, h3]

theorem found4_iff (fl : ℝ → ℝ) (t : Corners4) (p : ℝ × ℝ × ℝ) : found4 fl t p = true ↔ ∀ i, 0 ≤ zeta4 fl t p i := by
  rw [forall_fin4]
  unfold found4 inTetrahedron zeta4
  simp only [Matrix.cons_val]
  split <;> rename_i hz
  · simp only [Bool.false_eq_true, false_iff]
    rintro ⟨h1, h2, h3, h4⟩; rcases hz with hz | hz | hz | hz <;> linarith
  · simp only [not_or, not_lt] at hz; simp [hz]

variable {fl : ℝ → ℝ} {u M : ℝ}

theorem near_of {x V W E : ℝ} (h : |x - W| ≤ E) (e : V = W) : |x - V| ≤ E := e ▸ h

/-- The computed coordinates are quotients of numbers near the exact volumes. -/
theorem zeta4_near (R : Rounding fl u) {t : Corners4} (hM : 0 < M) (ht : ∀ k, In3 M (t k)) {p : ℝ × ℝ × ℝ} (hp : In3 M p) (i : Fin 4) :
    ∃ n v, zeta4 fl t p i = fl (n / v) ∧ |n - vol6 (Function.update t i p)| ≤ 225 * (u * M ^ 3) ∧ |v - vol6 t| ≤ 400 * (u * M ^ 3) := by
  obtain ⟨a1, a2, a3⟩ := ht 0
  obtain ⟨b1, b2, b3⟩ := ht 1
  obtain ⟨c1, c2, c3⟩ := ht 2
  obtain ⟨d1, d2, d3⟩ := ht 3
  obtain ⟨p1, p2, p3⟩ := hp
  have D := fun x y : ℝ => Ap.diff (x := x) (y := y) R hM
  have hv := Ap.volume R hM (D _ _ b1 a1) (Ap.crossD R hM (D _ _ b2 c2) (D _ _ c3 d3) (D _ _ c2 d2) (D _ _ b3 c3))
    (D _ _ c1 b1) (Ap.crossD R hM (D _ _ c2 d2) (D _ _ a3 b3) (D _ _ a2 b2) (D _ _ c3 d3))
    (D _ _ d1 c1) (Ap.crossD R hM (D _ _ a2 b2) (D _ _ b3 c3) (D _ _ b2 c2) (D _ _ a3 b3))
  fin_cases i
  · have hn := Ap.numer R hM b1 (Ap.crossC R hM c2 d3 d2 c3) c1 (Ap.crossC R hM d2 b3 b2 d3) d1 (Ap.crossC R hM b2 c3 c2 b3)
      p1 (Ap.crossD R hM (D _ _ d2 b2) (D _ _ c3 b3) (D _ _ c2 b2) (D _ _ d3 b3))
      p2 (Ap.crossD R hM (D _ _ c1 b1) (D _ _ d3 b3) (D _ _ d1 b1) (D _ _ c3 b3))
      p3 (Ap.crossD R hM (D _ _ d1 b1) (D _ _ c2 b2) (D _ _ c1 b1) (D _ _ d2 b2))
    refine ⟨_, _, rfl, near_of hn ?_, near_of hv ?_⟩
    · change tetVol6 p (t 1) (t 2) (t 3) = _
      unfold tetVol6; ring
    · unfold vol6 tetVol6; ring
  · have hn := Ap.numer R hM a1 (Ap.crossC R hM d2 c3 c2 d3) c1 (Ap.crossC R hM a2 d3 d2 a3) d1 (Ap.crossC R hM c2 a3 a2 c3)
      p1 (Ap.crossD R hM (D _ _ c2 a2) (D _ _ d3 c3) (D _ _ c2 d2) (D _ _ a3 c3))
      p2 (Ap.crossD R hM (D _ _ d1 c1) (D _ _ c3 a3) (D _ _ a1 c1) (D _ _ c3 d3))
      p3 (Ap.crossD R hM (D _ _ c1 a1) (D _ _ d2 c2) (D _ _ c1 d1) (D _ _ a2 c2))
    refine ⟨_, _, rfl, near_of hn ?_, near_of hv ?_⟩
    · change tetVol6 (t 0) p (t 2) (t 3) = _
      unfold tetVol6; ring
    · unfold vol6 tetVol6; ring
  · have hn := Ap.numer R hM a1 (Ap.crossC R hM b2 d3 d2 b3) b1 (Ap.crossC R hM d2 a3 a2 d3) d1 (Ap.crossC R hM a2 b3 b2 a3)
      p1 (Ap.crossD R hM (D _ _ b2 d2) (D _ _ a3 d3) (D _ _ a2 d2) (D _ _ b3 d3))
      p2 (Ap.crossD R hM (D _ _ a1 d1) (D _ _ b3 d3) (D _ _ b1 d1) (D _ _ a3 d3))
      p3 (Ap.crossD R hM (D _ _ b1 d1) (D _ _ a2 d2) (D _ _ a1 d1) (D _ _ b2 d2))
    refine ⟨_, _, rfl, near_of hn ?_, near_of hv ?_⟩
    · change tetVol6 (t 0) (t 1) p (t 3) = _
      unfold tetVol6; ring
    · unfold vol6 tetVol6; ring
  · have hn := Ap.numer R hM a1 (Ap.crossC R hM c2 b3 b2 c3) b1 (Ap.crossC R hM a2 c3 c2 a3) c1 (Ap.crossC R hM b2 a3 a2 b3)
      p1 (Ap.crossD R hM (D _ _ a2 c2) (D _ _ b3 a3) (D _ _ a2 b2) (D _ _ c3 a3))
      p2 (Ap.crossD R hM (D _ _ b1 a1) (D _ _ a3 c3) (D _ _ c1 a1) (D _ _ a3 b3))
      p3 (Ap.crossD R hM (D _ _ a1 c1) (D _ _ b2 a2) (D _ _ a1 b1) (D _ _ c2 a2))
    refine ⟨_, _, rfl, near_of hn ?_, near_of hv ?_⟩
    · change tetVol6 (t 0) (t 1) (t 2) p = _
      unfold tetVol6; ring
    · unfold vol6 tetVol6; ring

/-- The quotient has the sign of the exact one if both numbers are not too near to zero. -/
theorem quotient_sign (R : Rounding fl u) {n N v V E E' : ℝ} (hE : 0 ≤ E') (hn : |n - N| ≤ E) (hv : |v - V| ≤ E') (hV : E' < |V|) :
    (E ≤ SignType.sign V * N → 0 ≤ fl (n / v)) ∧ (SignType.sign V * N < -E → fl (n / v) < 0) := by
  have hn := abs_le.1 hn
  have hv := abs_le.1 hv
  have neg : ∀ w : ℝ, w < 0 → fl w < 0 := by
    intro w hw
    have := abs_le.1 (R.error w)
    rw [abs_of_neg hw] at this
    have hs := R.small.2
    nlinarith
  rcases lt_abs.1 hV with h | h
  · have h0 : 0 < V := by linarith
    have h1 : 0 < v := by linarith
    rw [sign_pos h0]
    simp only [SignType.coe_one, one_mul]
    exact ⟨fun h => R.nonneg (div_nonneg (by linarith) h1.le), fun h => neg _ (div_neg_of_neg_of_pos (by linarith) h1)⟩
  · have h0 : V < 0 := by linarith
    have h1 : v < 0 := by linarith
    rw [sign_neg h0]
    simp only [SignType.coe_neg, SignType.coe_one, neg_mul, one_mul]
    exact ⟨fun h => R.nonneg (div_nonneg_of_nonpos (by linarith) h1.le), fun h => neg _ (div_neg_of_pos_of_neg (by linarith) h1)⟩

/-- A point whose distance from each face is large enough is found if it is inside … -/
theorem C92_inside (R : Rounding fl u) {t : Corners4} (hM : 0 < M) (ht : ∀ k, In3 M (t k)) (hv : 400 * (u * M ^ 3) < |vol6 t|) {p : ℝ × ℝ × ℝ} (hp : In3 M p)
    (h : ∀ i, 225 * (u * M ^ 3) ≤ depth4 t i p) : found4 fl t p = true := by
  rw [found4_iff]
  intro i
  obtain ⟨n, v, e, h1, h2⟩ := zeta4_near R hM ht hp i
  rw [e]
  have hu := R.small.1
  exact (quotient_sign R (by positivity) h1 h2 hv).1 (h i)

/-- … and not found if it is outside. -/
theorem C92_outside (R : Rounding fl u) {t : Corners4} (hM : 0 < M) (ht : ∀ k, In3 M (t k)) (hv : 400 * (u * M ^ 3) < |vol6 t|) {p : ℝ × ℝ × ℝ} (hp : In3 M p)
    {i : Fin 4} (h : depth4 t i p < -(225 * (u * M ^ 3))) : found4 fl t p = false := by
  rw [← Bool.not_eq_true, found4_iff]
  intro hz
  have hz := hz i
  obtain ⟨n, v, e, h1, h2⟩ := zeta4_near R hM ht hp i
  rw [e] at hz
  have hu := R.small.1
  have := (quotient_sign R (by positivity) h1 h2 hv).2 h
  linarith

end
end Gemlab.Rounded
