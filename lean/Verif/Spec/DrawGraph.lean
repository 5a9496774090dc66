import Verif.Model.DrawGraph

/-!
# Specification of the drawing of a directed graph (C86)

Plain geometry of the plane; nothing here refers to the code except the types of the picture.
-/
namespace Gemlab.DrawGraph
noncomputable section

/-- The distance of two points of the plane. -/
def distance (p q : ℝ × ℝ) : ℝ := Real.sqrt ((p.1 - q.1) ^ 2 + (p.2 - q.2) ^ 2)

/-- How far the point `p` lies to the right of the line that leads from `a` to `b`. -/
def rightOf (a b p : ℝ × ℝ) : ℝ := -((b.1 - a.1) * (p.2 - a.2) - (b.2 - a.2) * (p.1 - a.1)) / distance a b

/-- An arrow from the circle around `a` to the circle around `b` (of the same radius), at the distance `w` to the right of the line of the centers:
it runs parallel to this line, and in the same direction if the circles are apart. -/
structure IsArrow (radius w : ℝ) (a b : ℝ × ℝ) (r : (ℝ × ℝ) × (ℝ × ℝ)) : Prop where
  start : distance a r.1 = radius
  stop : distance b r.2 = radius
  startRight : rightOf a b r.1 = w
  stopRight : rightOf a b r.2 = w
  along : 2 * radius < distance a b → ∃ t > 0, r.2.1 - r.1.1 = t * (b.1 - a.1) ∧ r.2.2 - r.1.2 = t * (b.2 - a.2)

/-- The position of the label of an edge: as far from `a` as from `b`, at the distance `d` to the right of the line of the centers. -/
structure IsLabelPlace (d : ℝ) (a b c : ℝ × ℝ) : Prop where
  middle : distance a c = distance b c
  right : rightOf a b c = d

/-- The limits of the points `ps`, widened by `m`. -/
structure IsRange (m : ℝ) (ps : List (ℝ × ℝ)) (r : ℝ × ℝ × ℝ × ℝ) : Prop where
  inside : ∀ p ∈ ps, r.1 + m ≤ p.1 ∧ p.1 ≤ r.2.1 - m ∧ r.2.2.1 + m ≤ p.2 ∧ p.2 ≤ r.2.2.2 - m
  left : ∃ p ∈ ps, r.1 = p.1 - m
  right : ∃ p ∈ ps, r.2.1 = p.1 + m
  bottom : ∃ p ∈ ps, r.2.2.1 = p.2 - m
  top : ∃ p ∈ ps, r.2.2.2 = p.2 + m

/-- The gap between opposite arrows: the requested one unless it exceeds the circles. -/
def gapUsed (requested radius : ℝ) : ℝ := if requested ≤ 2 * radius then requested else 9 / 5 * radius

/-- The text `t` of an object with the number `i`: the one given by the user, otherwise `default`. -/
def IsText (given : Option (HMap Nat String)) (i : Nat) (default t : String) : Prop :=
  (∀ m s, given = some m → m.get i = some s → t = s) ∧ ((∀ m, given = some m → m.get i = none) → t = default)

/-- The default text of an edge with the number `k` and the weight written `w`. -/
def edgeDefault (ids weights : Bool) (k : Nat) (w : String) : String :=
  match ids, weights with
  | true, true => s!"{k}| ${w}"
  | true, false => s!"{k}"
  | false, true => s!"${w}"
  | false, false => ""

/-- The text of an edge is turned (by 90 degrees) if it is long and the edge upright. -/
def IsRotation (ids weights : Bool) (a b : ℝ × ℝ) (r : ℝ) : Prop :=
  (ids = true ∧ weights = true ∧ |b.1 - a.1| < 1 / 1000 → r = 90) ∧ (¬(ids = true ∧ weights = true ∧ |b.1 - a.1| < 1 / 1000) → r = 0)

end
end Gemlab.DrawGraph
