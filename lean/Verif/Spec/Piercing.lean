import Mathlib.Data.Real.Basic

/-!
# How a ray pierces triangles

A ray leaves a solid once more than it enters it exactly if it starts inside. The triangles that bound a solid have a direction of rotation: seen
from outside, they are counterclockwise. What follows is plain geometry of the space; nothing refers to the code.
-/
namespace Gemlab.Piercing
noncomputable section

/-- A point (or vector) of the space. -/
abbrev Space := ℝ × ℝ × ℝ

def sub (a b : Space) : Space := (a.1 - b.1, a.2.1 - b.2.1, a.2.2 - b.2.2)

/-- Determinant of three vectors. -/
def det3 (a b c : Space) : ℝ :=
  a.1 * (b.2.1 * c.2.2 - b.2.2 * c.2.1) - a.2.1 * (b.1 * c.2.2 - b.2.2 * c.1) + a.2.2 * (b.1 * c.2.1 - b.2.1 * c.1)

/-- `x` is the mean of the corners with these weights. -/
def IsMean (l : List (ℝ × Space)) (x : Space) : Prop :=
  (l.map (·.1)).sum = 1 ∧ (l.map fun e => e.1 * e.2.1).sum = x.1 ∧ (l.map fun e => e.1 * e.2.2.1).sum = x.2.1 ∧
    (l.map fun e => e.1 * e.2.2.2).sum = x.2.2

/-- The ray from `p` (without `p`) in the direction `d` meets the interior of the triangle `a`, `b`, `c`. -/
def Meets (p d a b c : Space) : Prop :=
  ∃ t α β γ : ℝ, 0 < t ∧ 0 < α ∧ 0 < β ∧ 0 < γ ∧ IsMean [(α, a), (β, b), (γ, c)] (p.1 + t * d.1, p.2.1 + t * d.2.1, p.2.2 + t * d.2.2)

open Classical in
/-- How the ray passes the triangle: `1` if it leaves to the side where the corners are seen counterclockwise, `-1` if it comes from there, `0`
if it does not meet the triangle. -/
def piercing (p d a b c : Space) : ℤ :=
  if Meets p d a b c then if 0 < det3 (sub b a) (sub c a) d then 1 else if det3 (sub b a) (sub c a) d < 0 then -1 else 0 else 0

/-- The ray from `p` in the direction `d` (and its extension) passes by the line through `a` and `b`, and is not parallel to it. -/
def PassesBy (p d a b : Space) : Prop := det3 (sub a p) (sub b p) d ≠ 0

/-- `p` is in the triangle or on its boundary. -/
def OnTriangle (p a b c : Space) : Prop := ∃ α β γ : ℝ, 0 ≤ α ∧ 0 ≤ β ∧ 0 ≤ γ ∧ IsMean [(α, a), (β, b), (γ, c)] p

/-- `p` is in the interior of the tetrahedron. -/
def InTetrahedron (p a b c e : Space) : Prop :=
  ∃ α β γ δ : ℝ, 0 < α ∧ 0 < β ∧ 0 < γ ∧ 0 < δ ∧ IsMean [(α, a), (β, b), (γ, c), (δ, e)] p

/-- The tetrahedron is not flat, and its corners are in the right order: seen from the fourth corner, the first three are counterclockwise. -/
def Positive (a b c e : Space) : Prop := 0 < det3 (sub b a) (sub c a) (sub e a)

end
end Gemlab.Piercing
