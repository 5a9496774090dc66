import Mathlib.Analysis.SpecialFunctions.Pow.Real

/-! # Euclidean distance of coordinate lists, lines, circles and cylinders -/
namespace Gemlab.Spec
noncomputable section

/-- Euclidean distance between two points given by their coordinates. -/
def euclid (a b : List ℝ) : ℝ := Real.sqrt (∑ i ∈ Finset.range a.length, (a.getD i 0 - b.getD i 0) ^ 2)

/-- The point `a + t (b - a)` of the line through `a` and `b`. -/
def linePoint (a b : List ℝ) (t : ℝ) : List ℝ := List.zipWith (fun x y => x + t * (y - x)) a b

/-- `d` is the distance from `p` to the set `S` (attained minimum). -/
def IsDistTo (p : List ℝ) (S : List ℝ → Prop) (d : ℝ) : Prop := (∃ s, S s ∧ euclid p s = d) ∧ ∀ s, S s → d ≤ euclid p s

/-- The line through `a` and `b`. -/
def OnLine (a b : List ℝ) (s : List ℝ) : Prop := ∃ t, s = linePoint a b t

/-- The circle (2D) with given center and radius. -/
def OnCircle (center : List ℝ) (radius : ℝ) (s : List ℝ) : Prop := s.length = 2 ∧ euclid center s = radius

/-- The infinite cylinder whose axis is the line through `a` and `b` (3D): points at distance `radius` from the axis. -/
def OnCylinder (a b : List ℝ) (radius : ℝ) (s : List ℝ) : Prop := s.length = 3 ∧ IsDistTo s (OnLine a b) radius

end
end Gemlab.Spec
