import Verif.Model.DrawGrids
import Verif.Spec.DrawShape
import Verif.Spec.GridCells

/-! # What the drawings of grids consist of (C85) -/
namespace Gemlab.DrawGrids
open Gemlab Gemlab.Mesh Gemlab.Draw Gemlab.DrawShape Gemlab.GridCells
noncomputable section

/-- A corner of a box: for each direction, whether the upper limit is taken. -/
abbrev Corner := Bool × Bool × Bool

/-- The closed path around a box of the plane. -/
def ring : List Corner := [(false, false, false), (true, false, false), (true, true, false), (false, true, false)]

/-- The open paths that make up a box of the space: around its bottom, around its top, and up its four sides. -/
def paths : List (List Corner) :=
  [[(false, false, false), (true, false, false), (true, true, false), (false, true, false), (false, false, false)],
   [(false, false, true), (true, false, true), (true, true, true), (false, true, true), (false, false, true)],
   [(false, false, false), (false, false, true)], [(true, false, false), (true, false, true)],
   [(true, true, false), (true, true, true)], [(false, true, false), (false, true, true)]]

/-- The steps of a path. -/
def steps (p : List Corner) : List (Corner × Corner) := p.zip p.tail

/-- Two corners of an edge of the box: they differ in one direction. -/
def IsEdge (a b : Corner) : Prop :=
  (a.1 ≠ b.1 ∧ a.2.1 = b.2.1 ∧ a.2.2 = b.2.2) ∨ (a.1 = b.1 ∧ a.2.1 ≠ b.2.1 ∧ a.2.2 = b.2.2) ∨ (a.1 = b.1 ∧ a.2.1 = b.2.1 ∧ a.2.2 ≠ b.2.2)

instance (a b : Corner) : Decidable (IsEdge a b) := by unfold IsEdge; infer_instance

/-- The position of a corner of the box with the given smallest and largest coordinates. -/
def cornerAt (b : List ℝ × List ℝ) (c : Corner) (i : Nat) : ℝ :=
  at' (if (if i = 0 then c.1 else if i = 1 then c.2.1 else c.2.2) then b.2 else b.1) i

/-- The calls that draw the box. -/
def boxCalls (d : Nat) (b : List ℝ × List ℝ) : List Cmd :=
  if d = 2 then
    [.curveBegin] ++ ((ring.take 1).map fun c => .curveAdd (cornerAt b c 0) (cornerAt b c 1) .moveTo) ++
      ((ring.drop 1).map fun c => .curveAdd (cornerAt b c 0) (cornerAt b c 1) .lineTo) ++ [.curveEnd true]
  else paths.flatMap fun p => brokenLine 3 (p.map (cornerAt b))

/-- The number of a cell, written at the mean of its points. -/
def labelOf (m : Mesh ℝ) (id : Nat) : Mark :=
  .text ((List.range m.ndim).map fun i => (((m.cells.getD id ⟨0, 0, .lin2, []⟩).points.map fun p => coord m p i).sum) /
    ((m.cells.getD id ⟨0, 0, .lin2, []⟩).points.length : ℝ)) none (toString id)

end
end Gemlab.DrawGrids
