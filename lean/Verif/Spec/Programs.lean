import Verif.Model.Programs
import Verif.Spec.Paraview
import Verif.Spec.MeshText

/-! # What the command-line programs deliver -/
namespace Gemlab.Programs
noncomputable section
open Gemlab Gemlab.Mesh Gemlab.Shapes Gemlab.MeshText Gemlab.Draw

/-- The kind of cells has a type in the VTK format. -/
def HasVtk (k : GeoKind) : Prop := ∃ e ∈ Paraview.vtkName, e.1 = k

/-- Nothing is written, and the program does not succeed. -/
def Nothing (r : Run) : Prop := r.products = [] ∧ r.status ≠ .ok ()

/-- The files of a successful run for the mesh `M` of cells of kind `k`: first the MSH file, which is read as this mesh; then the VTU file, if and only if the kind of cells
has a VTK type; then the drawing, if and only if it was asked for. -/
def Delivers (ft : FloatText ℝ) (d : DrawOrders) (s : Option Settings) (k : GeoKind) (M : Mesh ℝ) (r : Run) : Prop :=
  ∃ t vtus svgs, r.products = .msh t :: (vtus ++ svgs) ∧ r.status = .ok () ∧ MeshText.write ft M = .ok t ∧ MeshText.read ft t = .ok M ∧
    ((HasVtk k ∧ ∃ v, vtus = [.vtu v] ∧ Paraview.writeVtu ft M = .ok v) ∨ (¬ HasVtk k ∧ vtus = [])) ∧
    ((∃ c l, s = some c ∧ svgs = [.svg l] ∧ drawAll d c M = .ok l) ∨ (s = none ∧ svgs = []))

/-- The drawing made by `qua2msh` and `hex2msh`, if it is asked for: the cells and the boundary, and the points if they are asked for. -/
def BlockOptions.drawing (opt : BlockOptions) : Option Settings := if opt.svgFigure then some { newDraw with showPointDots := opt.showPoints } else none

/-- The lists of the mesh are not longer than the largest number of the machine. -/
def Fits (M : Mesh ℝ) : Prop :=
  M.points.length ≤ usizeMax ∧ M.cells.length ≤ usizeMax ∧ M.markedEdges.length ≤ usizeMax ∧ M.markedFaces.length ≤ usizeMax

end
end Gemlab.Programs
