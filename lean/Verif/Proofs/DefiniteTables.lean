import Verif.Proofs.RecoveryRank
import Verif.Model.ShapeFns
/-! Kernel computations about the derivatives of the shape functions and the weights of the integration rules. -/
namespace Gemlab.Definite
open Gemlab.Shapes Gemlab.RankMod Gemlab.GaussSpec PE

/-- The derivative of a shape function is interpolated by its values at the nodes. -/
def derivIn (k : GeoKind) (m i : Nat) : Bool :=
  let d := ((deriv k).getD m []).getD i 0
  PE.same d (PE.sum ((List.range k.nnode).map fun n => mul (c (evalQ (refCoordQ k n) d)) ((interp k).getD n 0)))

def chkIn (k : GeoKind) : Bool := (List.range k.nnode).all fun m => (List.range k.ndim).all fun i => derivIn k m i

theorem chkIn_lin2 : chkIn .lin2 = true := by decide +kernel
theorem chkIn_lin3 : chkIn .lin3 = true := by decide +kernel
theorem chkIn_lin4 : chkIn .lin4 = true := by decide +kernel
theorem chkIn_lin5 : chkIn .lin5 = true := by decide +kernel
theorem chkIn_tri3 : chkIn .tri3 = true := by decide +kernel
theorem chkIn_tri6 : chkIn .tri6 = true := by decide +kernel
theorem chkIn_tri10 : chkIn .tri10 = true := by decide +kernel
theorem chkIn_tri15 : chkIn .tri15 = true := by decide +kernel
theorem chkIn_qua4 : chkIn .qua4 = true := by decide +kernel
theorem chkIn_qua8 : chkIn .qua8 = true := by decide +kernel
theorem chkIn_qua9 : chkIn .qua9 = true := by decide +kernel
theorem chkIn_qua12 : chkIn .qua12 = true := by decide +kernel
theorem chkIn_qua16 : chkIn .qua16 = true := by decide +kernel
theorem chkIn_qua17 : chkIn .qua17 = true := by decide +kernel
theorem chkIn_tet4 : chkIn .tet4 = true := by decide +kernel
theorem chkIn_tet10 : chkIn .tet10 = true := by decide +kernel
theorem chkIn_tet20 : chkIn .tet20 = true := by decide +kernel
theorem chkIn_hex8 : chkIn .hex8 = true := by decide +kernel

/-- The derivatives of the shape functions of the nodes 1, 2, ... at the points of a table, one row for each point and direction. -/
def gradRows (k : GeoKind) (t : List GaussRow) : List (List ℚ) :=
  t.flatMap fun r => (List.range k.ndim).map fun i => (List.range (k.nnode - 1)).map fun m => PE.evalQ (GaussRow.get r) (((deriv k).getD (m + 1) []).getD i 0)

theorem qua17_rank : checkLeft (gradRows .qua17 (GaussTable.new .qua17).data) 16 = true := by decide +kernel

/-- The weights of a table are positive. -/
def chkWeights (t : List GaussRow) : Bool := t.all fun r => decide (0 < r.2.2.2)

/-- The classes and numbers of points. -/
def allRules : List (GeoClass × Nat) := [GeoClass.lin, .tri, .qua, .tet, .hex].flatMap fun cls => (rules cls).map fun r => (cls, r.1)

def chkAll : Bool := allRules.all fun r =>
  match GaussTable.newSized r.1 r.2 with
  | .ok g => chkWeights g.data == !([(GeoClass.tri, 4), (.tet, 5)].contains r)
  | _ => false

theorem chkAll_ok : chkAll = true := by decide +kernel

end Gemlab.Definite
