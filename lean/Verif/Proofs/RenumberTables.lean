import Verif.Spec.Renumber
import Mathlib.Data.List.Nodup

/-!
# Checks of the tables: rotations of the reference cells
-/
namespace Gemlab.Renumber
open Gemlab Gemlab.Shapes Gemlab.Spec.Renumber

/-! ## Shape functions -/

/-- The components of the map as expressions. -/
def mapPE (A : RefMap) (i : Nat) : PE := PE.add (PE.add (PE.add (PE.c (A.a.getD i 0)) (PE.mul (PE.c (A.entry i 0)) (PE.x 0)))
  (PE.mul (PE.c (A.entry i 1)) (PE.x 1))) (PE.mul (PE.c (A.entry i 2)) (PE.x 2))

theorem eval_map {K : Type} [Field K] (A : RefMap) (ξ : Nat → K) : (fun i => PE.eval ξ (mapPE A i)) = A.map ξ := rfl

def chkTurn (k : GeoKind) : Bool := (rotations k.classOf).all fun A => (List.range k.nnode).all fun m => (List.range k.nnode).all fun n =>
  if (List.range k.ndim).all (fun i => decide (refCoordQ k n i = A.map (refCoordQ k m) i)) then
    PE.same (((interp k).getD n 0).subst (mapPE A)) ((interp k).getD m 0)
  else true

theorem chkTurn_ok (k : GeoKind) : chkTurn k = true := by cases k <;> decide +kernel

/-! ## Integration points -/

/-- The row `r'` is the image of the row `r`. -/
def imageRow (d : Nat) (A : RefMap) (r r' : GaussRow) : Bool :=
  decide (GaussRow.get r' 3 = GaussRow.get r 3) && (List.range d).all fun i => decide (GaussRow.get r' i = A.map (GaussRow.get r) i)

/-- The rows of the images. -/
def permOf (d : Nat) (A : RefMap) (data : List GaussRow) : List Nat := data.map fun r => data.findIdx (imageRow d A r)

def chkPoints (d : Nat) (A : RefMap) (data : List GaussRow) : Bool := decide (permOf d A data).Nodup && (permOf d A data).all fun i => decide (i < data.length)

def dimOf : GeoClass → Nat
  | .lin => 1
  | .tri => 2
  | .qua => 2
  | .tet => 3
  | .hex => 3

open GaussTab in
/-- The tables that have the exact symmetry. -/
def exactTables : GeoClass → List (List GaussRow)
  | .lin => [ipLinLegendre1, ipLinLegendre2, ipLinLegendre3, ipLinLegendre4, ipLinLegendre5]
  | .tri => [ipTriInternal1, ipTriInternal3, ipTriInternal4, ipTriFelippa6]
  | .qua => [ipQuaLegendre1, ipQuaLegendre4, ipQuaLegendre9, ipQuaLegendre16]
  | .tet => [ipTetInternal1, ipTetInternal4, ipTetInternal5]
  | .hex => [ipHexIrons6, ipHexLegendre8, ipHexIrons14, ipHexLegendre27, ipHexLegendre64]

theorem chkPoints_ok (c : GeoClass) : ((rotations c).all fun A => (exactTables c).all fun data => chkPoints (dimOf c) A data) = true := by
  cases c <;> decide +kernel

end Gemlab.Renumber
