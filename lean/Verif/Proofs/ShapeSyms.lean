import Verif.Proofs.ShapeChecks

/-! # Kernel computations: symmetries of the reference line, triangle and square; node tables -/
namespace Gemlab.Shapes

/-- The affine symmetries of the reference line `[-1,1]`, triangle and square, as expressions in the coordinates. -/
def symPE : GeoClass → List (List PE)
  | .lin => [[PE.x 0], [-PE.x 0]]
  | .tri =>
    let r := PE.x 0; let s := PE.x 1; let t := 1 - PE.x 0 - PE.x 1
    [[r, s], [s, r], [r, t], [t, r], [s, t], [t, s]]
  | .qua =>
    let r := PE.x 0; let s := PE.x 1
    [[r, s], [-r, s], [r, -s], [-r, -s], [s, r], [-s, r], [s, -r], [-s, -r]]
  | _ => []

def symMap (A : List PE) (i : Nat) : PE := A.getD i 0

/-- `N_n(A η) = N_m(η)` whenever node `n` is at the image of node `m`. -/
def chkSym (k : GeoKind) : Bool := (symPE k.classOf).all fun A => (List.range k.nnode).all fun m => (List.range k.nnode).all fun n =>
  if (List.range k.ndim).all (fun i => decide (refCoordQ k n i = PE.evalQ (refCoordQ k m) (symMap A i))) then
    PE.same (((interp k).getD n 0).subst (symMap A)) ((interp k).getD m 0)
  else true

/-- The nodes are mapped to nodes. -/
def chkSymNodes (k : GeoKind) : Bool := (symPE k.classOf).all fun A => (List.range k.nnode).all fun m => (List.range k.nnode).any fun n =>
  (List.range k.ndim).all (fun i => decide (refCoordQ k n i = PE.evalQ (refCoordQ k m) (symMap A i)))

theorem chkSym_ok (k : GeoKind) : chkSym k = true := by cases k <;> decide +kernel
theorem chkSymNodes_ok (k : GeoKind) : chkSymNodes k = true := by cases k <;> decide +kernel

end Gemlab.Shapes
