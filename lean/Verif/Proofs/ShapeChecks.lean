import Verif.Model.ShapeFns

/-! # Kernel computations on the (finite) tables of the 20 kinds -/
namespace Gemlab.Shapes

/-- Affine expression in the first coordinate: the point at parameter `η ∈ [-1,1]` of the segment from node `a` to node `b`. -/
def segPE (k : GeoKind) (a b i : Nat) : PE :=
  PE.c ((refCoordQ k a i + refCoordQ k b i) / 2) + PE.c ((refCoordQ k b i - refCoordQ k a i) / 2) * PE.x 0

/-- Affine expression in two coordinates: triangle with corners `a, b, c`. -/
def triPE (k : GeoKind) (a b c i : Nat) : PE :=
  PE.c (refCoordQ k a i) + PE.c (refCoordQ k b i - refCoordQ k a i) * PE.x 0 + PE.c (refCoordQ k c i - refCoordQ k a i) * PE.x 1

/-- Affine expression in two coordinates: parallelogram with corners `a, b, ·, d`. -/
def quaPE (k : GeoKind) (a b d i : Nat) : PE :=
  PE.c ((refCoordQ k b i + refCoordQ k d i) / 2) + PE.c ((refCoordQ k b i - refCoordQ k a i) / 2) * PE.x 0
    + PE.c ((refCoordQ k d i - refCoordQ k a i) / 2) * PE.x 1

/-- Sum of the functions of the side kind attached to node `m`. -/
def traceSum (sk : GeoKind) (nodes : List Nat) (m : Nat) : PE :=
  PE.sum ((List.range sk.nnode).map fun j => if nodes.getD j 0 = m then (interp sk).getD j 0 else PE.c 0)

def chkLen (k : GeoKind) : Bool :=
  (interp k).length == k.nnode && (deriv k).length == k.nnode && (deriv k).all (fun r => r.length == k.ndim) &&
  k.referenceCoords.length == k.nnode && k.referenceCoords.all (fun r => r.length == k.ndim)

def chkPou (k : GeoKind) : Bool := PE.same (PE.sum ((List.range k.nnode).map fun m => (interp k).getD m 0)) 1
def chkDeriv (k : GeoKind) : Bool := (List.range k.nnode).all fun m => (List.range k.ndim).all fun i =>
  ((interp k).getD m 0).constDen && PE.same (((interp k).getD m 0).diff i) (((deriv k).getD m []).getD i 0)
def chkDerivSum (k : GeoKind) : Bool := (List.range k.ndim).all fun i =>
  PE.same (PE.sum ((List.range k.nnode).map fun m => ((deriv k).getD m []).getD i 0)) 0
def chkKron (k : GeoKind) : Bool := (List.range k.nnode).all fun m => (List.range k.nnode).all fun n =>
  decide (PE.evalQ (refCoordQ k n) ((interp k).getD m 0) = if m = n then 1 else 0)
def chkLinear (k : GeoKind) : Bool := (List.range k.ndim).all fun i =>
  PE.same (PE.sum ((List.range k.nnode).map fun m => PE.c (refCoordQ k m i) * (interp k).getD m 0)) (PE.x i)
def chkLinearDeriv (k : GeoKind) : Bool := (List.range k.ndim).all fun i => (List.range k.ndim).all fun j =>
  PE.same (PE.sum ((List.range k.nnode).map fun m => PE.c (refCoordQ k m i) * ((deriv k).getD m []).getD j 0))
    (if i = j then 1 else 0)
def chkEdge (k : GeoKind) : Bool :=
  match k.edgeKind with
  | none => true
  | some ek => (List.range k.nedge).all fun e => (List.range k.nnode).all fun m =>
      PE.same (((interp k).getD m 0).subst (segPE k (edgeNode k e 0) (edgeNode k e 1)))
        (traceSum ek (k.edgeNodeIds.getD e []) m)
def chkFace (k : GeoKind) : Bool :=
  match k.faceKind with
  | none => true
  | some fk => (List.range k.nface).all fun f => (List.range k.nnode).all fun m =>
      PE.same (((interp k).getD m 0).subst
        (if fk.classOf = .tri then triPE k (faceNode k f 0) (faceNode k f 1) (faceNode k f 2)
         else quaPE k (faceNode k f 0) (faceNode k f 1) (faceNode k f 3)))
        (traceSum fk (k.faceNodeIds.getD f []) m)

theorem chkLen_ok (k : GeoKind) : chkLen k = true := by cases k <;> decide +kernel
theorem chkPou_ok (k : GeoKind) : chkPou k = true := by cases k <;> decide +kernel
theorem chkDeriv_ok (k : GeoKind) : chkDeriv k = true := by cases k <;> decide +kernel
theorem chkDerivSum_ok (k : GeoKind) : chkDerivSum k = true := by cases k <;> decide +kernel
theorem chkKron_ok (k : GeoKind) : chkKron k = true := by cases k <;> decide +kernel
theorem chkLinear_ok (k : GeoKind) : chkLinear k = true := by cases k <;> decide +kernel
theorem chkLinearDeriv_ok (k : GeoKind) : chkLinearDeriv k = true := by cases k <;> decide +kernel
end Gemlab.Shapes
