import Verif.Spec.Divergence
import Verif.Spec.Integ

/-!
# Specification of the patch test

A constant stress is in equilibrium: the nodal forces computed inside the mesh (`vec_04_bt`) are those of the tractions on the boundary
(`vec_02_nv_bry`), whatever the mesh.
-/
namespace Gemlab.Spec
open MvPolynomial Gemlab Gemlab.Shapes Gemlab.GaussSpec Gemlab.Spec.Analytical
noncomputable section

/-- The degree of the shape functions: total in triangles and tetrahedra, in each variable in the others. -/
def shapeDegree : GeoKind → Nat
  | .lin2 | .tri3 | .qua4 | .tet4 | .hex8 => 1
  | .lin3 | .tri6 | .qua8 | .qua9 | .tet10 | .hex20 => 2
  | .lin4 | .tri10 | .qua12 | .qua16 | .tet20 | .hex32 => 3
  | .lin5 | .tri15 | .qua17 => 4

/-- The polynomials to be integrated exactly over a cell: a derivative of a shape function times the Jacobian. -/
def cellNeed (k : GeoKind) : Exactness :=
  match k.classOf with
  | .lin => .total (shapeDegree k - 1)
  | .tri => .total (2 * (shapeDegree k - 1))
  | .qua => .perVariable (2 * shapeDegree k - 1)
  | .tet => .total (3 * (shapeDegree k - 1))
  | .hex => .perVariable (3 * shapeDegree k - 1)

/-- The polynomials to be integrated exactly over an edge in the plane or a face in space: a shape function times the normal. -/
def sideNeed (k : GeoKind) : Exactness :=
  match k.classOf with
  | .lin => .total (2 * shapeDegree k - 1)
  | .tri => .total (3 * shapeDegree k - 2)
  | _ => .perVariable (3 * shapeDegree k - 1)

/-- The rule has its points in the reference domain and integrates, with an error of at most `ε` times the sum of the absolute values of the
coefficients, all polynomials covered by `e`. -/
structure Accurate (g : Gauss) (cls : GeoClass) (e : Exactness) (ε : ℝ) : Prop where
  inside : ∀ p < g.npoint, GaussSpec.InReference cls (g.coords p 0) (g.coords p 1) (g.coords p 2)
  exact : ∀ P : MvPolynomial (Fin 3) ℝ, e.Covers P →
    |∑ p ∈ Finset.range g.npoint, eval (fun i : Fin 3 => g.coords p i) P * g.weight p - refIntegral cls fun r s t => eval ![r, s, t] P| ≤ ε * coeffNorm P

/-- The vector of `vec_04_bt` for the element of the pad and the constant stress with Mandel vector `t`. -/
def stressVector (inv : MatInverse) (pad : Scratchpad) (g : Gauss) (t : Nat → ℝ) : Vec × Res Scratchpad :=
  Gemlab.Integ.vec04Bt inv ⟨pad.kind.nnode * pad.spaceNdim, fun _ => 0⟩ (CommonArgs.new pad g) fun _ _ _ => .ok t

/-- The vector of `vec_02_nv_bry` for the edge or face of the pad and the traction `σ·n` of this stress. -/
def tractionVector (pad : Scratchpad) (g : Gauss) (t : Nat → ℝ) : Vec × Res Scratchpad :=
  Gemlab.Integ.vec02NvBry ⟨pad.kind.nnode * pad.spaceNdim, fun _ => 0⟩ (CommonArgs.new pad g) fun _ un _ =>
    .ok fun i => ∑ j ∈ Finset.range pad.spaceNdim, Integ.tensor2 t i j * un j

/-- The vector of `vec_03_bv` for the element of the pad and the constant vector `w`. -/
def flowVector (inv : MatInverse) (pad : Scratchpad) (g : Gauss) (w : Nat → ℝ) : Vec × Res Scratchpad :=
  Gemlab.Integ.vec03Bv inv ⟨pad.kind.nnode, fun _ => 0⟩ (CommonArgs.new pad g) fun _ _ _ => .ok w

/-- The vector of `vec_01_ns_bry` for the edge or face of the pad and the flow `w·n`. -/
def outflowVector (pad : Scratchpad) (g : Gauss) (w : Nat → ℝ) : Vec × Res Scratchpad :=
  Gemlab.Integ.vec01NsBry ⟨pad.kind.nnode, fun _ => 0⟩ (CommonArgs.new pad g) fun _ un _ => .ok (∑ j ∈ Finset.range pad.spaceNdim, w j * un j)

/-- The matrix of `mat_10_bdb` for the element of the pad and the constant stiffness with Mandel matrix `D`. -/
def stiffnessMatrix (inv : MatInverse) (pad : Scratchpad) (g : Gauss) (D : Nat → Nat → ℝ) : Mat × Res Scratchpad :=
  Gemlab.Integ.mat10Bdb inv ⟨pad.kind.nnode * pad.spaceNdim, pad.kind.nnode * pad.spaceNdim, fun _ => 0⟩ (CommonArgs.new pad g) fun _ _ _ => .ok D

/-- The matrix of `mat_03_btb` for the element of the pad and the constant conductivity with Mandel vector `k`. -/
def conductivityMatrix (inv : MatInverse) (pad : Scratchpad) (g : Gauss) (k : Nat → ℝ) : Mat × Res Scratchpad :=
  Gemlab.Integ.mat03Btb inv ⟨pad.kind.nnode, pad.kind.nnode, fun _ => 0⟩ (CommonArgs.new pad g) fun _ _ _ => .ok k

/-- `t` is the stress of the displacement gradient `E` (in `d` dimensions) with the stiffness `D`. -/
def IsStressOf (d : Nat) (D : Nat → Nat → ℝ) (E : Nat → Nat → ℝ) (t : Nat → ℝ) : Prop :=
  ∀ i < d, ∀ j < d, Integ.tensor2 t i j = ∑ k ∈ Finset.range d, ∑ l ∈ Finset.range d, Integ.tensor4 D i j k l * E k l

/-- The product of a matrix of an element (`d` components for each of the `n` nodes) with the nodal values `u`. -/
def timesNodal (n d : Nat) (k : Mat) (u : Nat → Nat → ℝ) : Vec := ⟨n * d, fun a => ∑ b ∈ Finset.range n, ∑ j ∈ Finset.range d, k.val (a, j + b * d) * u b j⟩

/-- The part of a vector of an element (`d` components for each of the `n` nodes) that belongs to the component `i` at the point `q`; the element
has the points `pts`. -/
def nodalPart (n : Nat) (pts : Nat → Nat) (d : Nat) (b : Vec) (q i : Nat) : ℝ := ∑ j ∈ Finset.range n, if pts j = q then b.val (i + j * d) else 0

end
end Gemlab.Spec

namespace Gemlab.Mesh
open Gemlab.Shapes Gemlab.Spec
noncomputable section

/-- The component `i` at the point `q` of the nodal forces of all cells, assembled; `g c` is the rule used for the cell `c`. -/
def internalForce (inv : MatInverse) (m : Mesh ℝ) (g : Nat → Gauss) (t : Nat → ℝ) (q i : Nat) : ℝ := ∑ c ∈ fullCells m,
  match getPad m c with
  | .ok pad => nodalPart pad.kind.nnode (nodeOf m c) m.ndim (stressVector inv pad (g c) t).1 q i
  | _ => 0

/-- The component `i` at the point `q` of the nodal forces of the tractions on the features (edges or faces) `l`, assembled; `g f` is the rule used for `f`. -/
def boundaryForce (m : Mesh ℝ) (g : Feature → Gauss) (t : Nat → ℝ) (l : List Feature) (q i : Nat) : ℝ := (l.map fun f =>
  match featurePad m f with
  | .ok pad => nodalPart pad.kind.nnode (fun j => f.points.getD j 0) m.ndim (tractionVector pad (g f) t).1 q i
  | _ => 0).sum

/-- The same for the nodal flows. -/
def internalFlow (inv : MatInverse) (m : Mesh ℝ) (g : Nat → Gauss) (w : Nat → ℝ) (q : Nat) : ℝ := ∑ c ∈ fullCells m,
  match getPad m c with
  | .ok pad => nodalPart pad.kind.nnode (nodeOf m c) 1 (flowVector inv pad (g c) w).1 q 0
  | _ => 0

def boundaryFlow (m : Mesh ℝ) (g : Feature → Gauss) (w : Nat → ℝ) (l : List Feature) (q : Nat) : ℝ := (l.map fun f =>
  match featurePad m f with
  | .ok pad => nodalPart pad.kind.nnode (fun j => f.points.getD j 0) 1 (outflowVector pad (g f) w).1 q 0
  | _ => 0).sum

/-- The product of the stiffness matrices of all cells, assembled, with the displacements `u` of the points. -/
def stiffnessForce (inv : MatInverse) (m : Mesh ℝ) (g : Nat → Gauss) (D : Nat → Nat → ℝ) (u : Nat → Nat → ℝ) (q i : Nat) : ℝ := ∑ c ∈ fullCells m,
  match getPad m c with
  | .ok pad => nodalPart pad.kind.nnode (nodeOf m c) m.ndim (timesNodal pad.kind.nnode m.ndim (stiffnessMatrix inv pad (g c) D).1 fun n => u (nodeOf m c n)) q i
  | _ => 0

/-- The product of the conductivity matrices of all cells, assembled, with the temperatures `θ` of the points. -/
def conductivityFlow (inv : MatInverse) (m : Mesh ℝ) (g : Nat → Gauss) (k : Nat → ℝ) (θ : Nat → ℝ) (q : Nat) : ℝ := ∑ c ∈ fullCells m,
  match getPad m c with
  | .ok pad => nodalPart pad.kind.nnode (nodeOf m c) 1 (timesNodal pad.kind.nnode 1 (conductivityMatrix inv pad (g c) k).1 fun n _ => θ (nodeOf m c n)) q 0
  | _ => 0

/-- The rules of the cells and of the features are good enough for the patch test, up to the accuracy `ε`. -/
structure PatchRules (m : Mesh ℝ) (l : List Feature) (gc : Nat → Gauss) (gf : Feature → Gauss) (ε : ℝ) : Prop where
  cells : ∀ c ∈ fullCells m, ∀ cell, m.cells[c]? = some cell → Accurate (gc c) cell.kind.classOf (cellNeed cell.kind) ε
  sides : ∀ f ∈ l, Accurate (gf f) f.kind.classOf (sideNeed f.kind) ε

/-- All calls succeed. -/
structure PatchCalls (inv : MatInverse) (m : Mesh ℝ) (l : List Feature) (gc : Nat → Gauss) (gf : Feature → Gauss) (t w : Nat → ℝ) : Prop where
  cells : ∀ c ∈ fullCells m, ∃ pad r r', getPad m c = .ok pad ∧ (stressVector inv pad (gc c) t).2 = .ok r ∧ (flowVector inv pad (gc c) w).2 = .ok r'
  sides : ∀ f ∈ l, ∃ pad r r', featurePad m f = .ok pad ∧ (tractionVector pad (gf f) t).2 = .ok r ∧ (outflowVector pad (gf f) w).2 = .ok r'

end
end Gemlab.Mesh
