import Verif.Spec.Analytical
import Verif.Spec.Gauss
import Verif.Spec.RefShapes
import Verif.Model.Scratchpad
import Verif.Spec.Closed
import Verif.Spec.Convert2d

/-!
# The divergence of a field and its flux, as computed with the functions of `Scratchpad`

The field is given by nodal vectors (`v n i`: component `i` at node `n`) and interpolated with the shape functions of the cell, edge or face.
-/
namespace Gemlab.Spec
open Gemlab Gemlab.Shapes Gemlab.GaussSpec Gemlab.Spec.Analytical
noncomputable section

/-- The divergence of the field, `Σ_n Σ_i ∂N_n/∂x_i v_ni`, times the determinant of the Jacobian, both as computed by `calc_gradient`. -/
def divDensity (inv : MatInverse) (pad : Scratchpad) (v : Nat → Nat → ℝ) (ξ : Nat → ℝ) : ℝ :=
  match pad.calcGradient inv ξ with
  | .ok (det, pad') => det * ∑ n ∈ Finset.range pad.kind.nnode, ∑ i ∈ Finset.range pad.spaceNdim, pad'.gradient n i * v n i
  | _ => 0

/-- The field in the direction of the unit normal, times the magnitude of the normal (the ratio of lengths or areas), both as computed by
`calc_normal_vector`. -/
def fluxDensity (pad : Scratchpad) (v : Nat → Nat → ℝ) (ξ : Nat → ℝ) : ℝ :=
  match pad.calcNormalVector pad.spaceNdim ξ with
  | .ok (mag, un, _) => mag * ∑ i ∈ Finset.range pad.spaceNdim, un i * interpolate pad.kind (fun n => v n i) ξ
  | _ => 0

/-- The integral of the divergence over the cell held by the pad. -/
def totalDivergence (inv : MatInverse) (pad : Scratchpad) (v : Nat → Nat → ℝ) : ℝ := refIntegral pad.kind.classOf fun r s t => divDensity inv pad v (point r s t)

/-- The flux through the edge or face held by the pad. -/
def totalFlux (pad : Scratchpad) (v : Nat → Nat → ℝ) : ℝ := refIntegral pad.kind.classOf fun r s t => fluxDensity pad v (point r s t)

/-- The area or volume of the cell held by the pad: the integral of the determinant computed by `calc_gradient`. -/
def totalMeasure (inv : MatInverse) (pad : Scratchpad) : ℝ := refIntegral pad.kind.classOf fun r s t =>
  match pad.calcGradient inv (point r s t) with
  | .ok (det, _) => det
  | _ => 0

/-- The integral over the edge or face of the component `i` of the unit normal. -/
def totalNormal (pad : Scratchpad) (i : Nat) : ℝ := refIntegral pad.kind.classOf fun r s t =>
  match pad.calcNormalVector pad.spaceNdim (point r s t) with
  | .ok (mag, un, _) => mag * un i
  | _ => 0

/-- The gradient can be computed at all points of the cell. -/
def GradientOk (inv : MatInverse) (pad : Scratchpad) : Prop := ∀ r s t, GaussSpec.InReference pad.kind.classOf r s t → ∃ res, pad.calcGradient inv (point r s t) = .ok res

/-- The symmetries of the reference line, triangle and square that reverse the orientation. Two cells at both sides of an edge (face) see it
through coordinates related by one of these. -/
def mirrors : GeoClass → List ((Nat → ℝ) → (Nat → ℝ))
  | .lin => [fun ξ => vec1 (-ξ 0)]
  | .tri => [fun ξ => vec2 (ξ 1) (ξ 0), fun ξ => vec2 (ξ 0) (1 - ξ 0 - ξ 1), fun ξ => vec2 (1 - ξ 0 - ξ 1) (ξ 1)]
  | .qua => [fun ξ => vec2 (-ξ 0) (ξ 1), fun ξ => vec2 (ξ 0) (-ξ 1), fun ξ => vec2 (ξ 1) (ξ 0), fun ξ => vec2 (-ξ 1) (-ξ 0)]
  | _ => []

/-- The points `p` and `q` at the nodes of an edge or face of kind `k` are the same, seen from the two sides. -/
def SeenFromBothSides (k : GeoKind) (p q : Nat → Nat) : Prop := ∃ A ∈ mirrors k.classOf, ∀ a < k.nnode, ∀ b < k.nnode, AtImage k A a b → q b = p a

end
end Gemlab.Spec

namespace Gemlab.Mesh
open Gemlab.Shapes Gemlab.Spec
noncomputable section

/-- A plane mesh in which an edge belongs to at most two cells, which see it from both sides. -/
structure ConformingEdges (m : Mesh ℝ) : Prop where
  two : ∀ key, AtMostTwo (HasEdge m key)
  opposite : ∀ key c e c' e', HasEdge m key c e → HasEdge m key c' e' → ¬ (c = c' ∧ e = e') → ∀ cell cell', m.cells[c]? = some cell → m.cells[c']? = some cell' →
    ∃ k, cell.kind.edgeKind = some k ∧ cell'.kind.edgeKind = some k ∧
      SeenFromBothSides k (fun j => nodeOf m c (edgeNode cell.kind e j)) (fun j => nodeOf m c' (edgeNode cell'.kind e' j))

/-- A mesh in space in which a face belongs to at most two cells, which see it from both sides. -/
structure ConformingFaces (m : Mesh ℝ) : Prop where
  two : ∀ key, AtMostTwo (HasFace m key)
  opposite : ∀ key c f c' f', HasFace m key c f → HasFace m key c' f' → ¬ (c = c' ∧ f = f') → ∀ cell cell', m.cells[c]? = some cell → m.cells[c']? = some cell' →
    ∃ k, cell.kind.faceKind = some k ∧ cell'.kind.faceKind = some k ∧
      SeenFromBothSides k (fun j => nodeOf m c (faceNode cell.kind f j)) (fun j => nodeOf m c' (faceNode cell'.kind f' j))

open Classical in
/-- The cells with the dimension of the space. -/
def fullCells (m : Mesh ℝ) : Finset Nat := (Finset.range m.cells.length).filter fun c => ∃ cell, m.cells[c]? = some cell ∧ cell.kind.ndim = m.ndim

/-- The integral over the cell `c` (of the mesh) of the divergence of the field with the vectors `v` at the points. -/
def cellDivergence (inv : MatInverse) (m : Mesh ℝ) (v : Nat → Nat → ℝ) (c : Nat) : ℝ :=
  match getPad m c with
  | .ok pad => totalDivergence inv pad fun n => v (nodeOf m c n)
  | _ => 0

/-- The area or volume of the cell `c`. -/
def cellMeasure (inv : MatInverse) (m : Mesh ℝ) (c : Nat) : ℝ :=
  match getPad m c with
  | .ok pad => totalMeasure inv pad
  | _ => 0

/-- A new pad filled with the points of a feature. -/
def featurePad (m : Mesh ℝ) (f : Feature) : Res Scratchpad := Scratchpad.new m.ndim f.kind >>= fun pad => setPad m pad f.points

/-- The flux of this field through an edge or face. -/
def featureFlux (m : Mesh ℝ) (v : Nat → Nat → ℝ) (f : Feature) : ℝ :=
  match featurePad m f with
  | .ok pad => totalFlux pad fun j => v (f.points.getD j 0)
  | _ => 0

/-- The integral of the component `i` of the unit normal over an edge or face. -/
def featureNormal (m : Mesh ℝ) (i : Nat) (f : Feature) : ℝ :=
  match featurePad m f with
  | .ok pad => totalNormal pad i
  | _ => 0

end
end Gemlab.Mesh
