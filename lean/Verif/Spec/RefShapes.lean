import Verif.Model.ShapeFns
import Mathlib.Algebra.BigOperators.Group.Finset.Basic

/-!
# Small specification for the shape properties

Reference positions on edges and faces, interpolation of nodal values, symmetries of the reference shapes, areas.
-/
namespace Gemlab.Spec
open Gemlab.Shapes

variable {K : Type} [Field K]

/-- Coordinates of a point with one / two components (other components are irrelevant and set to zero). -/
def vec1 (a : K) : Nat → K
  | 0 => a
  | _ => 0
def vec2 (a b : K) : Nat → K
  | 0 => a
  | 1 => b
  | _ => 0

/-- The interpolated field `u(ξ) = Σ_m N_m(ξ) u_m`. -/
def interpolate (k : GeoKind) (u : Nat → K) (ξ : Nat → K) : K := ∑ m ∈ Finset.range k.nnode, calcInterp k ξ m * u m

/-- The point with parameter `η` (from `-1` to `1`) on the straight segment between the two end nodes of local edge `e`. -/
def edgePoint (k : GeoKind) (e : Nat) (η : K) (i : Nat) : K :=
  (1 - η) / 2 * refCoord k (edgeNode k e 0) i + (1 + η) / 2 * refCoord k (edgeNode k e 1) i

/-- The point with triangle coordinates `(η₀, η₁)` on the local face `f` of a tetrahedron. -/
def triFacePoint (k : GeoKind) (f : Nat) (η : Nat → K) (i : Nat) : K :=
  (1 - η 0 - η 1) * refCoord k (faceNode k f 0) i + η 0 * refCoord k (faceNode k f 1) i + η 1 * refCoord k (faceNode k f 2) i

/-- The point with square coordinates `(η₀, η₁) ∈ [-1,1]²` on the local face `f` of a hexahedron. -/
def quaFacePoint (k : GeoKind) (f : Nat) (η : Nat → K) (i : Nat) : K :=
  (1 - η 0) * (1 - η 1) / 4 * refCoord k (faceNode k f 0) i + (1 + η 0) * (1 - η 1) / 4 * refCoord k (faceNode k f 1) i
  + (1 + η 0) * (1 + η 1) / 4 * refCoord k (faceNode k f 2) i + (1 - η 0) * (1 + η 1) / 4 * refCoord k (faceNode k f 3) i

/-- The point on face `f`, whatever the class of the solid. -/
def facePoint (k : GeoKind) (f : Nat) (η : Nat → K) : Nat → K :=
  if k.classOf = .tet then triFacePoint k f η else quaFacePoint k f η

/-- Symmetries of the reference line `[-1,1]`, of the reference triangle and of the reference square. Two cells that
share an edge (face) see it through coordinates related by one of these. -/
def refSymmetries : GeoClass → List ((Nat → K) → (Nat → K))
  | .lin => [fun ξ => vec1 (ξ 0), fun ξ => vec1 (-ξ 0)]
  | .tri => [fun ξ => vec2 (ξ 0) (ξ 1), fun ξ => vec2 (ξ 1) (ξ 0),
      fun ξ => vec2 (ξ 0) (1 - ξ 0 - ξ 1), fun ξ => vec2 (1 - ξ 0 - ξ 1) (ξ 0),
      fun ξ => vec2 (ξ 1) (1 - ξ 0 - ξ 1), fun ξ => vec2 (1 - ξ 0 - ξ 1) (ξ 1)]
  | .qua => [fun ξ => vec2 (ξ 0) (ξ 1), fun ξ => vec2 (-ξ 0) (ξ 1), fun ξ => vec2 (ξ 0) (-ξ 1), fun ξ => vec2 (-ξ 0) (-ξ 1),
      fun ξ => vec2 (ξ 1) (ξ 0), fun ξ => vec2 (-ξ 1) (ξ 0), fun ξ => vec2 (ξ 1) (-ξ 0), fun ξ => vec2 (-ξ 1) (-ξ 0)]
  | _ => []

/-- Node `n` is located at the image of node `m` under `A`. -/
def AtImage (k : GeoKind) (A : (Nat → K) → Nat → K) (m n : Nat) : Prop :=
  ∀ i < k.ndim, (refCoord k n i : K) = A (refCoord k m) i

/-- Twice the signed area of a triangle (positive if counter-clockwise). -/
def area2 (a b c : K × K) : K := (b.1 - a.1) * (c.2 - a.2) - (c.1 - a.1) * (b.2 - a.2)

/-- Corner `i` of triangle `t` of the triangulation, in the reference plane over `K`. -/
def corner (k : GeoKind) (t i : Nat) : K × K := ((triangleCorner k t i).1, (triangleCorner k t i).2)

/-- The point is in the closed triangle `t` / strictly inside it. -/
def InTriangle [LE K] (k : GeoKind) (t : Nat) (p : K × K) : Prop :=
  0 ≤ area2 (corner k t 0) (corner k t 1) p ∧ 0 ≤ area2 (corner k t 1) (corner k t 2) p ∧ 0 ≤ area2 (corner k t 2) (corner k t 0) p
def StrictlyIn [LT K] (k : GeoKind) (t : Nat) (p : K × K) : Prop :=
  0 < area2 (corner k t 0) (corner k t 1) p ∧ 0 < area2 (corner k t 1) (corner k t 2) p ∧ 0 < area2 (corner k t 2) (corner k t 0) p

/-- The point is in the reference triangle / square. -/
def InReference [LE K] (c : GeoClass) (p : K × K) : Prop :=
  match c with
  | .tri => 0 ≤ p.1 ∧ 0 ≤ p.2 ∧ p.1 + p.2 ≤ 1
  | .qua => -1 ≤ p.1 ∧ p.1 ≤ 1 ∧ -1 ≤ p.2 ∧ p.2 ≤ 1
  | _ => False

end Gemlab.Spec
