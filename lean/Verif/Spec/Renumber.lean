import Verif.Spec.Integ
import Verif.Model.Gauss

/-!
# Specification of the renumbering of the nodes of an element

The same element can be given with another starting corner. This corresponds to a rotation of the reference cell, which maps reference nodes to reference nodes and
integration points to integration points.
-/
namespace Gemlab.Spec.Renumber
open Gemlab Gemlab.Shapes

/-- The map `ξ ↦ a + M ξ` of the reference coordinates. -/
structure RefMap where
  a : List ℚ
  M : List (List ℚ)

def RefMap.entry (A : RefMap) (i j : Nat) : ℚ := (A.M.getD i []).getD j 0

/-- The image of the reference coordinates `ξ`. -/
def RefMap.map {K : Type} [Field K] (A : RefMap) (ξ : Nat → K) (i : Nat) : K :=
  ((A.a.getD i 0 : ℚ) : K) + (A.entry i 0 : ℚ) * ξ 0 + (A.entry i 1 : ℚ) * ξ 1 + (A.entry i 2 : ℚ) * ξ 2

/-- Rotations of the reference cells: a line is turned around; the corners of a triangle or square are moved to the next ones; two rotations of the
tetrahedron (3-cycles of the corners 1, 2, 3 and 0, 1, 2) and two of the cube (about the third axis and about a diagonal), from which all others are composed. -/
def rotations : GeoClass → List RefMap
  | .lin => [⟨[0], [[-1]]⟩]
  | .tri => [⟨[1, 0], [[-1, -1], [1, 0]]⟩]
  | .qua => [⟨[0, 0], [[0, -1], [1, 0]]⟩]
  | .tet => [⟨[0, 0, 0], [[0, 1, 0], [0, 0, 1], [1, 0, 0]]⟩, ⟨[1, 0, 0], [[-1, -1, -1], [1, 0, 0], [0, 0, 1]]⟩]
  | .hex => [⟨[0, 0, 0], [[0, -1, 0], [1, 0, 0], [0, 0, 1]]⟩, ⟨[0, 0, 0], [[0, 1, 0], [0, 0, 1], [1, 0, 0]]⟩]

/-- The rotation `A` moves the reference node `m` to the reference node `σ m`. -/
structure MovesNodes (k : GeoKind) (A : RefMap) (σ : Nat → Nat) : Prop where
  rot : A ∈ rotations k.classOf
  lt : ∀ m < k.nnode, σ m < k.nnode
  nodes : ∀ m < k.nnode, ∀ i < k.ndim, refCoordQ k (σ m) i = A.map (refCoordQ k m) i

/-- The map `A` moves the integration point `p` to the integration point `π p`, which has the same weight. -/
structure MovesPoints (d : Nat) (g : Gauss) (A : RefMap) (π : Nat → Nat) : Prop where
  lt : ∀ p < g.npoint, π p < g.npoint
  inj : ∀ p < g.npoint, ∀ q < g.npoint, π p = π q → p = q
  weight : ∀ p < g.npoint, g.weight (π p) = g.weight p
  coords : ∀ p < g.npoint, ∀ i < d, g.coords (π p) i = A.map (g.coords p) i

/-- The node `m` of the element of `pad'` is the node `σ m` of the element of `pad`. -/
structure Renumbered (σ : Nat → Nat) (pad pad' : Scratchpad) : Prop where
  kind : pad'.kind = pad.kind
  ndim : pad'.spaceNdim = pad.spaceNdim
  fits : pad.kind.ndim ≤ pad.spaceNdim
  coords : ∀ m < pad.kind.nnode, ∀ i < pad.spaceNdim, pad'.X m i = pad.X (σ m) i

/-- Tables of integration points whose decimals have the exact symmetry of the cell: all tables of lines, quadrilaterals and hexahedra, and the tables of triangles
with 1, 3, 4, 6 points and of tetrahedra with 1, 4, 5 points. -/
def ExactTable (c : GeoClass) (n : Nat) : Prop :=
  match c with
  | .tri => n = 1 ∨ n = 3 ∨ n = 4 ∨ n = 6
  | .tet => n = 1 ∨ n = 4 ∨ n = 5
  | _ => True

end Gemlab.Spec.Renumber
