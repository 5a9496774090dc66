import Verif.Spec.Features
import Verif.Spec.Draw
import Mathlib.Data.Sym.Sym2

/-!
# Closed boundaries

Meshes whose cells fit together: an edge (face) belongs to at most two cells, and the two cells agree on it. The meaning of a closed polygon or
surface: directed edges leave and enter every point equally often; every side is used equally often in both directions.
-/
namespace Gemlab.Mesh
open Gemlab.Shapes

/-- No three different (cell, local entity) have the property. -/
def AtMostTwo (P : Nat → Nat → Prop) : Prop :=
  ∀ c e c' e' c'' e'', P c e → P c' e' → P c'' e'' → (c = c' ∧ e = e') ∨ (c = c'' ∧ e = e'') ∨ (c' = c'' ∧ e' = e'')

/-- The first and the last point of the local edge `e` of a cell. -/
def edgeEnds (cell : Cell) (e : Nat) : Nat × Nat := (cell.points.getD (edgeNode cell.kind e 0) 0, cell.points.getD (edgeNode cell.kind e 1) 0)

/-- Consecutive pairs of a list. -/
def consecutive (l : List Nat) : List (Nat × Nat) := l.zip l.tail

/-- The segments between neighbouring points along the edges of a triangle or quadrilateral with these points; every edge runs from its
first to its second end. -/
def rim (fk : GeoKind) (pts : List Nat) : List (Nat × Nat) :=
  match fk.edgeKind with
  | none => []
  | some ek => (List.range fk.nedge).flatMap fun e => (consecutive (Draw.curveOrder ek)).map fun s => (pts.getD (edgeNode fk e s.1) 0, pts.getD (edgeNode fk e s.2) 0)

/-- The rim of the local face `f` of a cell. -/
def faceRim (cell : Cell) (f : Nat) : List (Nat × Nat) :=
  match cell.kind.faceKind with
  | none => []
  | some fk => rim fk ((List.range fk.nnode).map fun i => cell.points.getD (faceNode cell.kind f i) 0)

/-- No edge is run through in the same direction by two cells (or by two edges of one cell). -/
def OrientedEdges {K : Type} (m : Mesh K) : Prop :=
  ∀ (c e c' e' : Nat) (cell cell' : Cell), m.cells[c]? = some cell → m.cells[c']? = some cell' → cell.kind.ndim = 2 → cell'.kind.ndim = 2 → e < cell.kind.nedge → e' < cell'.kind.nedge →
    edgeEnds cell e = edgeEnds cell' e' → c = c' ∧ e = e'

/-- Two different cells with the same face have the same segments at the rim of it, in opposite directions, and there is no third one. -/
structure OrientedFaces {K : Type} (m : Mesh K) : Prop where
  two : ∀ key, AtMostTwo (HasFace m key)
  opposite : ∀ key c f c' f', HasFace m key c f → HasFace m key c' f' → ¬ (c = c' ∧ f = f') → ∀ cell cell', m.cells[c]? = some cell → m.cells[c']? = some cell' →
    (faceRim cell f).Perm ((faceRim cell' f').map Prod.swap)

/-- The same without the directions. -/
structure MatchingFaces {K : Type} (m : Mesh K) : Prop where
  two : ∀ key, AtMostTwo (HasFace m key)
  same : ∀ key c f c' f', HasFace m key c f → HasFace m key c' f' → ¬ (c = c' ∧ f = f') → ∀ cell cell', m.cells[c]? = some cell → m.cells[c']? = some cell' →
    ((faceRim cell f).map fun s => s(s.1, s.2)).Perm ((faceRim cell' f').map fun s => s(s.1, s.2))

/-- The directed sides of a triangle. -/
def triSides {α : Type} : List α → List (α × α)
  | [a, b, c] => [(a, b), (b, c), (c, a)]
  | _ => []

end Gemlab.Mesh
