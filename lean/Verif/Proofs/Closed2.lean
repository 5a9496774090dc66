import Verif.Proofs.Closed
import Verif.Spec.TriSurface
import Mathlib.Data.List.GetD

/-! # Rims of faces and sides of triangles -/
namespace Gemlab.Mesh
open Gemlab.Shapes

/-- Places in the list of points of the segments of the rim. -/
def rimIdx (fk : GeoKind) : List (Nat × Nat) :=
  match fk.edgeKind with
  | none => []
  | some ek => (List.range fk.nedge).flatMap fun e => (consecutive (Draw.curveOrder ek)).map fun s => (edgeNode fk e s.1, edgeNode fk e s.2)

theorem rim_eq (fk : GeoKind) (pts : List Nat) : rim fk pts = (rimIdx fk).map (Prod.map (pts.getD · 0) (pts.getD · 0)) := by
  unfold rim rimIdx
  cases fk.edgeKind with
  | none => rfl
  | some ek => simp [List.map_flatMap, List.map_map, Function.comp_def]

theorem rimIdx_lt {fk : GeoKind} (h2 : fk.ndim = 2) : ∀ s ∈ rimIdx fk, s.1 < fk.nnode ∧ s.2 < fk.nnode := by
  cases fk <;> first | exact absurd h2 (by decide) | decide +kernel

/-- The rim of a local face in local nodes. -/
def localRim (k fk : GeoKind) (f : Nat) : List (Nat × Nat) := (rimIdx fk).map (Prod.map (faceNode k f) (faceNode k f))

theorem faceKind_two {k fk : GeoKind} (h : k.faceKind = some fk) : fk.ndim = 2 := by
  cases k <;> simp [GeoKind.faceKind] at h <;> subst h <;> rfl

theorem faceRim_eq {cell : Cell} {fk : GeoKind} (h : cell.kind.faceKind = some fk) (f : Nat) :
    faceRim cell f = (localRim cell.kind fk f).map (Prod.map (cell.points.getD · 0) (cell.points.getD · 0)) := by
  unfold faceRim localRim
  rw [h]
  dsimp only
  rw [rim_eq, List.map_map]
  refine List.map_congr_left fun s hs => ?_
  obtain ⟨h1, h2⟩ := rimIdx_lt (faceKind_two h) s hs
  have e : ∀ j < fk.nnode, ((List.range fk.nnode).map fun i => cell.points.getD (faceNode cell.kind f i) 0).getD j 0 = cell.points.getD (faceNode cell.kind f j) 0 := by
    intro j hj
    rw [List.getD_eq_getElem _ _ (by simpa using hj), List.getElem_map, List.getElem_range]
  simp only [Prod.map, Function.comp_apply, e _ h1, e _ h2]

/-- All rims of a solid: every segment appears in both directions. -/
theorem solid_closed {k fk : GeoKind} (h : k.faceKind = some fk) : ∃ i, ((List.range k.nface).flatMap (localRim k fk)).Perm (i ++ i.map Prod.swap) := by
  refine ⟨((List.range k.nface).flatMap (localRim k fk)).filter fun s => s.1 < s.2, ?_⟩
  cases k <;> simp only [GeoKind.faceKind, reduceCtorEq, Option.some.injEq] at h <;> subst h <;> decide +kernel

/-- The sides of the triangles of a cell, in local nodes. -/
def localSides (k : GeoKind) : List (Nat × Nat) :=
  (List.range k.triangulateNtriangle).flatMap fun t => triSides [triangulateNode k t 0, triangulateNode k t 1, triangulateNode k t 2]

/-- The sides of the triangles are the rim, run backwards, and pairs of opposite sides. -/
theorem sides_rim {k : GeoKind} (h2 : k.ndim = 2) : ∃ i, (localSides k).Perm ((rimIdx k).map Prod.swap ++ (i ++ i.map Prod.swap)) := by
  refine ⟨(localSides k).filter fun s => s.1 < s.2 ∧ s.swap ∈ localSides k, ?_⟩
  cases k <;> first | exact absurd h2 (by decide) | decide +kernel

/-- The vertex of a local node. -/
def toVertex (s : Nat) (cell : GeoKind × List Nat) (n : Nat) : Vertex := if n < cell.1.nnode then .node (cell.2.getD n 0) else .extra s (n - cell.1.nnode)

theorem cellSides_eq (s : Nat) {cell : GeoKind × List Nat} (h2 : cell.1.ndim = 2) :
    (cellTriangles s cell).flatMap triSides = (localSides cell.1).map (Prod.map (toVertex s cell) (toVertex s cell)) := by
  have hk : isSurfaceKind cell.1 = true := by
    generalize cell.1 = k at h2
    cases k <;> first | exact absurd h2 (by decide) | rfl
  unfold cellTriangles localSides
  rw [if_pos hk, List.flatMap_map, List.map_flatMap]
  rfl

variable {R : Type} [CommRing R]

/-- The balance of the sides of the triangles of a cell is the one of its rim, with the opposite sign. -/
theorem cellSides_net (s : Nat) {cell : GeoKind × List Nat} (h2 : cell.1.ndim = 2) (u v : Vertex) :
    net R ((cellTriangles s cell).flatMap triSides) u v = - net R ((rim cell.1 cell.2).map (Prod.map Vertex.node Vertex.node)) u v := by
  obtain ⟨i, hi⟩ := sides_rim h2
  rw [cellSides_eq s h2, net_perm (hi.map _), List.map_append, net_append, net_balanced (List.Perm.refl _), add_zero, ← net_swap, rim_eq]
  congr 1
  rw [List.map_map, List.map_map, List.map_map]
  refine List.map_congr_left fun x hx => ?_
  obtain ⟨h3, h4⟩ := rimIdx_lt h2 x hx
  simp only [Function.comp_apply, Prod.map, Prod.swap, toVertex, if_pos h3, if_pos h4]

end Gemlab.Mesh
