import Verif.Model.FeaturesQueries

/-! # Model of the pairs (cell, points of an edge or face): `/repo/src/mesh/features.rs:374-501` -/
namespace Gemlab.Mesh
noncomputable section
open Gemlab

/-- `sort_by_key(|p| p.0)` (stable) of a list of pairs. -/
def sortByCell (pairs : List (Nat × List Nat)) : List (Nat × List Nat) := pairs.insertionSort fun p q => p.1 ≤ q.1

/-- `Features::get_cells_pairs_via_2d_edge` — features.rs:374-379. -/
def Features.getCellsPairsVia2dEdge (f : Features) (edge : Feature) : Res (List (Nat × List Nat)) := do
  let key ← edge.edgeKey
  let cells ← unwrap (f.all2dEdges.get key)
  pure (sortByCell (cells.map fun c => (c.1, edge.points)))

/-- `Features::get_cells_pairs_via_face` — features.rs:408-413. -/
def Features.getCellsPairsViaFace (f : Features) (face : Feature) : Res (List (Nat × List Nat)) := do
  let key ← face.faceKey
  let cells ← unwrap (f.allFaces.get key)
  pure (sortByCell (cells.map fun c => (c.1, face.points)))

/-- `Features::get_cells_pairs_via_2d_edges` — features.rs:452-460. -/
def Features.getCellsPairsVia2dEdges (f : Features) (edges : List Feature) : Res (List (Nat × List Nat)) := do
  let pairs ← edges.mapM f.getCellsPairsVia2dEdge
  pure (sortByCell pairs.flatten)

/-- `Features::get_cells_pairs_via_faces` — features.rs:493-501. -/
def Features.getCellsPairsViaFaces (f : Features) (faces : List Feature) : Res (List (Nat × List Nat)) := do
  let pairs ← faces.mapM f.getCellsPairsViaFace
  pure (sortByCell pairs.flatten)

end
end Gemlab.Mesh
