import Verif.Model.Features

/-! # Model of `Edges::any_path` — `/repo/src/mesh/edges.rs:111-245` -/
namespace Gemlab.Mesh
open Gemlab.Shapes

/-- The map from points to edges — edges.rs:117-129. -/
def pathMap (all : List Feature) : Res (HMap Nat (List Nat)) :=
  (List.range all.length).foldlM (fun map e => do
    let edge ← Res.idx all e
    let key ← edge.edgeKey
    pure ((map.push key.1 e).push key.2 e)) []

/-- First element after sorting — edges.rs:131-150 (the iteration order of the map is irrelevant because of the sort). -/
def pathStart (map : HMap Nat (List Nat)) : Res Nat :=
  let endpoints := (map.filterMap fun e => if e.2.length = 1 then some e.1 else none).insertionSort (· ≤ ·)
  if endpoints.length > 0 then Res.idx endpoints 0
  else Res.idx ((map.map (·.1)).insertionSort (· ≤ ·)) 0

/-- `next_point` — edges.rs:152-160. -/
def nextPoint (all : List Feature) (point e : Nat) : Res Nat := do
  let edge ← Res.idx all e
  let a ← Res.idx edge.points 0
  let b ← Res.idx edge.points 1
  pure (if a = point then b else a)

/-- `next_edges` — edges.rs:162-167. -/
def nextEdges (map : HMap Nat (List Nat)) (point e : Nat) : Res (List Nat) := do
  let edges ← unwrap (map.get point)
  pure (edges.filter fun e' => e' ≠ e)

/-- `push_other_points` — edges.rs:181-229. -/
def otherPoints (all : List Feature) (e a : Nat) : Res (List Nat) := do
  let edge ← Res.idx all e
  let p := fun i => Res.idx edge.points i
  let p0 ← p 0
  match edge.kind with
  | .lin2 => if p0 = a then do let x ← p 1; pure [x]
             else pure [p0]
  | .lin3 => if p0 = a then do let y ← p 2; let x ← p 1; pure [y, x]
             else do let y ← p 2; pure [y, p0]
  | .lin4 => if p0 = a then do let y ← p 2; let z ← p 3; let x ← p 1; pure [y, z, x]
             else do let z ← p 3; let y ← p 2; pure [z, y, p0]
  | .lin5 => if p0 = a then do let z ← p 3; let y ← p 2; let w ← p 4; let x ← p 1; pure [z, y, w, x]
             else do let w ← p 4; let y ← p 2; let z ← p 3; pure [w, y, z, p0]
  | _ => .panic

/-- The loop `follow path` — edges.rs:235-250; `fuel` is the number of remaining iterations. -/
def followPath (all : List Feature) (map : HMap Nat (List Nat)) (endpoint : Nat) :
    Nat → Nat → Nat → List Nat → List Nat → Res (List Nat × List Nat)
  | 0, _, _, path, points => pure (path, points)
  | fuel + 1, e, b, path, points => do
    let edges ← nextEdges map b e
    if edges.length = 0 then pure (path, points)
    else do
      let e' ← Res.idx edges 0
      let b' ← nextPoint all b e'
      let more ← otherPoints all e' b
      if b' = endpoint then pure (path ++ [e'], points ++ more)
      else followPath all map endpoint fuel e' b' (path ++ [e']) (points ++ more)

/-- `Edges::any_path` — edges.rs:111-253. -/
def anyPath (all : List Feature) : Res (List Nat × List Nat) :=
  if all.length = 0 then pure ([], [])
  else do
    let map ← pathMap all
    let endpoint ← pathStart map
    let first ← unwrap (map.get endpoint)
    let e ← Res.idx first 0
    let b ← nextPoint all endpoint e
    let more ← otherPoints all e endpoint
    followPath all map endpoint all.length e b [e] (endpoint :: more)

end Gemlab.Mesh
