import Verif.Model.Block
import Verif.Model.Join
import Verif.Model.Mesh

/-!
# Model of `/repo/src/mesh/generators_qua_hex.rs` (generators of structured meshes)

Real numbers instead of `f64`; the constants `PI`, `SQRT_2`, `SIN_PI_BY_8`, ... are the real numbers. A setter of a block returns the
block after the call and the outcome: `setter(..)?` is `applied`, `setter(..).unwrap()` is `unwrapRes (applied ..)`. The iteration orders
of the hash maps may be different for each block.
-/
namespace Gemlab.Structured
noncomputable section
open Classical
open Gemlab.Mesh Gemlab.Shapes Gemlab.Block

/-- Iteration orders of the hash maps: of the search grid and of `constrained_point_to_side` while subdividing block number `i`, and those
used in joining meshes. -/
structure GenOrders where
  grid : Nat → List (Nat × List ℝ) → List (Nat × List ℝ)
  constrained : Nat → List (Nat × Nat) → List (Nat × Nat)
  join : JoinOrders

/-- All orders are permutations. -/
structure GenOrders.Valid (o : GenOrders) : Prop where
  grid : ∀ i, IterOrder (o.grid i)
  constrained : ∀ i, IterOrder (o.constrained i)
  join : o.join.Valid

/-- `b.setter(..)?` -/
def applied (r : Block × Res Unit) : Res Block :=
  match r.2 with
  | .ok _ => .ok r.1
  | .err e => .err e
  | .panic => .panic

/-- `Block::new(&[[..], ..])` with an array written in the code. -/
def blockOf (inv : MatInverse) (ndim : Nat) (rows : List (List ℝ)) : Res Block :=
  Block.new inv rows.length ndim fun m j => at' (rows.getD m []) j

/-- `if renumber { GraphUnd::renumber_mesh(&mut mesh, false)?; } Ok(mesh)` — generators_qua_hex.rs:76-79 (and at the end of all others). -/
def finish (renumber : Bool) (mesh : Mesh ℝ) : Res (Mesh ℝ) :=
  if renumber then
    match renumberMesh mesh false with
    | (m, .ok _) => .ok m
    | (_, .err e) => .err e
    | (_, .panic) => .panic
  else .ok mesh

variable (inv : MatInverse) (o : GenOrders)

/-- Subdivide block number `i`. -/
def cut (target : GeoKind) (i : Nat) (b : Block) : Res (Mesh ℝ) := subdivide (o.grid i) (o.constrained i) b target

/-- `join_meshes(..)?` and the renumbering, at the end of most of the generators. -/
def joinAll (renumber : Bool) (meshes : List (Mesh ℝ)) : Res (Mesh ℝ) := do
  let mesh ← joinMeshes o.join meshes
  finish renumber mesh

/-! ## Blocks given by the user -/

/-- `struct Blocks2d` — blocks2d.rs:10-55. -/
structure Blocks2d where
  points : List (ℝ × ℝ)
  regions : List (Int × Nat × Nat × Nat × Nat)
  divWeights : List (List ℝ × List ℝ)
  edgeConstraints : List (Option (Nat × Constraint2d))
  markedEdges : List (Int × Nat × Nat)

/-- `struct Blocks3d` — blocks3d.rs:11-63. -/
structure Blocks3d where
  points : List (ℝ × ℝ × ℝ)
  regions : List (Int × Nat × Nat × Nat × Nat × Nat × Nat × Nat × Nat)
  divWeights : List (List ℝ × List ℝ × List ℝ)
  faceConstraints : List (Option (Nat × Constraint3d))
  markedEdges : List (Int × Nat × Nat)
  markedFaces : List (Int × Nat × Nat × Nat × Nat)

/-- The map of edge markers — generators_qua_hex.rs:19-24, 92-96. -/
def edgeMap (marked : List (Int × Nat × Nat)) : HMap EdgeKey Int :=
  marked.foldl (fun h e => h.insert (sort2 e.2.1 e.2.2) e.1) []

/-- The map of face markers — generators_qua_hex.rs:97-101. -/
def faceMap (marked : List (Int × Nat × Nat × Nat × Nat)) : HMap FaceKey Int :=
  marked.foldl (fun h f => h.insert (sort4 f.2.1 f.2.2.1 f.2.2.2.1 f.2.2.2.2) f.1) []

/-- Set the markers of the edges of a block that are in the map — generators_qua_hex.rs:56-68, 151-163. (The edges of the corner kind of
the block; `pp` are the points of the block.) -/
def setMarkedEdges (kind : GeoKind) (marks : HMap EdgeKey Int) (pp : List Nat) (b : Block) : Res Block :=
  if marks.length > 0 then
    (List.range kind.nedge).foldlM (fun b e =>
      match marks.get (sort2 (pp.getD (edgeNode kind e 0) 0) (pp.getD (edgeNode kind e 1) 0)) with
      | some marker => applied (b.setEdgeMarker e marker)
      | none => .ok b) b
  else .ok b

/-- Set the markers of the faces of a block that are in the map — generators_qua_hex.rs:166-179. -/
def setMarkedFaces (marks : HMap FaceKey Int) (pp : List Nat) (b : Block) : Res Block :=
  if marks.length > 0 then
    (List.range 6).foldlM (fun b f =>
      match marks.get (sort4 (pp.getD (faceNode .hex8 f 0) 0) (pp.getD (faceNode .hex8 f 1) 0) (pp.getD (faceNode .hex8 f 2) 0)
        (pp.getD (faceNode .hex8 f 3) 0)) with
      | some marker => applied (b.setFaceMarker f marker)
      | none => .ok b) b
  else .ok b

/-- The weights are applied if they are given for all directions — generators_qua_hex.rs:46-50. -/
def withWeights2d (b : Block) (w : List ℝ × List ℝ) : Res Block :=
  if w.1.length > 0 ∧ w.2.length > 0 then applied (b.setDivWeights2d w.1 w.2) else .ok b

/-- The constraint is applied if there is one — generators_qua_hex.rs:52-55. -/
def withEdgeConstraint (b : Block) : Option (Nat × Constraint2d) → Res Block
  | some c => applied (b.setEdgeConstraint c.1 (some c.2))
  | none => .ok b

/-- The weights are applied if they are given for all directions — generators_qua_hex.rs:140-144. -/
def withWeights3d (b : Block) (w : List ℝ × List ℝ × List ℝ) : Res Block :=
  if w.1.length > 0 ∧ w.2.1.length > 0 ∧ w.2.2.length > 0 then applied (b.setDivWeights3d w.1 w.2.1 w.2.2) else .ok b

/-- The constraint is applied if there is one — generators_qua_hex.rs:146-149. -/
def withFaceConstraint (b : Block) : Option (Nat × Constraint3d) → Res Block
  | some c => applied (b.setFaceConstraint c.1 (some c.2))
  | none => .ok b

/-- Block number `i` of the list — generators_qua_hex.rs:29-68. -/
def makeBlock2d (blocks : Blocks2d) (i : Nat) : Res Block := do
  let reg ← Res.idx blocks.regions i
  let pp := [reg.2.1, reg.2.2.1, reg.2.2.2.1, reg.2.2.2.2]
  let rows ← pp.mapM fun p => do
    let c ← Res.idx blocks.points p
    pure [c.1, c.2]
  let b ← blockOf inv 2 rows
  let b := b.setMarker reg.1
  let w ← Res.idx blocks.divWeights i
  let b ← withWeights2d b w
  let c ← Res.idx blocks.edgeConstraints i
  let b ← withEdgeConstraint b c
  setMarkedEdges .qua4 (edgeMap blocks.markedEdges) pp b

/-- `Structured::from_blocks_2d` — generators_qua_hex.rs:14-80. -/
def fromBlocks2d (blocks : Blocks2d) (target : GeoKind) (renumber : Bool) : Res (Mesh ℝ) := do
  let meshes ← (List.range blocks.regions.length).mapM fun i => do
    let b ← makeBlock2d inv blocks i
    cut o target i b
  joinAll o renumber meshes

/-- Block number `i` of the list — generators_qua_hex.rs:105-179. -/
def makeBlock3d (blocks : Blocks3d) (i : Nat) : Res Block := do
  let reg ← Res.idx blocks.regions i
  let pp := [reg.2.1, reg.2.2.1, reg.2.2.2.1, reg.2.2.2.2.1, reg.2.2.2.2.2.1, reg.2.2.2.2.2.2.1, reg.2.2.2.2.2.2.2.1, reg.2.2.2.2.2.2.2.2]
  let rows ← pp.mapM fun p => do
    let c ← Res.idx blocks.points p
    pure [c.1, c.2.1, c.2.2]
  let b ← blockOf inv 3 rows
  let b := b.setMarker reg.1
  let w ← Res.idx blocks.divWeights i
  let b ← withWeights3d b w
  let c ← Res.idx blocks.faceConstraints i
  let b ← withFaceConstraint b c
  let b ← setMarkedEdges .hex8 (edgeMap blocks.markedEdges) pp b
  setMarkedFaces (faceMap blocks.markedFaces) pp b

/-- `Structured::from_blocks_3d` — generators_qua_hex.rs:83-193. -/
def fromBlocks3d (blocks : Blocks3d) (target : GeoKind) (renumber : Bool) : Res (Mesh ℝ) := do
  let meshes ← (List.range blocks.regions.length).mapM fun i => do
    let b ← makeBlock3d inv blocks i
    cut o target i b
  joinAll o renumber meshes

/-! ## Rings -/

/-- `Structured::quarter_ring_2d` — generators_qua_hex.rs:223-257. -/
def quarterRing2d (rmin rmax : ℝ) (wr : List ℝ) (na : Nat) (target : GeoKind) (renumber : Bool) : Res (Mesh ℝ) :=
  if wr.length < 1 then .err "the length of wr must be ≥ 1"
  else if wr.foldl (fun acc w => acc + w) 0 < 1 then .err "the sum of wr must be ≥ 1.0"
  else if na < 1 then .err "na must be ≥ 1"
  else do
    let b ← newSquare inv 1
    let b ← Block.unwrapRes (applied (b.setDivWeights2d wr (List.replicate na 1)))
    let b ← applied (b.setTransformIntoRing (some { amin := 0, amax := Real.pi / 2, rmin := rmin, rmax := rmax, zmin := 0, zmax := 1 }))
    let mesh ← cut o target 0 b
    finish renumber mesh

/-- `Structured::quarter_ring_3d` — generators_qua_hex.rs:290-330. -/
def quarterRing3d (rmin rmax z : ℝ) (wr : List ℝ) (na nz : Nat) (target : GeoKind) (renumber : Bool) : Res (Mesh ℝ) :=
  if wr.length < 1 then .err "the length of wr must be ≥ 1"
  else if wr.foldl (fun acc w => acc + w) 0 < 1 then .err "the sum of wr must be ≥ 1.0"
  else if na < 1 then .err "na must be ≥ 1"
  else if nz < 1 then .err "nz must be ≥ 1"
  else do
    let b ← newCube inv 1
    let b ← Block.unwrapRes (applied (b.setDivWeights3d wr (List.replicate na 1) (List.replicate nz 1)))
    let b ← applied (b.setTransformIntoRing (some { amin := 0, amax := Real.pi / 2, rmin := rmin, rmax := rmax, zmin := 0, zmax := z }))
    let mesh ← cut o target 0 b
    finish renumber mesh

/-! ## Rectangle -/

/-- A block of the rectangle: `Block::new(..).unwrap()`, `set_ndiv(..).unwrap()`, `set_marker(..)` — generators_qua_hex.rs:1103-1108. -/
def rectBlock (x0 x1 y0 y1 : ℝ) (n ny : Nat) (marker : Int) : Res Block := do
  let b ← Block.unwrapRes (blockOf inv 2 [[x0, y0], [x1, y0], [x1, y1], [x0, y1]])
  let b ← Block.unwrapRes (applied (b.setNdiv [n, ny]))
  .ok (b.setMarker marker)

/-- Layer `l`, with `xb` — generators_qua_hex.rs:1098-1112. -/
def layerTwo (xa xb xc : ℝ) (na nb : Nat) (y : List ℝ) (ny : List Nat) (markers : List Int) (target : GeoKind) (s : ℝ × List (Mesh ℝ)) (l : Nat) :
    Res (ℝ × List (Mesh ℝ)) := do
  let yb ← Res.idx y (l + 1)
  if yb ≤ s.1 then .err "y values must be sorted ascending"
  else do
    let nyl ← Res.idx ny l
    let marker ← Res.idx markers l
    let ba ← rectBlock inv xa xb s.1 yb na nyl marker
    let bb ← rectBlock inv xb xc s.1 yb nb nyl marker
    let ma ← cut o target (2 * l) ba
    let mb ← Block.unwrapRes (cut o target (2 * l + 1) bb)
    .ok (yb, s.2 ++ [ma, mb])

/-- Layer `l`, without `xb` — generators_qua_hex.rs:1115-1128 (without the early return). -/
def layerOne (xa xc : ℝ) (na : Nat) (y : List ℝ) (ny : List Nat) (markers : List Int) (target : GeoKind) (s : ℝ × List (Mesh ℝ)) (l : Nat) :
    Res (ℝ × List (Mesh ℝ)) := do
  let yb ← Res.idx y (l + 1)
  if yb ≤ s.1 then .err "y values must be sorted ascending"
  else do
    let nyl ← Res.idx ny l
    let marker ← Res.idx markers l
    let b ← rectBlock inv xa xc s.1 yb na nyl marker
    let m ← cut o target l b
    .ok (yb, s.2 ++ [m])

/-- `Structured::rectangle` — generators_qua_hex.rs:1064-1137. With one layer and without `xb` the mesh of the only block is returned. -/
def rectangle (xa : ℝ) (xb : Option ℝ) (xc : ℝ) (na nb : Nat) (y : List ℝ) (ny : List Nat) (markers : List Int) (target : GeoKind) (renumber : Bool) :
    Res (Mesh ℝ) :=
  if xc ≤ xa then .err "xc must be > xa"
  else if ∃ x, xb = some x ∧ (x ≤ xa ∨ x ≥ xc) then .err "xb must satisfy: xa < xb < xc"
  else if na < 1 ∨ nb < 1 then .err "na and nb must be > 0"
  else if y.length < 2 then .err "y.len() must be ≥ 2"
  else if ny.length ≠ y.length - 1 then .err "ny.len() must be equal to n_layer = y.len() - 1"
  else if markers.length ≠ y.length - 1 then .err "markers.len() must be equal to n_layer = y.len() - 1"
  else do
    let ya ← Res.idx y 0
    match xb with
    | some x => do
      let r ← (List.range (y.length - 1)).foldlM (layerTwo inv o xa x xc na nb y ny markers target) (ya, [])
      joinAll o renumber r.2
    | none => do
      let r ← (List.range (y.length - 1)).foldlM (layerOne inv o xa xc na y ny markers target) (ya, [])
      if y.length - 1 = 1 then Res.idx r.2 0 else joinAll o renumber r.2

/-! ## Disks and plates -/

/-- `Structured::quarter_disk_2d_a` — generators_qua_hex.rs:360-381. -/
def quarterDisk2dA (r : ℝ) (na nb : Nat) (target : GeoKind) (renumber : Bool) : Res (Mesh ℝ) :=
  let m : ℝ := r / 2
  let n : ℝ := r / Real.sqrt 2
  let p : ℝ := (115 / 100) * m / Real.sqrt 2
  do
    let block1 ← blockOf inv 2 [[0, 0], [m, 0], [p, p], [0, m]]
    let block2 ← blockOf inv 2 [[m, 0], [r, 0], [n, n], [p, p]]
    let block3 ← blockOf inv 2 [[0, m], [p, p], [n, n], [0, r]]
    let block1 ← applied (block1.setNdiv [na, na])
    let block2 ← applied (block2.setNdiv [nb, na])
    let block3 ← applied (block3.setNdiv [na, nb])
    let block2 ← applied (block2.setEdgeConstraint 1 (some (.circle 0 0 r)))
    let block3 ← applied (block3.setEdgeConstraint 2 (some (.circle 0 0 r)))
    let mesh1 ← cut o target 0 block1
    let mesh2 ← cut o target 1 block2
    let mesh3 ← cut o target 2 block3
    joinAll o renumber [mesh1, mesh2, mesh3]

/-- `Structured::quarter_disk_2d_b` — generators_qua_hex.rs:413-482. -/
def quarterDisk2dB (a r : ℝ) (na nb : Nat) (target : GeoKind) (renumber : Bool) : Res (Mesh ℝ) :=
  if a ≥ r then .err "'a' must be smaller than 'r'"
  else
    let b : ℝ := r - a
    let c1 : ℝ := a * Real.sin (Real.pi / 8)
    let c2 : ℝ := a * (1 / Real.sqrt 2)
    let c3 : ℝ := a * Real.cos (Real.pi / 8)
    let d1 : ℝ := r * Real.sin (Real.pi / 8)
    let d2 : ℝ := r * (1 / Real.sqrt 2)
    let d3 : ℝ := r * Real.cos (Real.pi / 8)
    let m : ℝ := a / 2
    let n : ℝ := a + b / 2
    let e : ℝ := n * (1 / Real.sqrt 2)
    do
      let block1 ← blockOf inv 2 [[0, 0], [a, 0], [c2, c2], [0, a], [m, 0], [c3, c1], [c1, c3], [0, m]]
      let block2 ← blockOf inv 2 [[a, 0], [r, 0], [d2, d2], [c2, c2], [n, 0], [d3, d1], [e, e], [c3, c1]]
      let block3 ← blockOf inv 2 [[0, a], [c2, c2], [d2, d2], [0, r], [c1, c3], [e, e], [d1, d3], [0, n]]
      let block1 ← applied (block1.setNdiv [na, na])
      let block2 ← applied (block2.setNdiv [nb, na])
      let block3 ← applied (block3.setNdiv [na, nb])
      let block2 ← applied (block2.setEdgeConstraint 1 (some (.circle 0 0 r)))
      let block3 ← applied (block3.setEdgeConstraint 2 (some (.circle 0 0 r)))
      let mesh1 ← cut o target 0 block1
      let mesh2 ← cut o target 1 block2
      let mesh3 ← cut o target 2 block3
      joinAll o renumber [mesh1, mesh2, mesh3]

/-- `Structured::quarter_disk_3d_a` — generators_qua_hex.rs:515-574. -/
def quarterDisk3dA (r z : ℝ) (na nb nz : Nat) (target : GeoKind) (renumber : Bool) : Res (Mesh ℝ) :=
  let m : ℝ := r / 2
  let n : ℝ := r / Real.sqrt 2
  let p : ℝ := (115 / 100) * m / Real.sqrt 2
  do
    let block1 ← blockOf inv 3 [[0, 0, 0], [m, 0, 0], [p, p, 0], [0, m, 0], [0, 0, z], [m, 0, z], [p, p, z], [0, m, z]]
    let block2 ← blockOf inv 3 [[m, 0, 0], [r, 0, 0], [n, n, 0], [p, p, 0], [m, 0, z], [r, 0, z], [n, n, z], [p, p, z]]
    let block3 ← blockOf inv 3 [[0, m, 0], [p, p, 0], [n, n, 0], [0, r, 0], [0, m, z], [p, p, z], [n, n, z], [0, r, z]]
    let block1 ← applied (block1.setNdiv [na, na, nz])
    let block2 ← applied (block2.setNdiv [nb, na, nz])
    let block3 ← applied (block3.setNdiv [na, nb, nz])
    let block2 ← applied (block2.setFaceConstraint 1 (some (.cylinderZ 0 0 r)))
    let block3 ← applied (block3.setFaceConstraint 3 (some (.cylinderZ 0 0 r)))
    let mesh1 ← cut o target 0 block1
    let mesh2 ← cut o target 1 block2
    let mesh3 ← cut o target 2 block3
    joinAll o renumber [mesh1, mesh2, mesh3]

/-- `Structured::quarter_disk_3d_b` — generators_qua_hex.rs:608-716. -/
def quarterDisk3dB (a r z : ℝ) (na nb nz : Nat) (target : GeoKind) (renumber : Bool) : Res (Mesh ℝ) :=
  if a ≥ r then .err "'a' must be smaller than 'r'"
  else
    let b : ℝ := r - a
    let c1 : ℝ := a * Real.sin (Real.pi / 8)
    let c2 : ℝ := a * (1 / Real.sqrt 2)
    let c3 : ℝ := a * Real.cos (Real.pi / 8)
    let d1 : ℝ := r * Real.sin (Real.pi / 8)
    let d2 : ℝ := r * (1 / Real.sqrt 2)
    let d3 : ℝ := r * Real.cos (Real.pi / 8)
    let m : ℝ := a / 2
    let n : ℝ := a + b / 2
    let e : ℝ := n * (1 / Real.sqrt 2)
    let f : ℝ := z / 2
    do
      let block1 ← blockOf inv 3 [[0, 0, 0], [a, 0, 0], [c2, c2, 0], [0, a, 0], [0, 0, z], [a, 0, z], [c2, c2, z], [0, a, z], [m, 0, 0], [c3, c1, 0], [c1, c3, 0], [0, m, 0], [m, 0, z], [c3, c1, z], [c1, c3, z], [0, m, z], [0, 0, f], [a, 0, f], [c2, c2, f], [0, a, f]]
      let block2 ← blockOf inv 3 [[a, 0, 0], [r, 0, 0], [d2, d2, 0], [c2, c2, 0], [a, 0, z], [r, 0, z], [d2, d2, z], [c2, c2, z], [n, 0, 0], [d3, d1, 0], [e, e, 0], [c3, c1, 0], [n, 0, z], [d3, d1, z], [e, e, z], [c3, c1, z], [a, 0, f], [r, 0, f], [d2, d2, f], [c2, c2, f]]
      let block3 ← blockOf inv 3 [[0, a, 0], [c2, c2, 0], [d2, d2, 0], [0, r, 0], [0, a, z], [c2, c2, z], [d2, d2, z], [0, r, z], [c1, c3, 0], [e, e, 0], [d1, d3, 0], [0, n, 0], [c1, c3, z], [e, e, z], [d1, d3, z], [0, n, z], [0, a, f], [c2, c2, f], [d2, d2, f], [0, r, f]]
      let block1 ← applied (block1.setNdiv [na, na, nz])
      let block2 ← applied (block2.setNdiv [nb, na, nz])
      let block3 ← applied (block3.setNdiv [na, nb, nz])
      let block2 ← applied (block2.setFaceConstraint 1 (some (.cylinderZ 0 0 r)))
      let block3 ← applied (block3.setFaceConstraint 3 (some (.cylinderZ 0 0 r)))
      let mesh1 ← cut o target 0 block1
      let mesh2 ← cut o target 1 block2
      let mesh3 ← cut o target 2 block3
      joinAll o renumber [mesh1, mesh2, mesh3]

/-- `Structured::quarter_plate_hole_2d` — generators_qua_hex.rs:753-842. -/
def quarterPlateHole2d (r a b : ℝ) (na nb n45 : Nat) (target : GeoKind) (renumber : Bool) : Res (Mesh ℝ) :=
  let ra : ℝ := r + a
  let c1 : ℝ := r * Real.sin (Real.pi / 8)
  let c2 : ℝ := r * (1 / Real.sqrt 2)
  let c3 : ℝ := r * Real.cos (Real.pi / 8)
  let d1 : ℝ := ra * Real.sin (Real.pi / 8)
  let d2 : ℝ := ra * (1 / Real.sqrt 2)
  let d3 : ℝ := ra * Real.cos (Real.pi / 8)
  let m : ℝ := r + a / 2
  let n : ℝ := ra + b / 2
  let l : ℝ := ra + b
  let hl : ℝ := l / 2
  let e : ℝ := (c2 + d2) / 2
  let f : ℝ := (d2 + l) / 2
  do
    let block1 ← blockOf inv 2 [[r, 0], [ra, 0], [d2, d2], [c2, c2], [m, 0], [d3, d1], [e, e], [c3, c1]]
    let block2 ← blockOf inv 2 [[c2, c2], [d2, d2], [0, ra], [0, r], [e, e], [d1, d3], [0, m], [c1, c3]]
    let block3 ← blockOf inv 2 [[ra, 0], [l, 0], [l, l], [d2, d2], [n, 0], [l, hl], [f, f], [d3, d1]]
    let block4 ← blockOf inv 2 [[d2, d2], [l, l], [0, l], [0, ra], [f, f], [hl, l], [0, n], [d1, d3]]
    let block1 ← applied (block1.setEdgeConstraint 3 (some (.circle 0 0 r)))
    let block1 ← applied (block1.setEdgeConstraint 1 (some (.circle 0 0 ra)))
    let block1 ← applied (block1.setNdiv [na, n45])
    let block2 ← applied (block2.setEdgeConstraint 3 (some (.circle 0 0 r)))
    let block2 ← applied (block2.setEdgeConstraint 1 (some (.circle 0 0 ra)))
    let block2 ← applied (block2.setNdiv [na, n45])
    let block3 ← applied (block3.setEdgeConstraint 3 (some (.circle 0 0 ra)))
    let block3 ← applied (block3.setNdiv [nb, n45])
    let block4 ← applied (block4.setEdgeConstraint 3 (some (.circle 0 0 ra)))
    let block4 ← applied (block4.setNdiv [nb, n45])
    let mesh1 ← cut o target 0 block1
    let mesh2 ← cut o target 1 block2
    let mesh3 ← cut o target 2 block3
    let mesh4 ← cut o target 3 block4
    joinAll o renumber [mesh1, mesh2, mesh3, mesh4]

/-- `Structured::quarter_plate_hole_3d` — generators_qua_hex.rs:881-1021. -/
def quarterPlateHole3d (r a b z : ℝ) (na nb n45 nz : Nat) (target : GeoKind) (renumber : Bool) : Res (Mesh ℝ) :=
  let ra : ℝ := r + a
  let c1 : ℝ := r * Real.sin (Real.pi / 8)
  let c2 : ℝ := r * (1 / Real.sqrt 2)
  let c3 : ℝ := r * Real.cos (Real.pi / 8)
  let d1 : ℝ := ra * Real.sin (Real.pi / 8)
  let d2 : ℝ := ra * (1 / Real.sqrt 2)
  let d3 : ℝ := ra * Real.cos (Real.pi / 8)
  let m : ℝ := r + a / 2
  let n : ℝ := ra + b / 2
  let l : ℝ := ra + b
  let hl : ℝ := l / 2
  let e : ℝ := (c2 + d2) / 2
  let f : ℝ := (d2 + l) / 2
  let hz : ℝ := z / 2
  do
    let block1 ← blockOf inv 3 [[r, 0, 0], [ra, 0, 0], [d2, d2, 0], [c2, c2, 0], [r, 0, z], [ra, 0, z], [d2, d2, z], [c2, c2, z], [m, 0, 0], [d3, d1, 0], [e, e, 0], [c3, c1, 0], [m, 0, z], [d3, d1, z], [e, e, z], [c3, c1, z], [r, 0, hz], [ra, 0, hz], [d2, d2, hz], [c2, c2, hz]]
    let block2 ← blockOf inv 3 [[c2, c2, 0], [d2, d2, 0], [0, ra, 0], [0, r, 0], [c2, c2, z], [d2, d2, z], [0, ra, z], [0, r, z], [e, e, 0], [d1, d3, 0], [0, m, 0], [c1, c3, 0], [e, e, z], [d1, d3, z], [0, m, z], [c1, c3, z], [c2, c2, hz], [d2, d2, hz], [0, ra, hz], [0, r, hz]]
    let block3 ← blockOf inv 3 [[ra, 0, 0], [l, 0, 0], [l, l, 0], [d2, d2, 0], [ra, 0, z], [l, 0, z], [l, l, z], [d2, d2, z], [n, 0, 0], [l, hl, 0], [f, f, 0], [d3, d1, 0], [n, 0, z], [l, hl, z], [f, f, z], [d3, d1, z], [ra, 0, hz], [l, 0, hz], [l, l, hz], [d2, d2, hz]]
    let block4 ← blockOf inv 3 [[d2, d2, 0], [l, l, 0], [0, l, 0], [0, ra, 0], [d2, d2, z], [l, l, z], [0, l, z], [0, ra, z], [f, f, 0], [hl, l, 0], [0, n, 0], [d1, d3, 0], [f, f, z], [hl, l, z], [0, n, z], [d1, d3, z], [d2, d2, hz], [l, l, hz], [0, l, hz], [0, ra, hz]]
    let block1 ← applied (block1.setFaceConstraint 0 (some (.cylinderZ 0 0 r)))
    let block1 ← applied (block1.setFaceConstraint 1 (some (.cylinderZ 0 0 ra)))
    let block1 ← applied (block1.setNdiv [na, n45, nz])
    let block2 ← applied (block2.setFaceConstraint 0 (some (.cylinderZ 0 0 r)))
    let block2 ← applied (block2.setFaceConstraint 1 (some (.cylinderZ 0 0 ra)))
    let block2 ← applied (block2.setNdiv [na, n45, nz])
    let block3 ← applied (block3.setFaceConstraint 0 (some (.cylinderZ 0 0 ra)))
    let block3 ← applied (block3.setNdiv [nb, n45, nz])
    let block4 ← applied (block4.setFaceConstraint 0 (some (.cylinderZ 0 0 ra)))
    let block4 ← applied (block4.setNdiv [nb, n45, nz])
    let mesh1 ← cut o target 0 block1
    let mesh2 ← cut o target 1 block2
    let mesh3 ← cut o target 2 block3
    let mesh4 ← cut o target 3 block4
    joinAll o renumber [mesh1, mesh2, mesh3, mesh4]

end
end Gemlab.Structured
