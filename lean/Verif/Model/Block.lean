import Verif.Model.GridSearch
import Verif.Model.Scratchpad
import Verif.Model.Features
import Mathlib.Analysis.SpecialFunctions.Trigonometric.Basic

/-!
# Model of `/repo/src/mesh/block.rs` (`draw` is in `Model/DrawGrids`)

Real numbers instead of `f64`. The array given to `Block::new` is its size and a function of the indices. Scratchpads used as temporary
memory (`pad_lin2`, the serendipity pad, `pad.interp`) are local values: every use sets all their coordinates first. The entries
of the lists `delta_ksi` and of `points` (the nodes of a new cell) are read with a default; the invariant that the indices are in range is
proved (`Block.WF`).
-/
namespace Gemlab
noncomputable section
open Classical
open Gemlab.Mesh Gemlab.Shapes

/-- `ArgsRing` — block.rs:32-39. -/
structure ArgsRing where
  amin : ℝ
  amax : ℝ
  rmin : ℝ
  rmax : ℝ
  zmin : ℝ
  zmax : ℝ

/-- `Constraint2d` — block.rs:43-46: center and radius. -/
inductive Constraint2d where
  | circle (xc yc r : ℝ)

/-- `Constraint3d` — block.rs:50-59: the two coordinates of the axis, and the radius. -/
inductive Constraint3d where
  | cylinderX (yc zc r : ℝ)
  | cylinderY (xc zc r : ℝ)
  | cylinderZ (xc yc r : ℝ)

/-- `struct Block` — block.rs:156-189. -/
structure Block where
  marker : Int
  ndim : Nat
  ndiv : List Nat
  deltaKsi : List (List ℝ)
  edgeConstraints : HMap Nat Constraint2d
  faceConstraints : HMap Nat Constraint3d
  edgeMarkers : HMap Nat Int
  faceMarkers : HMap Nat Int
  pad : Scratchpad
  argsRing : ArgsRing
  transformIntoRing : Bool

namespace Block

/-- `HashMap::remove`. -/
def hremove {V : Type} (m : HMap Nat V) (k : Nat) : HMap Nat V := List.filter (fun e => e.1 ≠ k) m

/-- The middle nodes and the two corners around them — block.rs:249-252 and 271-284. -/
def middle (ndim : Nat) : List (Nat × Nat × Nat) :=
  if ndim = 2 then [(4, 0, 1), (5, 1, 2), (6, 2, 3), (7, 3, 0)]
  else [(8, 0, 1), (9, 1, 2), (10, 2, 3), (11, 3, 0), (12, 4, 5), (13, 5, 6), (14, 6, 7), (15, 7, 4), (16, 0, 4), (17, 1, 5), (18, 2, 6), (19, 3, 7)]

/-- The calls of `set_xx` in `Block::new`, in order: node, component, value — block.rs:231-287. -/
def assignments (nrow ndim nnode : Nat) (at_ : Nat → Nat → ℝ) : List (Nat × Nat × ℝ) :=
  if nrow = nnode then (List.range nnode).flatMap fun m => (List.range ndim).map fun j => (m, j, at_ m j)
  else
    ((List.range nrow).flatMap fun m => (List.range ndim).map fun j => (m, j, at_ m j)) ++
    (List.range ndim).flatMap fun j => (middle ndim).map fun t => (t.1, j, (at_ t.2.1 j + at_ t.2.2 j) / 2)

/-- `Block::new` — block.rs:207-321. -/
def new (inv : MatInverse) (nrow ndim : Nat) (at_ : Nat → Nat → ℝ) : Res Block :=
  if ndim < 2 ∨ ndim > 3 then .err "ncol = ndim must be 2 or 3"
  else if ndim = 2 ∧ nrow ≠ 4 ∧ nrow ≠ 8 then .err "in 2D, nrow must be 4 or 8"
  else if ndim = 3 ∧ nrow ≠ 8 ∧ nrow ≠ 20 then .err "in 3D, nrow must be 8 or 20"
  else do
    let kind : GeoKind := if ndim = 2 then .qua8 else .hex20
    let pad ← Scratchpad.new ndim kind
    let pad ← (assignments nrow ndim kind.nnode at_).foldlM (fun (p : Scratchpad) a => p.setXx a.1 a.2.1 a.2.2) pad
    let r ← pad.calcJacobian inv (fun _ => 0)
    if r.1 ≤ 0 then .err "the determinant of the Jacobian is non-positive at the center of the block"
    else .ok {
      marker := 1, ndim := ndim, ndiv := List.replicate ndim 2, deltaKsi := List.replicate ndim (List.replicate 2 (2 / 2)),
      edgeConstraints := [], faceConstraints := [], edgeMarkers := [], faceMarkers := [], pad := r.2,
      argsRing := { amin := 0, amax := Real.pi / 2, rmin := 1, rmax := 2, zmin := 0, zmax := 1 }, transformIntoRing := false }

/-- `unwrap()` of a `Result`. -/
def unwrapRes {α : Type} : Res α → Res α
  | .ok a => .ok a
  | _ => .panic

/-- `Block::new_square` — block.rs:329-336. -/
def newSquare (inv : MatInverse) (l : ℝ) : Res Block :=
  unwrapRes (new inv 4 2 fun m j => at' (([[0, 0], [l, 0], [l, l], [0, l]] : List (List ℝ)).getD m []) j)

/-- `Block::new_cube` — block.rs:344-355. -/
def newCube (inv : MatInverse) (l : ℝ) : Res Block :=
  unwrapRes (new inv 8 3 fun m j => at' (([[0, 0, 0], [l, 0, 0], [l, l, 0], [0, l, 0], [0, 0, l], [l, 0, l], [l, l, l], [0, l, l]] : List (List ℝ)).getD m []) j)

/-- `Block::set_marker` — block.rs:378-381. -/
def setMarker (b : Block) (marker : Int) : Block := { b with marker := marker }

/-- The loop of `Block::set_ndiv` — block.rs:397-405; the block is modified up to the first error. -/
def setNdivLoop (ndiv : List Nat) : List Nat → Block → Block × Res Unit
  | [], b => (b, .ok ())
  | i :: is, b =>
    if ndiv.getD i 0 < 1 then (b, .err "ndiv must be ≥ 1")
    else setNdivLoop ndiv is
      { b with ndiv := b.ndiv.set i (ndiv.getD i 0)
               deltaKsi := b.deltaKsi.set i (List.replicate (ndiv.getD i 0) (1 * 2 / ((ndiv.getD i 0 : Nat) : ℝ))) }

/-- `Block::set_ndiv` — block.rs:393-407: the block after the call and the outcome. -/
def setNdiv (b : Block) (ndiv : List Nat) : Block × Res Unit :=
  if ndiv.length ≠ b.ndim then (b, .err "ndiv.len() must be equal to ndim")
  else setNdivLoop ndiv (List.range b.ndim) b

/-- `w * NAT_LENGTH / sum_w` — block.rs:440 and 484. -/
def scaled (w : List ℝ) : List ℝ := w.map fun v => v * 2 / w.foldl (fun acc v => acc + v) 0

/-- `Block::set_div_weights_2d` — block.rs:417-443. -/
def setDivWeights2d (b : Block) (wx wy : List ℝ) : Block × Res Unit :=
  if b.ndim ≠ 2 then (b, .err "this method works only for 2D blocks")
  else if wx.length < 1 then (b, .err "the length of the wx array must be ≥ 1")
  else if wy.length < 1 then (b, .err "the length of the wy array must be ≥ 1")
  else if wx.foldl (fun acc v => acc + v) 0 < 1 then (b, .err "the sum of wx must be ≥ 1.0")
  else if wy.foldl (fun acc v => acc + v) 0 < 1 then (b, .err "the sum of wy must be ≥ 1.0")
  else ({ b with ndiv := (b.ndiv.set 0 wx.length).set 1 wy.length
                 deltaKsi := (b.deltaKsi.set 0 (scaled wx)).set 1 (scaled wy) }, .ok ())

/-- `Block::set_div_weights_3d` — block.rs:451-488. -/
def setDivWeights3d (b : Block) (wx wy wz : List ℝ) : Block × Res Unit :=
  if b.ndim ≠ 3 then (b, .err "this method works only for 3D blocks")
  else if wx.length < 1 then (b, .err "the length of the wx array must be ≥ 1")
  else if wy.length < 1 then (b, .err "the length of the wy array must be ≥ 1")
  else if wz.length < 1 then (b, .err "the length of the wz array must be ≥ 1")
  else if wx.foldl (fun acc v => acc + v) 0 < 1 then (b, .err "the sum of wx must be ≥ 1.0")
  else if wy.foldl (fun acc v => acc + v) 0 < 1 then (b, .err "the sum of wy must be ≥ 1.0")
  else if wz.foldl (fun acc v => acc + v) 0 < 1 then (b, .err "the sum of wz must be ≥ 1.0")
  else ({ b with ndiv := ((b.ndiv.set 0 wx.length).set 1 wy.length).set 2 wz.length
                 deltaKsi := ((b.deltaKsi.set 0 (scaled wx)).set 1 (scaled wy)).set 2 (scaled wz) }, .ok ())

/-- `Block::set_edge_constraint` — block.rs:501-517. -/
def setEdgeConstraint (b : Block) (e : Nat) (value : Option Constraint2d) : Block × Res Unit :=
  if b.ndim ≠ 2 then (b, .err "set_edge_constraint requires ndim = 2")
  else if e > 3 then (b, .err "edge index must be < 4 (nedge)")
  else ({ b with edgeConstraints := match value with
    | some v => b.edgeConstraints.insert e v
    | none => hremove b.edgeConstraints e }, .ok ())

/-- `Block::set_face_constraint` — block.rs:535-551. -/
def setFaceConstraint (b : Block) (f : Nat) (value : Option Constraint3d) : Block × Res Unit :=
  if b.ndim ≠ 3 then (b, .err "set_face_constraint requires ndim = 3")
  else if f > 5 then (b, .err "face index must be < 6 (nface)")
  else ({ b with faceConstraints := match value with
    | some v => b.faceConstraints.insert f v
    | none => hremove b.faceConstraints f }, .ok ())

/-- `Block::set_edge_marker` — block.rs:559-571. -/
def setEdgeMarker (b : Block) (e : Nat) (value : Int) : Block × Res Unit :=
  if b.ndim = 2 ∧ e > 3 then (b, .err "edge index must be < 4 (nedge) in 2D")
  else if b.ndim ≠ 2 ∧ e > 11 then (b, .err "edge index must be < 12 (nedge) in 3D")
  else ({ b with edgeMarkers := b.edgeMarkers.insert e value }, .ok ())

/-- `Block::set_face_marker` — block.rs:579-588. -/
def setFaceMarker (b : Block) (f : Nat) (value : Int) : Block × Res Unit :=
  if b.ndim ≠ 3 then (b, .err "set_face_marker requires ndim = 3")
  else if f > 5 then (b, .err "face index must be < 6 (nface)")
  else ({ b with faceMarkers := b.faceMarkers.insert f value }, .ok ())

/-- `Block::set_transform_into_ring` — block.rs:629-653. -/
def setTransformIntoRing (b : Block) (args : Option ArgsRing) : Block × Res Unit :=
  match args with
  | some a =>
    if a.amax ≤ a.amin then (b, .err "amax must be greater than amin")
    else if a.rmax ≤ a.rmin then (b, .err "rmax must be greater than rmin")
    else if a.zmax ≤ a.zmin then (b, .err "zmax must be greater than zmin")
    else if a.amin < 0 ∨ a.amin > Real.pi / 2 then (b, .err "amin must be given in radians and must be ≥ 0 and ≤ PI/2")
    else if a.amax < 0 ∨ a.amax > Real.pi / 2 then (b, .err "amax must be given in radians and must be ≥ 0 and ≤ PI/2")
    else ({ b with argsRing := a, transformIntoRing := true }, .ok ())
  | none => ({ b with transformIntoRing := false }, .ok ())

/-- `Block::map_coords_cylindrical` — block.rs:1069-1084. -/
def mapCoordsCylindrical (b : Block) (ksi : List ℝ) : List ℝ :=
  let r := b.argsRing.rmin + (at' ksi 0 - -1) * (b.argsRing.rmax - b.argsRing.rmin) / 2
  let a := b.argsRing.amin + (at' ksi 1 - -1) * (b.argsRing.amax - b.argsRing.amin) / 2
  if b.ndim = 3 then
    [r * Real.cos a, r * Real.sin a, b.argsRing.zmin + (at' ksi 2 - -1) * (b.argsRing.zmax - b.argsRing.zmin) / 2]
  else [r * Real.cos a, r * Real.sin a]

/-- The common part of the constraints: move two of the coordinates (given relative to the center) to the distance `r`. `none`: nothing
to move. — block.rs:1184-1199, 1209-1223, 1226-1240, 1243-1257 (identical up to the components and the message). -/
def moveTo (msg : String) (dx dy r : ℝ) : Res (Option (ℝ × ℝ)) :=
  let d := Real.sqrt (dx * dx + dy * dy)
  if |d| ≤ 1 / 10 ^ 8 then .err msg
  else
    let gap := r - d
    if |gap| > 0 then .ok (some (gap * dx / d, gap * dy / d)) else .ok none

/-- `Block::apply_constraint_2d` — block.rs:1181-1203: the new coordinates, and whether they were moved. -/
def applyConstraint2d (x : List ℝ) : Constraint2d → Res (List ℝ × Bool)
  | .circle xc yc r => do
    let mv ← moveTo "cannot apply constraint because a point is at the center of the circle" (at' x 0 - xc) (at' x 1 - yc) r
    match mv with
    | some u => .ok ([at' x 0 + u.1, at' x 1 + u.2], true)
    | none => .ok (x, false)

/-- `Block::apply_constraint_3d` — block.rs:1206-1261. -/
def applyConstraint3d (x : List ℝ) : Constraint3d → Res (List ℝ × Bool)
  | .cylinderX yc zc r => do
    let mv ← moveTo "cannot apply constraint because a point is at the center of the cylinder-x" (at' x 1 - yc) (at' x 2 - zc) r
    match mv with
    | some u => .ok ([at' x 0, at' x 1 + u.1, at' x 2 + u.2], true)
    | none => .ok (x, false)
  | .cylinderY xc zc r => do
    let mv ← moveTo "cannot apply constraint because a point is at the center of the cylinder-y" (at' x 0 - xc) (at' x 2 - zc) r
    match mv with
    | some u => .ok ([at' x 0 + u.1, at' x 1, at' x 2 + u.2], true)
    | none => .ok (x, false)
  | .cylinderZ xc yc r => do
    let mv ← moveTo "cannot apply constraint because a point is at the center of the cylinder-z" (at' x 0 - xc) (at' x 1 - yc) r
    match mv with
    | some u => .ok ([at' x 0 + u.1, at' x 1 + u.2, at' x 2], true)
    | none => .ok (x, false)

/-- The sides in the order of the tests: side, component of `ksi`, value of this component — block.rs:1093-1126 (2D: bottom, right, top,
left) and 1128-1174 (3D). -/
def sides (ndim : Nat) : List (Nat × Nat × ℝ) :=
  if ndim = 2 then [(0, 1, -1), (1, 0, 1), (2, 1, 1), (3, 0, -1)]
  else [(0, 0, -1), (1, 0, 1), (2, 1, -1), (3, 1, 1), (4, 2, -1), (5, 2, 1)]

/-- The constraint of a side, applied: the new coordinates and whether there was a movement (no constraint: no movement). -/
def applySide (b : Block) (side : Nat) (x : List ℝ) : Res (List ℝ × Bool) :=
  if b.ndim = 2 then
    match b.edgeConstraints.get side with
    | some ct => applyConstraint2d x ct
    | none => .ok (x, false)
  else
    match b.faceConstraints.get side with
    | some ct => applyConstraint3d x ct
    | none => .ok (x, false)

/-- The sequence of tests of `handle_constraints`. -/
def handleLoop (b : Block) (ksi : List ℝ) : List (Nat × Nat × ℝ) → List ℝ → Res (List ℝ × Option Nat)
  | [], x => .ok (x, none)
  | s :: ss, x =>
    if |s.2.2 - at' ksi s.2.1| < 1 / 10 ^ 13 then do
      let r ← applySide b s.1 x
      if r.2 then .ok (r.1, some s.1) else handleLoop b ksi ss r.1
    else handleLoop b ksi ss x

/-- `Block::handle_constraints` — block.rs:1090-1177: the new coordinates, and the side whose constraint moved the point. -/
def handleConstraints (b : Block) (x ksi : List ℝ) : Res (List ℝ × Option Nat) := handleLoop b ksi (sides b.ndim) x

/-- `has_constraints` — block.rs:688. -/
def hasConstraints (b : Block) : Bool := decide (b.edgeConstraints.length > 0 ∨ b.faceConstraints.length > 0)

/-- Variables of `subdivide`: the search grid, the mesh and `constrained_point_to_side`. -/
structure State where
  grid : GridSearch
  mesh : Mesh ℝ
  constrained : HMap Nat Nat

/-- Real coordinates of a new point, and the side that moved it — block.rs:790-801. -/
def realCoords (b : Block) (ksi : List ℝ) : Res (List ℝ × Option Nat) :=
  if b.transformIntoRing then .ok (mapCoordsCylindrical b ksi, none)
  else do
    let r ← b.pad.calcCoords b.ndim (at' ksi)
    let x := (List.range b.ndim).map r.1
    if hasConstraints b then handleConstraints b x ksi else .ok (x, none)

variable (iterG : List (Nat × List ℝ) → List (Nat × List ℝ)) (iterC : List (Nat × Nat) → List (Nat × Nat))

/-- Find or create the point of a node — block.rs:782-812. -/
def addNode (b : Block) (st : State) (ksi : List ℝ) : Res (Nat × State) := do
  let found ← GridSearch.search iterG st.grid ksi
  match found with
  | some id => .ok (id, st)
  | none => do
    let id := st.mesh.points.length
    let grid ← GridSearch.insert st.grid id ksi
    let xs ← realCoords b ksi
    .ok (id, { grid := grid, mesh := { st.mesh with points := st.mesh.points ++ [⟨id, 0, xs.1⟩] },
               constrained := match xs.2 with
                 | some side => st.constrained.insert id side
                 | none => st.constrained })

/-- The reference coordinates of node `m` of a target cell, in the space of the block — block.rs:772-778. -/
def nodeKsi (ndim : Nat) (target : GeoKind) (center scale : Nat → ℝ) (m : Nat) : List ℝ :=
  (List.range ndim).map fun a => center a + scale a * refCoord target m a

/-- The loop over the nodes of a new cell — block.rs:769-813. -/
def cellNodes (b : Block) (target : GeoKind) (center scale : Nat → ℝ) (st : State) : Res (List Nat × State) :=
  (List.range target.nnode).foldlM (fun (acc : List Nat × State) m => do
    let r ← addNode iterG b acc.2 (nodeKsi b.ndim target center scale m)
    .ok (acc.1 ++ [r.1], r.2)) ([], st)

/-- `mesh.points[p].coords[dim] = x[dim]` for all components — block.rs:851-853, 870-872. -/
def setCoords (m : Mesh ℝ) (p : Nat) (x : Nat → ℝ) : Res (Mesh ℝ) := do
  let pt ← Res.idx m.points p
  let points ← Res.setIdx m.points p { pt with coords := (List.range m.ndim).map x }
  .ok { m with points := points }

/-- Place the middle nodes of an edge on the straight line between its corners — block.rs:840-854. -/
def straighten (ndim : Nat) (target edgeKind : GeoKind) (points : List Nat) (e : Nat) (m : Mesh ℝ) : Res (Mesh ℝ) := do
  let pad ← Scratchpad.new ndim .lin2
  let pad ← Mesh.setPad m pad [points.getD (edgeNode target e 0) 0, points.getD (edgeNode target e 1) 0]
  (List.range' 2 (target.edgeNnode - 2)).foldlM (fun (m : Mesh ℝ) idx => do
    let r ← pad.calcCoords ndim (refCoord edgeKind idx)
    setCoords m (points.getD (edgeNode target e idx) 0) r.1) m

/-- The edge is on the constrained side — block.rs:820-828. -/
def edgeOnSide (ndim e side : Nat) : Bool :=
  if ndim = 2 then e == side else (hexEdgeToFace.getD e []).getD 0 0 == side || (hexEdgeToFace.getD e []).getD 1 0 == side

/-- Fix the middle nodes — block.rs:817-856. -/
def fixEdges (ndim : Nat) (target edgeKind : GeoKind) (points : List Nat) (constrained : HMap Nat Nat) (m : Mesh ℝ) : Res (Mesh ℝ) :=
  (iterC constrained).foldlM (fun (m : Mesh ℝ) (ps : Nat × Nat) =>
    (List.range target.nedge).foldlM (fun (m : Mesh ℝ) e =>
      if edgeOnSide ndim e ps.2 then .ok m
      else if (List.range target.edgeNnode).any (fun idx => points.getD (edgeNode target e idx) 0 == ps.1) then
        straighten ndim target edgeKind points e m
      else .ok m) m) m

/-- The serendipity version — block.rs:697-703. -/
def serendipity : GeoKind → Option GeoKind
  | .qua9 => some .qua8
  | .qua16 => some .qua12
  | .qua17 => some .qua8
  | _ => none

/-- Recompute the interior nodes — block.rs:862-875. -/
def fixInterior (ndim : Nat) (target : GeoKind) (points : List Nat) (m : Mesh ℝ) : Res (Mesh ℝ) :=
  if target.nInteriorNodes > 0 then
    match serendipity target with
    | none => .ok m
    | some ser => do
      let pad ← Scratchpad.new ndim ser
      let pad ← Mesh.setPad m pad (points.take ser.nnode)
      (List.range target.nInteriorNodes).foldlM (fun (m : Mesh ℝ) idx => do
        let n := target.interiorNodes.getD idx 0
        let r ← pad.calcCoords ndim (refCoord target n)
        setCoords m (points.getD n 0) r.1) m
  else .ok m

/-- The cell `(i, j, k)` touches side `e` of a 2D block — block.rs:882-902. -/
def touches2d (nx ny i j : Nat) : Nat → Bool
  | 0 => j == 0
  | 1 => i == nx - 1
  | 2 => j == ny - 1
  | _ => i == 0

/-- The cell `(i, j, k)` touches the face `f` of a 3D block — block.rs:1011-1019. -/
def touches3d (nx ny nz i j k : Nat) : Nat → Bool
  | 0 => i == 0
  | 1 => i == nx - 1
  | 2 => j == 0
  | 3 => j == ny - 1
  | 4 => k == 0
  | _ => k == nz - 1

/-- The cell `(i, j, k)` has its edge `e` on edge `e` of a 3D block — block.rs:946-964. -/
def touchesEdge3d (nx ny nz i j k : Nat) (e : Nat) : Bool :=
  let xm := i == 0
  let ym := j == 0
  let zm := k == 0
  let xp := i == nx - 1
  let yp := j == ny - 1
  let zp := k == nz - 1
  match e with
  | 0 => ym && zm
  | 1 => xp && zm
  | 2 => yp && zm
  | 3 => xm && zm
  | 4 => ym && zp
  | 5 => xp && zp
  | 6 => yp && zp
  | 7 => xm && zp
  | 8 => xm && ym
  | 9 => xp && ym
  | 10 => xp && yp
  | _ => xm && yp

/-- The marked edges of a cell — block.rs:879-976. (The test "this is a boundary cell" is implied by the test of the edges.) -/
def cellMarkedEdges (b : Block) (target : GeoKind) (nx ny nz i j k : Nat) (points : List Nat) : List (Int × Nat × Nat) :=
  (List.range (if b.ndim = 2 then 4 else 12)).flatMap fun e =>
    if (if b.ndim = 2 then touches2d nx ny i j e else touchesEdge3d nx ny nz i j k e) then
      match b.edgeMarkers.get e with
      | some marker =>
        let key := sort2 (points.getD (edgeNode target e 0) 0) (points.getD (edgeNode target e 1) 0)
        [(marker, key.1, key.2)]
      | none => []
    else []

/-- The marked faces of a cell — block.rs:978-1031. -/
def cellMarkedFaces (b : Block) (target : GeoKind) (nx ny nz i j k : Nat) (points : List Nat) : List (Int × Nat × Nat × Nat × Nat) :=
  (List.range 6).flatMap fun f =>
    if touches3d nx ny nz i j k f then
      match b.faceMarkers.get f with
      | some marker =>
        let key := sort4 (points.getD (faceNode target f 0) 0) (points.getD (faceNode target f 1) 0) (points.getD (faceNode target f 2) 0)
          (points.getD (faceNode target f 3) 0)
        [(marker, key.1, key.2.1, key.2.2.1, key.2.2.2)]
      | none => []
    else []

/-- `delta_ksi[a][i]`. -/
def del (b : Block) (a i : Nat) : ℝ := at' (b.deltaKsi.getD a []) i

/-- One new cell — block.rs:763-1040. -/
def addCell (b : Block) (target edgeKind : GeoKind) (nx ny nz i j k : Nat) (center : Nat → ℝ) (st : State) : Res State := do
  let scale := fun a => if a = 0 then del b 0 i / 2 else if a = 1 then del b 1 j / 2 else del b 2 k / 2
  let r ← cellNodes iterG b target center scale st
  let points := r.1
  let st := r.2
  let mesh ← (if b.hasConstraints ∧ target.edgeNnode > 2 then do
      let m ← fixEdges iterC b.ndim target edgeKind points st.constrained st.mesh
      fixInterior b.ndim target points m
    else .ok st.mesh)
  .ok { st with mesh := { mesh with
    markedEdges := mesh.markedEdges ++ cellMarkedEdges b target nx ny nz i j k points
    markedFaces := mesh.markedFaces ++ cellMarkedFaces b target nx ny nz i j k points
    cells := mesh.cells ++ [⟨mesh.cells.length, b.marker, target, points⟩] } }

/-- The loop over x-divisions, with the x-center — block.rs:760-1047. -/
def loopX (b : Block) (target edgeKind : GeoKind) (nx ny nz j k : Nat) (cy cz : ℝ) (st : State) : Res State := do
  let r ← (List.range nx).foldlM (fun (s : ℝ × State) i => do
    let st ← addCell iterG iterC b target edgeKind nx ny nz i j k (fun a => if a = 0 then s.1 else if a = 1 then cy else cz) s.2
    .ok (if i + 1 < nx then s.1 + (del b 0 i + del b 0 (i + 1)) / 2 else s.1, st)) (-1 + del b 0 0 / 2, st)
  .ok r.2

/-- The loop over y-divisions — block.rs:754-1054. -/
def loopY (b : Block) (target edgeKind : GeoKind) (nx ny nz k : Nat) (cz : ℝ) (st : State) : Res State := do
  let r ← (List.range ny).foldlM (fun (s : ℝ × State) j => do
    let st ← loopX iterG iterC b target edgeKind nx ny nz j k s.1 cz s.2
    .ok (if j + 1 < ny then s.1 + (del b 1 j + del b 1 (j + 1)) / 2 else s.1, st)) (-1 + del b 1 0 / 2, st)
  .ok r.2

/-- The loop over z-divisions (one iteration in 2D; the z-values are then not used) — block.rs:745-1063. -/
def loopZ (b : Block) (target edgeKind : GeoKind) (nx ny nz : Nat) (st : State) : Res State := do
  let r ← (List.range nz).foldlM (fun (s : ℝ × State) k => do
    let st ← loopY iterG iterC b target edgeKind nx ny nz k s.1 s.2
    .ok (if k + 1 < nz then s.1 + (del b 2 k + del b 2 (k + 1)) / 2 else s.1, st)) (-1 + del b 2 0 / 2, st)
  .ok r.2

/-- `Block::subdivide` — block.rs:661-1065. -/
def subdivide (b : Block) (target : GeoKind) : Res (Mesh ℝ) :=
  if b.ndim = 2 ∧ target.classOf ≠ .qua then .err "in 2D, the GeoClass of target must be Qua"
  else if b.ndim ≠ 2 ∧ target.classOf ≠ .hex then .err "in 3D, the GeoClass of target must be Hex"
  else do
    let grid ← GridSearch.new (List.replicate b.ndim (-1)) (List.replicate b.ndim 1) none none none
    let st : State := { grid := grid, mesh := { ndim := b.ndim, points := [], cells := [], markedEdges := [], markedFaces := [] }, constrained := [] }
    match target.edgeKind with
    | none => .panic
    | some edgeKind => do
      let nz := if b.ndim = 2 then 1 else b.ndiv.getD 2 0
      let st ← loopZ iterG iterC b target edgeKind (b.ndiv.getD 0 0) (b.ndiv.getD 1 0) nz st
      .ok st.mesh

end Block
end
end Gemlab
