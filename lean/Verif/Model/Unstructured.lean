import Verif.Model.Convert2d
import Mathlib.Analysis.Real.Pi.Bounds
import Mathlib.Analysis.SpecialFunctions.Trigonometric.Basic

/-!
# Model of `mesh/generators_tri_tet.rs`: unstructured meshes of triangles and tetrahedra

The mesh generators (`tritet::Trigen`, `tritet::Tetgen`) are another package (bindings of C and C++ code), not part of the
repository. They are *parameters* of the model: structures of arbitrary functions on an arbitrary type of states. Nothing is
assumed here; what the theorems assume about them is stated in `Spec/Unstructured`.

Numbers are exact reals: `f64` rounding is not modelled, and a division by zero gives `0` instead of an infinity or a NaN.
-/
namespace Gemlab.Unstructured
open Gemlab.Mesh Gemlab.Shapes

/-! ## The mesh generators -/

/-- The functions of `tritet::Trigen` called by the code, on states of type `T`; `f(&mut self, …) -> Result<…>` is a function
that returns the next state. -/
structure Trigen (T : Type) where
  /-- number of points, segments, regions, holes -/
  new : Nat → Option Nat → Option Nat → Option Nat → Res T
  /-- index, marker, x, y -/
  setPoint : T → Nat → Int → ℝ → ℝ → Res T
  /-- index, marker, two points -/
  setSegment : T → Nat → Int → Nat → Nat → Res T
  /-- index, marker, x, y, maximum area -/
  setRegion : T → Nat → Int → ℝ → ℝ → Option ℝ → Res T
  /-- index, x, y -/
  setHole : T → Nat → ℝ → ℝ → Res T
  /-- verbose, quadratic, allow new points on the boundary, maximum area, minimum angle -/
  generate : T → Bool → Bool → Bool → Option ℝ → Option ℝ → Res T
  outNpoint : T → Nat
  outNcell : T → Nat
  outCellNpoint : T → Nat
  outPoint : T → Nat → Nat → ℝ
  outPointMarker : T → Nat → Int
  outCellPoint : T → Nat → Nat → Nat
  outCellMarker : T → Nat → Int
  outNsegment : T → Nat
  outSegmentPoint : T → Nat → Nat → Nat
  outSegmentMarker : T → Nat → Int

/-- The functions of `tritet::Tetgen` called by the code. `outMarkedFace t i pp` returns the marker and the buffer `pp` after the
call (`&mut [i32; 6]`; the numbers of points are not negative, as `usize`); the cell also returned is not used by the code. -/
structure Tetgen (T : Type) where
  /-- number of points, number of points of each facet, number of regions, holes -/
  new : Nat → Option (List Nat) → Option Nat → Option Nat → Res T
  setPoint : T → Nat → Int → ℝ → ℝ → ℝ → Res T
  setFacetMarker : T → Nat → Int → Res T
  /-- facet, local index, point -/
  setFacetPoint : T → Nat → Nat → Nat → Res T
  setRegion : T → Nat → Int → ℝ → ℝ → ℝ → Option ℝ → Res T
  setHole : T → Nat → ℝ → ℝ → ℝ → Res T
  /-- verbose, quadratic, maximum volume, minimum angle -/
  generate : T → Bool → Bool → Option ℝ → Option ℝ → Res T
  outNpoint : T → Nat
  outNcell : T → Nat
  outCellNpoint : T → Nat
  outPoint : T → Nat → Nat → ℝ
  outPointMarker : T → Nat → Int
  outCellPoint : T → Nat → Nat → Nat
  outCellMarker : T → Nat → Int
  outNMarkedFace : T → Nat
  outMarkedFace : T → Nat → List Nat → Int × List Nat

variable {T : Type}

/-! ## Markers and constraints -/

/-- generators_tri_tet.rs:13-22. -/
def markerA : Int := -1
def markerB : Int := -2
def markerC : Int := -3
def markerD : Int := -4
def markerInner : Int := -5
def markerOuter : Int := -6
def markerSymX : Int := -7
def markerSymY : Int := -8
def markerZmin : Int := -9
def markerZmax : Int := -10

/-- `const TOL: f64 = 1e-15` — generators_tri_tet.rs:41. -/
noncomputable def tolGap : ℝ := 1 / 10 ^ 15

/-- Body of one branch of the loop: the point is moved onto the circle of radius `r` — generators_tri_tet.rs:45-54 and 58-67. -/
noncomputable def moveOnto (r : ℝ) (p : Point ℝ) : Res (Point ℝ) := do
  let x ← Res.idx p.coords 0
  let y ← Res.idx p.coords 1
  let dx := x - 0
  let dy := y - 0
  let d := √(dx * dx + dy * dy)
  let gap := r - d
  if |gap| > tolGap then do
    let cs ← Res.setIdx p.coords 0 (x + gap * dx / d)
    let cs' ← Res.setIdx cs 1 (y + gap * dy / d)
    pure { p with coords := cs' }
  else pure p

/-- One pass of the loop — generators_tri_tet.rs:42-69. The second `if` looks at the point changed by the first one. -/
noncomputable def constrainPoint (rmin rmax : ℝ) (p : Point ℝ) : Res (Point ℝ) :=
  (if p.marker = markerInner then moveOnto rmin p else pure p) >>= fun p1 =>
    if p1.marker = markerOuter then moveOnto rmax p1 else pure p1

/-- `apply_constraints` — generators_tri_tet.rs:24-70. The pass `i` of the loop reads and writes only the point `i`. -/
noncomputable def applyConstraints (m : Mesh ℝ) (rmin rmax : ℝ) : Res (Mesh ℝ) := do
  let pts ← m.points.mapM (constrainPoint rmin rmax)
  pure { m with points := pts }

/-! ## From the output of the generators to a mesh -/

/-- Loop over the points — generators_tri_tet.rs:84-90. -/
def trigenPoint (lib : Trigen T) (t : T) (pts : List (Point ℝ)) (i : Nat) : Res (List (Point ℝ)) := do
  let p ← Res.idx pts i
  let c0 ← Res.setIdx p.coords 0 (lib.outPoint t i 0)
  let c1 ← Res.setIdx c0 1 (lib.outPoint t i 1)
  Res.setIdx pts i { id := i, marker := lib.outPointMarker t i, coords := c1 }

/-- Loop over the cells — generators_tri_tet.rs:91-97. -/
def trigenCell (lib : Trigen T) (t : T) (cells : List Cell) (i : Nat) : Res (List Cell) := do
  let c ← Res.idx cells i
  let ps ← (List.range (lib.outCellNpoint t)).foldlM (fun ps m => Res.setIdx ps m (lib.outCellPoint t i m)) c.points
  Res.setIdx cells i { c with id := i, marker := lib.outCellMarker t i, points := ps }

/-- `Unstructured::from_trigen` — generators_tri_tet.rs:74-109. -/
def fromTrigen (lib : Trigen T) (t : T) : Res (Mesh ℝ) := do
  let kind := if lib.outCellNpoint t = 6 then GeoKind.tri6 else GeoKind.tri3
  let mesh ← Mesh.unwrapRes (newZeroHomogeneous 2 (lib.outNpoint t) (lib.outNcell t) kind)
  let pts ← (List.range (lib.outNpoint t)).foldlM (trigenPoint lib t) mesh.points
  let cells ← (List.range (lib.outNcell t)).foldlM (trigenCell lib t) mesh.cells
  let marked := (List.range (lib.outNsegment t)).filterMap fun i =>
    if lib.outSegmentMarker t i ≠ 0 then some (lib.outSegmentMarker t i, lib.outSegmentPoint t i 0, lib.outSegmentPoint t i 1) else none
  pure { mesh with points := pts, cells := cells, markedEdges := mesh.markedEdges ++ marked }

/-- Loop over the points — generators_tri_tet.rs:128-138. -/
def tetgenPoint (lib : Tetgen T) (t : T) (pts : List (Point ℝ)) (i : Nat) : Res (List (Point ℝ)) := do
  let p ← Res.idx pts i
  let c0 ← Res.setIdx p.coords 0 (lib.outPoint t i 0)
  let c1 ← Res.setIdx c0 1 (lib.outPoint t i 1)
  let c2 ← Res.setIdx c1 2 (lib.outPoint t i 2)
  Res.setIdx pts i { id := i, marker := if lib.outPointMarker t i = 1 then 0 else lib.outPointMarker t i, coords := c2 }

/-- Loop over the cells — generators_tri_tet.rs:139-145. -/
def tetgenCell (lib : Tetgen T) (t : T) (cells : List Cell) (i : Nat) : Res (List Cell) := do
  let c ← Res.idx cells i
  let ps ← (List.range (lib.outCellNpoint t)).foldlM (fun ps m => Res.setIdx ps m (lib.outCellPoint t i m)) c.points
  Res.setIdx cells i { c with id := i, marker := lib.outCellMarker t i, points := ps }

/-- Loop over the marked faces; the state is (buffer `pp`, marked faces) — generators_tri_tet.rs:149-155. -/
def tetgenFace (lib : Tetgen T) (t : T) (s : List Nat × List (Int × Nat × Nat × Nat × Nat)) (i : Nat) :
    Res (List Nat × List (Int × Nat × Nat × Nat × Nat)) := do
  let r := lib.outMarkedFace t i s.1
  if r.1 ≠ 0 then do
    let a ← Res.idx r.2 0
    let b ← Res.idx r.2 1
    let c ← Res.idx r.2 2
    pure (r.2, s.2 ++ [(r.1, a, b, c, usizeMax)])
  else pure (r.2, s.2)

/-- `Unstructured::from_tetgen` — generators_tri_tet.rs:118-157. -/
def fromTetgen (lib : Tetgen T) (t : T) : Res (Mesh ℝ) := do
  let kind := if lib.outCellNpoint t = 10 then GeoKind.tet10 else GeoKind.tet4
  let mesh ← Mesh.unwrapRes (newZeroHomogeneous 3 (lib.outNpoint t) (lib.outNcell t) kind)
  let pts ← (List.range (lib.outNpoint t)).foldlM (tetgenPoint lib t) mesh.points
  let cells ← (List.range (lib.outNcell t)).foldlM (tetgenCell lib t) mesh.cells
  let faces ← (List.range (lib.outNMarkedFace t)).foldlM (tetgenFace lib t) (List.replicate 6 0, mesh.markedFaces)
  pure { mesh with points := pts, cells := cells, markedFaces := faces.2 }

/-! ## Meshes from a planar straight line graph or a piecewise linear complex -/

/-- The last step: the optional renumbering — generators_tri_tet.rs:231-234 (also 328-331, 490-493, 765-768). -/
def finish (renumber : Bool) (m : Mesh ℝ) : Res (Mesh ℝ) :=
  if renumber then
    match renumberMesh m false with
    | (m', .ok _) => .ok m'
    | (_, .err e) => .err e
    | (_, .panic) => .panic
  else .ok m

/-- Set points — generators_tri_tet.rs:186-193. -/
def pslgPoint (lib : Trigen T) (pslg : Mesh ℝ) (t : T) (i : Nat) : Res T := do
  let p ← Res.idx pslg.points i
  let x ← Res.idx p.coords 0
  let y ← Res.idx p.coords 1
  lib.setPoint t i p.marker x y

/-- Set segments — generators_tri_tet.rs:196-204 (`features.edges.get(&key).unwrap()`). -/
def pslgSegment (lib : Trigen T) (edges : HMap EdgeKey Feature) (keys : List EdgeKey) (t : T) (i : Nat) : Res T := do
  let key ← Res.idx keys i
  let edge ← unwrap (edges.get key)
  if edge.points.length ≠ 2 then .err "edges must have 2 points" else do
    let a ← Res.idx edge.points 0
    let b ← Res.idx edge.points 1
    lib.setSegment t i edge.marker a b

/-- The sums of the coordinates — generators_tri_tet.rs:208-214. -/
def cenStep (pslg : Mesh ℝ) (s : ℝ × ℝ) (p : Nat) : Res (ℝ × ℝ) := do
  let q ← Res.idx pslg.points p
  let x ← Res.idx q.coords 0
  let y ← Res.idx q.coords 1
  pure (s.1 + x, s.2 + y)

/-- Set regions — generators_tri_tet.rs:207-219. `maxAreas` is the optional hash map of the maximum areas. -/
noncomputable def pslgRegion (lib : Trigen T) (pslg : Mesh ℝ) (maxAreas : Option (HMap Int ℝ)) (t : T) (cell : Cell) : Res T := do
  let s ← cell.points.foldlM (cenStep pslg) (0, 0)
  lib.setRegion t cell.id cell.marker (s.1 / (cell.points.length : ℝ)) (s.2 / (cell.points.length : ℝ))
    (maxAreas.bind fun ma => ma.get cell.marker)

/-- Set holes — generators_tri_tet.rs:222-224. -/
def pslgHole (lib : Trigen T) (holes : List (ℝ × ℝ)) (t : T) (i : Nat) : Res T := do
  let h ← Res.idx holes i
  lib.setHole t i h.1 h.2

/-- `Unstructured::call_trigen` — generators_tri_tet.rs:160-235. The parameter `o` is the iteration orders of the hash maps of
`Features::new` and `keyOrder` the one of `features.edges.keys()`; `sort()` of the keys is the insertion sort (of distinct keys by a
total order, the result does not depend on the algorithm). -/
noncomputable def callTrigen (lib : Trigen T) (o : Orders) (keyOrder : List EdgeKey → List EdgeKey) (pslg : Mesh ℝ) (holes : List (ℝ × ℝ)) (o2 : Bool)
    (maxAreas : Option (HMap Int ℝ)) (globalMaxArea globalMinAngle : Option ℝ) (renumber : Bool) : Res (Mesh ℝ) :=
  if pslg.ndim ≠ 2 then .err "the PSLG mesh must be 2D" else do
    let features ← Features.new o pslg true
    let t0 ← lib.new pslg.points.length (some features.edges.length) (some pslg.cells.length) (some holes.length)
    let t1 ← (List.range pslg.points.length).foldlM (pslgPoint lib pslg) t0
    let keys := (keyOrder (features.edges.map (·.1))).insertionSort edgeKeyLe
    let t2 ← (List.range keys.length).foldlM (pslgSegment lib features.edges keys) t1
    let t3 ← pslg.cells.foldlM (pslgRegion lib pslg maxAreas) t2
    let t4 ← (List.range holes.length).foldlM (pslgHole lib holes) t3
    let t5 ← lib.generate t4 false o2 true globalMaxArea globalMinAngle
    let mesh ← fromTrigen lib t5
    finish renumber mesh

/-- Set points — generators_tri_tet.rs:283-291. -/
def plcPoint (lib : Tetgen T) (plc : Mesh ℝ) (t : T) (i : Nat) : Res T := do
  let p ← Res.idx plc.points i
  let x ← Res.idx p.coords 0
  let y ← Res.idx p.coords 1
  let z ← Res.idx p.coords 2
  lib.setPoint t i p.marker x y z

/-- The facet `i`: its marker and its points — generators_tri_tet.rs:296-299 and 306-309. -/
def plcFacet (lib : Tetgen T) (t : T) (i : Nat) (marker : Int) (points : List Nat) : Res T := do
  let t' ← lib.setFacetMarker t i marker
  (List.range points.length).foldlM (fun t m => do
    let p ← Res.idx points m
    lib.setFacetPoint t i m p) t'

/-- Facets of the shells — generators_tri_tet.rs:294-301. -/
def plcShell (lib : Tetgen T) (plc : Mesh ℝ) (shells : List Nat) (t : T) (i : Nat) : Res T := do
  let id ← Res.idx shells i
  let cell ← Res.idx plc.cells id
  plcFacet lib t i cell.marker cell.points

/-- Facets of the faces — generators_tri_tet.rs:303-310. -/
def plcFace (lib : Tetgen T) (faces : HMap FaceKey Feature) (keys : List FaceKey) (start : Nat) (t : T) (i : Nat) : Res T := do
  let key ← Res.idx keys i
  let face ← unwrap (faces.get key)
  plcFacet lib t (start + i) face.marker face.points

/-- Set regions — generators_tri_tet.rs:313-316. -/
def plcRegion (lib : Tetgen T) (regions : List (Int × ℝ × ℝ × ℝ)) (maxVolumes : Option (HMap Int ℝ)) (t : T) (i : Nat) : Res T := do
  let r ← Res.idx regions i
  lib.setRegion t i r.1 r.2.1 r.2.2.1 r.2.2.2 (maxVolumes.bind fun ma => ma.get r.1)

/-- Set holes — generators_tri_tet.rs:319-321. -/
def plcHole (lib : Tetgen T) (holes : List (ℝ × ℝ × ℝ)) (t : T) (i : Nat) : Res T := do
  let h ← Res.idx holes i
  lib.setHole t i h.1 h.2.1 h.2.2

/-- `facet_npoint` of the shells — generators_tri_tet.rs:266-269. -/
def shellCounts (plc : Mesh ℝ) (shells : List Nat) : Res (List Nat) :=
  shells.mapM fun id => do
    let c ← Res.idx plc.cells id
    pure c.points.length

/-- `facet_npoint` of the faces — generators_tri_tet.rs:274-277. -/
def faceCounts (faces : HMap FaceKey Feature) (keys : List FaceKey) : Res (List Nat) :=
  keys.mapM fun k => do
    let f ← unwrap (faces.get k)
    pure f.points.length

/-- `Unstructured::call_tetgen` — generators_tri_tet.rs:240-332. -/
noncomputable def callTetgen (lib : Tetgen T) (o : Orders) (keyOrder : List FaceKey → List FaceKey) (plc : Mesh ℝ)
    (regions : List (Int × ℝ × ℝ × ℝ)) (holes : List (ℝ × ℝ × ℝ)) (o2 : Bool)
    (maxVolumes : Option (HMap Int ℝ)) (globalMaxVolume globalMinAngle : Option ℝ) (renumber : Bool) : Res (Mesh ℝ) :=
  if plc.ndim ≠ 3 then .err "the PLC mesh must be 3D" else do
    let features ← Features.new o plc true
    let counts ← shellCounts plc features.shells
    let keys := (keyOrder (features.faces.map (·.1))).insertionSort faceKeyLe
    let counts' ← faceCounts features.faces keys
    let t0 ← lib.new plc.points.length (some (counts ++ counts')) (some regions.length) (some holes.length)
    let t1 ← (List.range plc.points.length).foldlM (plcPoint lib plc) t0
    let t2 ← (List.range features.shells.length).foldlM (plcShell lib plc features.shells) t1
    let t3 ← (List.range keys.length).foldlM (plcFace lib features.faces keys features.shells.length) t2
    let t4 ← (List.range regions.length).foldlM (plcRegion lib regions maxVolumes) t3
    let t5 ← (List.range holes.length).foldlM (plcHole lib holes) t4
    let t6 ← lib.generate t5 false o2 globalMaxVolume globalMinAngle
    let mesh ← fromTetgen lib t6
    finish renumber mesh

/-! ## Quarter of a ring in 2D -/

/-- `dr` — generators_tri_tet.rs:417. -/
noncomputable def ringDr (rmin rmax : ℝ) (nr : Nat) : ℝ := (rmax - rmin) / (nr : ℝ)

/-- `da` with `AMIN = 0` and `AMAX = PI / 2` — generators_tri_tet.rs:415-418. -/
noncomputable def ringDa (na : Nat) : ℝ := (Real.pi / 2 - 0) / (na : ℝ)

/-- The state of the loops is (generator, `p`). y=0 line — generators_tri_tet.rs:426-432; `i` runs over `1..(nr + 1)`, here `k = i - 1`. -/
noncomputable def ringBottom (lib : Trigen T) (rmin rmax : ℝ) (nr : Nat) (s : T × Nat) (k : Nat) : Res (T × Nat) := do
  let i := k + 1
  let t ← lib.setPoint s.1 s.2 (if i = nr then markerC else 0) (rmin + (i : ℝ) * ringDr rmin rmax nr) 0
  let t' ← lib.setSegment t (s.2 - 1) markerSymX (s.2 - 1) s.2
  pure (t', s.2 + 1)

/-- The coordinates of the outer circle — generators_tri_tet.rs:437-442. -/
noncomputable def outerXY (rmax : ℝ) (na i : Nat) : ℝ × ℝ :=
  if i = na then (0, rmax) else (rmax * Real.cos (0 + (i : ℝ) * ringDa na), rmax * Real.sin (0 + (i : ℝ) * ringDa na))

/-- Outer circle — generators_tri_tet.rs:435-446. -/
noncomputable def ringOuter (lib : Trigen T) (rmax : ℝ) (na : Nat) (s : T × Nat) (k : Nat) : Res (T × Nat) := do
  let i := k + 1
  let t ← lib.setPoint s.1 s.2 (if i = na then markerD else 0) (outerXY rmax na i).1 (outerXY rmax na i).2
  let t' ← lib.setSegment t (s.2 - 1) markerOuter (s.2 - 1) s.2
  pure (t', s.2 + 1)

/-- x=0 line — generators_tri_tet.rs:449-455. -/
noncomputable def ringLeft (lib : Trigen T) (rmin rmax : ℝ) (nr : Nat) (s : T × Nat) (k : Nat) : Res (T × Nat) := do
  let i := k + 1
  let t ← lib.setPoint s.1 s.2 (if i = nr then markerB else 0) 0 (rmin + ((nr - i : Nat) : ℝ) * ringDr rmin rmax nr)
  let t' ← lib.setSegment t (s.2 - 1) markerSymY (s.2 - 1) s.2
  pure (t', s.2 + 1)

/-- Inner circle — generators_tri_tet.rs:458-465; `i` runs over `1..na`. -/
noncomputable def ringInner (lib : Trigen T) (rmin : ℝ) (na : Nat) (s : T × Nat) (k : Nat) : Res (T × Nat) := do
  let i := k + 1
  let a := 0 + ((na - i : Nat) : ℝ) * ringDa na
  let t ← lib.setPoint s.1 s.2 0 (rmin * Real.cos a) (rmin * Real.sin a)
  let t' ← lib.setSegment t (s.2 - 1) markerInner (s.2 - 1) s.2
  pure (t', s.2 + 1)

/-- The small number `1e-4` — generators_tri_tet.rs:469 and 739. -/
noncomputable def seedGap : ℝ := 1 / 10 ^ 4

/-- The input of the generator: points, segments, region — generators_tri_tet.rs:408-469. -/
noncomputable def ringInput2d (lib : Trigen T) (rmin rmax : ℝ) (nr na : Nat) : Res T := do
  let npoint := 2 * (nr + 1) + 2 * (na - 1)
  let t0 ← lib.new npoint (some npoint) (some 1) none
  let t1 ← lib.setPoint t0 0 markerA rmin 0
  let s2 ← (List.range nr).foldlM (ringBottom lib rmin rmax nr) (t1, 1)
  let s3 ← (List.range na).foldlM (ringOuter lib rmax na) s2
  let s4 ← (List.range nr).foldlM (ringLeft lib rmin rmax nr) s3
  let s5 ← (List.range (na - 1)).foldlM (ringInner lib rmin na) s4
  let t6 ← lib.setSegment s5.1 (s5.2 - 1) markerInner (s5.2 - 1) 0
  lib.setRegion t6 0 1 (rmin + seedGap) seedGap none

/-- What is done with the mesh of the generator — generators_tri_tet.rs:475-493. -/
noncomputable def ringFinish2d (lib : Trigen T) (o : Orders) (rmin rmax : ℝ) (target : GeoKind) (renumber : Bool) (t : T) : Res (Mesh ℝ) := do
  let m0 ← fromTrigen lib t
  let m1 ← applyConstraints m0 rmin rmax
  if target.nnode > 6 then do
    let m2 ← convert2d o m1 target
    applyConstraints m2 rmin rmax
  else finish renumber m1

/-- `Unstructured::quarter_ring_2d` — generators_tri_tet.rs:384-494. The parameter `o` is the iteration orders used by `convert_2d`. -/
noncomputable def quarterRing2d (lib : Trigen T) (o : Orders) (rmin rmax : ℝ) (nr na : Nat) (target : GeoKind) (globalMaxArea : Option ℝ) (renumber : Bool) :
    Res (Mesh ℝ) :=
  if nr < 1 then .err "number of divisions along the radius must be ≥ 1"
  else if na < 1 then .err "number of divisions along alpha must be ≥ 1"
  else if target.classOf ≠ GeoClass.tri then .err "the GeoClass of target must be Tri"
  else do
    let t ← ringInput2d lib rmin rmax nr na
    let t' ← lib.generate t false (decide (target.nnode > 3)) true globalMaxArea none
    ringFinish2d lib o rmin rmax target renumber t'

/-! ## Quarter of a ring in 3D -/

/-- y=0 line — generators_tri_tet.rs:615-620. The state of the loops is (generator, `p`). -/
noncomputable def layerBottom (lib : Tetgen T) (rmin rmax z : ℝ) (nr : Nat) (s : T × Nat) (k : Nat) : Res (T × Nat) := do
  let i := k + 1
  let t ← lib.setPoint s.1 s.2 (if i = nr then markerC else 0) (rmin + (i : ℝ) * ringDr rmin rmax nr) 0 z
  pure (t, s.2 + 1)

/-- Outer circle — generators_tri_tet.rs:622-633. -/
noncomputable def layerOuter (lib : Tetgen T) (rmax z : ℝ) (na : Nat) (s : T × Nat) (k : Nat) : Res (T × Nat) := do
  let i := k + 1
  let t ← lib.setPoint s.1 s.2 (if i = na then markerD else 0) (outerXY rmax na i).1 (outerXY rmax na i).2 z
  pure (t, s.2 + 1)

/-- x=0 line — generators_tri_tet.rs:636-641. -/
noncomputable def layerLeft (lib : Tetgen T) (rmin rmax z : ℝ) (nr : Nat) (s : T × Nat) (k : Nat) : Res (T × Nat) := do
  let i := k + 1
  let t ← lib.setPoint s.1 s.2 (if i = nr then markerB else 0) 0 (rmin + ((nr - i : Nat) : ℝ) * ringDr rmin rmax nr) z
  pure (t, s.2 + 1)

/-- Inner circle — generators_tri_tet.rs:644-650. -/
noncomputable def layerInner (lib : Tetgen T) (rmin z : ℝ) (na : Nat) (s : T × Nat) (k : Nat) : Res (T × Nat) := do
  let i := k + 1
  let a := 0 + ((na - i : Nat) : ℝ) * ringDa na
  let t ← lib.setPoint s.1 s.2 0 (rmin * Real.cos a) (rmin * Real.sin a) z
  pure (t, s.2 + 1)

/-- The points at one height — generators_tri_tet.rs:603-651; `nz = 1`, `dz = thickness / (nz as f64)`. -/
noncomputable def ringLayer (lib : Tetgen T) (rmin rmax thickness : ℝ) (nr na : Nat) (s : T × Nat) (k : Nat) : Res (T × Nat) := do
  let z := (k : ℝ) * (thickness / ((1 : Nat) : ℝ))
  let t1 ← lib.setPoint s.1 s.2 markerA rmin 0 z
  let s2 ← (List.range nr).foldlM (layerBottom lib rmin rmax z nr) (t1, s.2 + 1)
  let s3 ← (List.range na).foldlM (layerOuter lib rmax z na) s2
  let s4 ← (List.range nr).foldlM (layerLeft lib rmin rmax z nr) s3
  (List.range (na - 1)).foldlM (layerInner lib rmin z na) s4

/-- `facets_npoint` — generators_tri_tet.rs:580-593. The writes of the loop fill the list from position 4 on. -/
def ringFacetCounts (nr na : Nat) : List Nat :=
  [2 * (nr + 1) + 2 * (na - 1), 2 * (nr + 1) + 2 * (na - 1), 2 * (nr + 1), 2 * (nr + 1)] ++ List.replicate na 4 ++ List.replicate na 4

/-- A cap facet — generators_tri_tet.rs:669-674 and 677-682. -/
def capFacet (lib : Tetgen T) (f : Nat) (marker : Int) (pivot n : Nat) (t : T) : Res T := do
  let t1 ← lib.setFacetMarker t f marker
  (List.range n).foldlM (fun t i => lib.setFacetPoint t f i (pivot + i)) t1

/-- The facet on y=0 — generators_tri_tet.rs:685-693. -/
def symFacetX (lib : Tetgen T) (nr pivotA pivotAA : Nat) (t : T) : Res T := do
  let t1 ← lib.setFacetMarker t 2 markerSymX
  (List.range (nr + 1)).foldlM (fun t i => do
    let t' ← lib.setFacetPoint t 2 i (pivotA + i)
    lib.setFacetPoint t' 2 (nr + 1 + nr - i) (pivotAA + i)) t1

/-- The facet on x=0 — generators_tri_tet.rs:696-704. -/
def symFacetY (lib : Tetgen T) (nr pivotB pivotBB : Nat) (t : T) : Res T := do
  let t1 ← lib.setFacetMarker t 3 markerSymY
  (List.range (nr + 1)).foldlM (fun t i => do
    let t' ← lib.setFacetPoint t 3 i (pivotB - i)
    lib.setFacetPoint t' 3 (nr + 1 + nr - i) (pivotBB - i)) t1

/-- One facet of a cylinder; the points are `pp[m] + i` — generators_tri_tet.rs:707-714 and 723-730. -/
def cylFacet (lib : Tetgen T) (first : Nat) (marker : Int) (pp : List Nat) (t : T) (i : Nat) : Res T := do
  let t1 ← lib.setFacetMarker t (first + i) marker
  (List.range 4).foldlM (fun t m => do
    let p ← Res.idx pp m
    lib.setFacetPoint t (first + i) m (p + i)) t1

/-- The last facet of a cylinder — generators_tri_tet.rs:715-720 and 731-736. -/
def lastFacet (lib : Tetgen T) (f : Nat) (marker : Int) (p0 p1 p2 p3 : Nat) (t : T) : Res T := do
  let t1 ← lib.setFacetMarker t f marker
  let t2 ← lib.setFacetPoint t1 f 0 p0
  let t3 ← lib.setFacetPoint t2 f 1 p1
  let t4 ← lib.setFacetPoint t3 f 2 p2
  lib.setFacetPoint t4 f 3 p3

/-- The input of the generator: points, facets, region — generators_tri_tet.rs:579-739. -/
noncomputable def ringInput3d (lib : Tetgen T) (rmin rmax thickness : ℝ) (nr na : Nat) : Res T := do
  let ncap := 2 * (nr + 1) + 2 * (na - 1)
  let t0 ← lib.new (2 * ncap) (some (ringFacetCounts nr na)) (some 1) none
  let s1 ← (List.range (1 + 1)).foldlM (ringLayer lib rmin rmax thickness nr na) (t0, 0)
  let pA := 0
  let pB := pA + nr + na + nr
  let pC := pA + nr
  let pD := pB - nr
  let pAA := pA + ncap
  let pBB := pB + ncap
  let pCC := pC + ncap
  let pDD := pD + ncap
  let t1 ← capFacet lib 0 markerZmin pA ncap s1.1
  let t2 ← capFacet lib 1 markerZmax pAA ncap t1
  let t3 ← symFacetX lib nr pA pAA t2
  let t4 ← symFacetY lib nr pB pBB t3
  let t5 ← (List.range (na - 1)).foldlM (cylFacet lib 4 markerInner [pB, pB + 1, pBB + 1, pBB]) t4
  let t6 ← lastFacet lib (4 + na - 1) markerInner (pB + na - 1) pA pAA (pBB + na - 1) t5
  let t7 ← (List.range (na - 1)).foldlM (cylFacet lib (4 + na) markerOuter [pC, pC + 1, pCC + 1, pCC]) t6
  let t8 ← lastFacet lib (4 + na + na - 1) markerOuter (pC + na - 1) pD pDD (pCC + na - 1) t7
  lib.setRegion t8 0 1 (rmin + seedGap) seedGap seedGap none

/-- One point of a marked face — generators_tri_tet.rs:753-757. -/
def raiseMarker (marker : Int) (buf : List Nat) (pts : List (Point ℝ)) (m : Nat) : Res (List (Point ℝ)) := do
  let p ← Res.idx buf m
  let q ← Res.idx pts p
  if q.marker = 0 ∨ q.marker < marker then Res.setIdx pts p { q with marker := marker } else pure pts

/-- One marked face; the state is (buffer, points) — generators_tri_tet.rs:750-759. -/
def raiseMarkers (lib : Tetgen T) (t : T) (n : Nat) (s : List Nat × List (Point ℝ)) (i : Nat) : Res (List Nat × List (Point ℝ)) := do
  let r := lib.outMarkedFace t i s.1
  let pts ← (List.range n).foldlM (raiseMarker r.1 r.2) s.2
  pure (r.2, pts)

/-- What is done with the mesh of the generator — generators_tri_tet.rs:745-768. -/
noncomputable def ringFinish3d (lib : Tetgen T) (rmin rmax : ℝ) (o2 renumber : Bool) (t : T) : Res (Mesh ℝ) := do
  let m0 ← fromTetgen lib t
  let s ← (List.range (lib.outNMarkedFace t)).foldlM (raiseMarkers lib t (if o2 then 6 else 3)) (List.replicate 6 0, m0.points)
  let m1 ← applyConstraints { m0 with points := s.2 } rmin rmax
  finish renumber m1

/-- `Unstructured::quarter_ring_3d` — generators_tri_tet.rs:548-769. -/
noncomputable def quarterRing3d (lib : Tetgen T) (rmin rmax thickness : ℝ) (nr na : Nat) (target : GeoKind) (globalMaxVolume : Option ℝ)
    (renumber : Bool) : Res (Mesh ℝ) :=
  if nr < 1 then .err "number of divisions along the radius must be ≥ 1"
  else if na < 1 then .err "number of divisions along alpha must be ≥ 1"
  else if thickness ≤ 0 then .err "thickness must be > 0.0"
  else if target.classOf ≠ GeoClass.tet then .err "the GeoClass of target must be Tet"
  else if target ≠ GeoKind.tet4 ∧ target ≠ GeoKind.tet10 then .err "only Tet4 and Tet10 are available currently"
  else do
    let t ← ringInput3d lib rmin rmax thickness nr na
    let t' ← lib.generate t false (decide (target.nnode > 4)) globalMaxVolume none
    ringFinish3d lib rmin rmax (decide (target.nnode > 4)) renumber t'

end Gemlab.Unstructured
