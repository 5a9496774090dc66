import Verif.Model.Geometry
import Verif.Lib.HMap
import Mathlib.Algebra.Order.Floor.Semiring

/-!
# `num_divisions` and `GridSearch` (`/repo/src/util/num_divisions.rs`, `grid_search.rs`, `calc_container_key.rs`)

Simplifications: real numbers instead of `f64`; natural numbers instead of `usize` (no overflow of container keys);
`v as usize` of a non-negative float is the floor (`Nat.floor`, which is 0 for negative numbers, as the saturating cast);
`filter` closures are pure functions; hash maps are `HMap`, with an arbitrary iteration order where the code iterates;
the scratch array `halo` is a local value. `draw` is in `Model/DrawGrids`, `Display` in `Model/Reports`.
-/
namespace Gemlab
noncomputable section
open Classical

/-- `num_divisions`, `/repo/src/util/num_divisions.rs:42-78`. -/
def numDivisions (ndivMin ndivLong : Nat) (xmin xmax : List ℝ) : Res (List Nat) :=
  if ndivMin < 1 then .err "ndiv_min must be ≥ 1"
  else if ndivLong ≤ ndivMin then .err "ndiv_long must be > ndiv_min"
  else if xmin.length ≠ xmax.length then .err "xmin.len() must be equal to xmax.len()"
  else
    let ndim := xmin.length
    if ndim < 2 then .err "ndim must be ≥ 2"
    else
      let delta := List.zipWith (fun a b => b - a) xmin xmax
      let long := (List.range' 1 (ndim - 1)).foldl
        (fun (s : Nat × ℝ) i => if at' delta i > s.2 then (i, at' delta i) else s) (0, at' delta 0)
      (List.range ndim).mapM fun i =>
        if at' delta i ≤ 0 then .err "xmax must be greater than xmin"
        else if i = long.1 then .ok ndivLong
        else .ok (max ndivMin ⌊(at' delta i / long.2) * (ndivLong : ℝ)⌋₊)

/-- `struct GridSearch`, `/repo/src/util/grid_search.rs:98-111`. -/
structure GridSearch where
  ndim : Nat
  ndiv : List Nat
  xmin : List ℝ
  xmax : List ℝ
  coefficient : List Nat
  sideLength : ℝ
  tolerance : ℝ
  tolDist : ℝ
  radius : ℝ
  containers : HMap Nat (HMap Nat (List ℝ))

namespace GridSearch

/-- `GridSearch::new`, `/repo/src/util/grid_search.rs:151-255`. -/
def new (xmin xmax : List ℝ) (ndiv : Option Nat) (tolerance borderTol : Option ℝ) : Res GridSearch :=
  let ndim := xmin.length
  if ndim < 2 ∨ ndim > 3 then .err "xmin.len() = ndim must be 2 or 3"
  else if xmax.length ≠ ndim then .err "xmax.len() must equal ndim = xmin.len()"
  else
    let ndivLong := ndiv.getD 100
    if ndivLong < 1 then .err "ndiv must be ≥ 1"
    else do
      let ndiv ← numDivisions 1 ndivLong xmin xmax
      let coefficient := [1, ndiv.getD 0 0, ndiv.getD 0 0 * ndiv.getD 1 0]
      let tolerance := tolerance.getD (1 / 10000)
      if tolerance ≤ 0 then .err "tolerance must be > 0.0"
      else
        let borderTol := borderTol.getD (1 / 100)
        if borderTol < 0 then .err "border_tol must be ≥ 0.0"
        else
          let xmin := if borderTol > 0 then xmin.map (fun v => v - borderTol) else xmin
          let xmax := if borderTol > 0 then xmax.map (fun v => v + borderTol) else xmax
          let sideLength := (List.range' 1 (ndim - 1)).foldl
            (fun s i => max s ((at' xmax i - at' xmin i) / ((ndiv.getD i 0 : Nat) : ℝ)))
            ((at' xmax 0 - at' xmin 0) / ((ndiv.getD 0 0 : Nat) : ℝ))
          if sideLength ≤ 2 * tolerance then
            .err "(xmax-xmin)/ndiv must be > 2·tolerance; reduce the tolerance (or ndiv)"
          else
            let xmax := (List.range ndim).map fun i => at' xmin i + sideLength * ((ndiv.getD i 0 : Nat) : ℝ)
            let tolDist := if ndim = 2 then Real.sqrt 2 * tolerance else Real.sqrt 3 * tolerance
            let radius := if ndim = 2 then Real.sqrt 2 * sideLength / 2 else Real.sqrt 3 * sideLength / 2
            .ok { ndim := ndim, ndiv := ndiv, xmin := xmin, xmax := xmax, coefficient := coefficient,
                  sideLength := sideLength, tolerance := tolerance, tolDist := tolDist, radius := radius,
                  containers := [] }

/-- `GridSearch::is_outside`, `/repo/src/util/grid_search.rs:262-270` (panics on a wrong length). -/
def isOutside (g : GridSearch) (x : List ℝ) : Res Bool :=
  if x.length ≠ g.ndim then .panic
  else .ok ((List.range g.ndim).any fun i => decide (at' x i < at' g.xmin i ∨ at' x i > at' g.xmax i))

/-- Body of the loop of `GridSearch::calc_container_key` (`ratio[i]`), `/repo/src/util/grid_search.rs:665-669`. -/
def ratio (g : GridSearch) (x : List ℝ) (i : Nat) : Nat :=
  let r := ⌊(at' x i - at' g.xmin i) / g.sideLength⌋₊
  if r = g.ndiv.getD i 0 then r - 1 else r

/-- `GridSearch::calc_container_key`, `/repo/src/util/grid_search.rs:658-673`. -/
def calcContainerKey (g : GridSearch) (x : List ℝ) : Option Nat :=
  (List.range g.ndim).foldlM
    (fun key i =>
      if at' x i < at' g.xmin i ∨ at' x i > at' g.xmax i then none
      else some (key + ratio g x i * g.coefficient.getD i 0)) 0

/-- `GridSearch::update_or_insert`, `/repo/src/util/grid_search.rs:771-774`. -/
def updateOrInsert (g : GridSearch) (key id : Nat) (x : List ℝ) : GridSearch :=
  { g with containers := g.containers.insert key (((g.containers.get key).getD []).insert id x) }

/-- `GridSearch::set_halo`, `/repo/src/util/grid_search.rs:778-824` (returns the corners). -/
def setHalo (g : GridSearch) (x : List ℝ) : List (List ℝ) :=
  let t := g.tolerance
  if g.ndim = 2 then
    [[at' x 0 - t, at' x 1 - t], [at' x 0 + t, at' x 1 - t], [at' x 0 + t, at' x 1 + t], [at' x 0 - t, at' x 1 + t]]
  else
    [[at' x 0 - t, at' x 1 - t, at' x 2 - t], [at' x 0 + t, at' x 1 - t, at' x 2 - t],
     [at' x 0 + t, at' x 1 + t, at' x 2 - t], [at' x 0 - t, at' x 1 + t, at' x 2 - t],
     [at' x 0 - t, at' x 1 - t, at' x 2 + t], [at' x 0 + t, at' x 1 - t, at' x 2 + t],
     [at' x 0 + t, at' x 1 + t, at' x 2 + t], [at' x 0 - t, at' x 1 + t, at' x 2 + t]]

/-- `GridSearch::insert`, `/repo/src/util/grid_search.rs:278-305`. The two error exits are before any change of the grid.-/
def insert (g : GridSearch) (id : Nat) (x : List ℝ) : Res GridSearch :=
  if x.length ≠ g.ndim then .err "x.len() must equal ndim"
  else
    match calcContainerKey g x with
    | none => .err "cannot insert point because its coordinates are outside the grid"
    | some key =>
      .ok ((setHalo g x).foldl
        (fun g' corner =>
          match calcContainerKey g' corner with
          | some keyCorner => if keyCorner ≠ key then updateOrInsert g' keyCorner id x else g'
          | none => g')
        (updateOrInsert g key id x))

/-- Loop of `GridSearch::search`, `/repo/src/util/grid_search.rs:335-340`. -/
def searchLoop (tolDist : ℝ) (x : List ℝ) : List (Nat × List ℝ) → Res (Option Nat)
  | [] => .ok none
  | (id, xo) :: rest => do
    let distance ← pointPointDistance xo x
    if distance ≤ tolDist then .ok (some id) else searchLoop tolDist x rest

/-- `GridSearch::search`, `/repo/src/util/grid_search.rs:316-342`; `iter` is the iteration order of the hash map. -/
def search (iter : List (Nat × List ℝ) → List (Nat × List ℝ)) (g : GridSearch) (x : List ℝ) : Res (Option Nat) :=
  if x.length ≠ g.ndim then .err "x.len() must equal ndim"
  else
    match calcContainerKey g x with
    | none => .err "cannot find point because the coordinates are outside the grid"
    | some key =>
      match g.containers.get key with
      | none => .ok none
      | some c => searchLoop g.tolDist x (iter c)

/-- `GridSearch::container_pivot_indices`, `/repo/src/util/grid_search.rs:677-682`. -/
def pivotIndices (g : GridSearch) (key : Nat) : Nat × Nat × Nat :=
  (key % g.ndiv.getD 0 0, (key % g.coefficient.getD 2 0) / g.ndiv.getD 0 0, key / g.coefficient.getD 2 0)

/-- `GridSearch::container_center`, `/repo/src/util/grid_search.rs:686-692`. -/
def containerCenter (g : GridSearch) (ijk : Nat × Nat × Nat) : List ℝ :=
  let c0 := at' g.xmin 0 + (ijk.1 : ℝ) * g.sideLength + g.sideLength / 2
  let c1 := at' g.xmin 1 + (ijk.2.1 : ℝ) * g.sideLength + g.sideLength / 2
  if g.ndim = 3 then [c0, c1, at' g.xmin 2 + (ijk.2.2 : ℝ) * g.sideLength + g.sideLength / 2] else [c0, c1]

/-- The common shape of `containers_near_line/_circle/_cylinder/_plane`, `/repo/src/util/grid_search.rs:696-764`: the keys
of the containers whose center has `dist ≤ radius + tol_dist`. (The four functions are identical up to the distance.) -/
def containersNear (iter : List (Nat × HMap Nat (List ℝ)) → List (Nat × HMap Nat (List ℝ))) (g : GridSearch)
    (dist : List ℝ → Res ℝ) : Res (List Nat) :=
  (iter g.containers).foldlM
    (fun acc e => do
      let d ← dist (containerCenter g (pivotIndices g e.1))
      .ok (if d ≤ g.radius + g.tolDist then acc ++ [e.1] else acc)) []

/-- The common shape of the second part of the `search_on_*` functions, e.g. `/repo/src/util/grid_search.rs:373-385`: go
through the points of the selected containers and keep the ids with `|dist| ≤ tol_dist` and `filter`. The `HashSet` of ids
is the list of inserted ids. `absolute = false` is `search_on_line`, where `dist` itself is compared. -/
def collect (iter : List (Nat × List ℝ) → List (Nat × List ℝ)) (g : GridSearch) (near : List Nat) (dist : List ℝ → Res ℝ)
    (absolute : Bool) (filter : List ℝ → Bool) : Res (List Nat) :=
  near.foldlM
    (fun ids key =>
      match g.containers.get key with
      | none => .panic
      | some c =>
        (iter c).foldlM
          (fun ids e => do
            let d ← dist e.2
            .ok (if (if absolute then |d| else d) ≤ g.tolDist ∧ filter e.2 = true then e.1 :: ids else ids)) ids) []

variable (iterO : List (Nat × HMap Nat (List ℝ)) → List (Nat × HMap Nat (List ℝ)))
  (iter : List (Nat × List ℝ) → List (Nat × List ℝ)) (g : GridSearch)

/-- `GridSearch::search_on_line`, `/repo/src/util/grid_search.rs:356-386`. -/
def searchOnLine (a b : List ℝ) (filter : List ℝ → Bool) : Res (List Nat) :=
  if a.length ≠ g.ndim then .err "a.len() must equal ndim"
  else if b.length ≠ g.ndim then .err "b.len() must equal ndim"
  else do
    let near ← containersNear iterO g (pointLineDistance a b)
    collect iter g near (pointLineDistance a b) false filter

/-- `GridSearch::search_on_circle`, `/repo/src/util/grid_search.rs:401-431`. -/
def searchOnCircle (center : List ℝ) (radius : ℝ) (filter : List ℝ → Bool) : Res (List Nat) :=
  if g.ndim ≠ 2 then .err "search_on_circle works in 2D only"
  else if center.length ≠ g.ndim then .err "center.len() must equal ndim"
  else do
    let near ← containersNear iterO g (pointCircleDistance center radius)
    collect iter g near (pointCircleDistance center radius) true filter

/-- `GridSearch::search_on_cylinder`, `/repo/src/util/grid_search.rs:447-486`. -/
def searchOnCylinder (a b : List ℝ) (radius : ℝ) (filter : List ℝ → Bool) : Res (List Nat) :=
  if g.ndim ≠ 3 then .err "search_on_cylinder works in 3D only"
  else if a.length ≠ g.ndim then .err "a.len() must equal ndim"
  else if b.length ≠ g.ndim then .err "b.len() must equal ndim"
  else do
    let near ← containersNear iterO g (pointCylinderDistance a b radius)
    collect iter g near (pointCylinderDistance a b radius) true filter

/-- `search_on_plane_xy` (`dim = 2`), `search_on_plane_yz` (`dim = 0`), `search_on_plane_xz` (`dim = 1`),
`/repo/src/util/grid_search.rs:500-525, 541-566, 582-607` (identical up to the fixed dimension). -/
def searchOnPlane (dim : Nat) (coord : ℝ) (filter : List ℝ → Bool) : Res (List Nat) :=
  if g.ndim ≠ 3 then .err "search_on_plane works in 3D only"
  else do
    let near ← containersNear iterO g (fun x => .ok |at' x dim - coord|)
    collect iter g near (fun x => .ok |at' x dim - coord|) true filter

end GridSearch

/-- `util::calc_container_key`, `/repo/src/util/calc_container_key.rs:9-26` (used by `GridCells`; no range check). -/
def utilContainerKey (ndim : Nat) (side : ℝ) (ndiv : List Nat) (xmin x : List ℝ) : Nat :=
  let ix := ⌊(at' x 0 - at' xmin 0) / side⌋₊
  let iy := ⌊(at' x 1 - at' xmin 1) / side⌋₊
  let ix := if ix = ndiv.getD 0 0 then ix - 1 else ix
  let iy := if iy = ndiv.getD 1 0 then iy - 1 else iy
  if ndim = 2 then ix + iy * ndiv.getD 0 0
  else
    let iz := ⌊(at' x 2 - at' xmin 2) / side⌋₊
    let iz := if iz = ndiv.getD 2 0 then iz - 1 else iz
    ix + iy * ndiv.getD 0 0 + iz * ndiv.getD 0 0 * ndiv.getD 1 0

end
end Gemlab
