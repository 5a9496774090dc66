import Verif.Model.GridSearch

/-!
# `GridSearch` with rounding (`/repo/src/util/grid_search.rs`, `num_divisions.rs`, `/repo/src/geometry/algorithms.rs`)

The same functions as in `Model/GridSearch`, but each arithmetic operation is followed by the rounding `fl`, as on a computer; constants and integers
converted to floats are rounded, too. Not modelled: overflow, underflow, infinities and NaN (the values of `fl` are real numbers), and the queries for lines,
circles, cylinders and planes. The other simplifications are those of `Model/GridSearch`. `C88_exact` shows that the functions are those of
`Model/GridSearch` if `fl` does nothing.
-/
namespace Gemlab.Rounded
noncomputable section
open Classical

variable (fl : ℝ → ℝ)

/-- `point_point_distance`, `/repo/src/geometry/algorithms.rs:28-44`. -/
def pointPointDistance (a b : List ℝ) : Res ℝ :=
  if a.length < 2 ∨ a.length > 3 then .err "a.len() == ndim must be 2 or 3"
  else if b.length ≠ a.length then .err "b.len() must equal a.len() == ndim"
  else
    let sq := fun i => fl (fl (at' b i - at' a i) * fl (at' b i - at' a i))
    if a.length = 2 then .ok (fl (Real.sqrt (fl (sq 0 + sq 1))))
    else .ok (fl (Real.sqrt (fl (fl (sq 0 + sq 1) + sq 2))))

/-- `num_divisions`, `/repo/src/util/num_divisions.rs:42-78`. -/
def numDivisions (ndivMin ndivLong : Nat) (xmin xmax : List ℝ) : Res (List Nat) :=
  if ndivMin < 1 then .err "ndiv_min must be ≥ 1"
  else if ndivLong ≤ ndivMin then .err "ndiv_long must be > ndiv_min"
  else if xmin.length ≠ xmax.length then .err "xmin.len() must be equal to xmax.len()"
  else
    let ndim := xmin.length
    if ndim < 2 then .err "ndim must be ≥ 2"
    else
      let delta := List.zipWith (fun a b => fl (b - a)) xmin xmax
      let long := (List.range' 1 (ndim - 1)).foldl
        (fun (s : Nat × ℝ) i => if at' delta i > s.2 then (i, at' delta i) else s) (0, at' delta 0)
      (List.range ndim).mapM fun i =>
        if at' delta i ≤ 0 then .err "xmax must be greater than xmin"
        else if i = long.1 then .ok ndivLong
        else .ok (max ndivMin ⌊fl (fl (at' delta i / long.2) * fl (ndivLong : ℝ))⌋₊)

/-- `GridSearch::new`, `/repo/src/util/grid_search.rs:151-255`. -/
def new (xmin xmax : List ℝ) (ndiv : Option Nat) (tolerance borderTol : Option ℝ) : Res GridSearch :=
  let ndim := xmin.length
  if ndim < 2 ∨ ndim > 3 then .err "xmin.len() = ndim must be 2 or 3"
  else if xmax.length ≠ ndim then .err "xmax.len() must equal ndim = xmin.len()"
  else
    let ndivLong := ndiv.getD 100
    if ndivLong < 1 then .err "ndiv must be ≥ 1"
    else do
      let ndiv ← numDivisions fl 1 ndivLong xmin xmax
      let coefficient := [1, ndiv.getD 0 0, ndiv.getD 0 0 * ndiv.getD 1 0]
      let tolerance := tolerance.getD (fl (1 / 10000))
      if tolerance ≤ 0 then .err "tolerance must be > 0.0"
      else
        let borderTol := borderTol.getD (fl (1 / 100))
        if borderTol < 0 then .err "border_tol must be ≥ 0.0"
        else
          let xmin := if borderTol > 0 then xmin.map (fun v => fl (v - borderTol)) else xmin
          let xmax := if borderTol > 0 then xmax.map (fun v => fl (v + borderTol)) else xmax
          let length := fun i => fl (fl (at' xmax i - at' xmin i) / fl ((ndiv.getD i 0 : Nat) : ℝ))
          let sideLength := (List.range' 1 (ndim - 1)).foldl (fun s i => max s (length i)) (length 0)
          if sideLength ≤ fl (2 * tolerance) then
            .err "(xmax-xmin)/ndiv must be > 2·tolerance; reduce the tolerance (or ndiv)"
          else
            let xmax := (List.range ndim).map fun i => fl (at' xmin i + fl (sideLength * fl ((ndiv.getD i 0 : Nat) : ℝ)))
            let tolDist := if ndim = 2 then fl (fl (Real.sqrt 2) * tolerance) else fl (fl (Real.sqrt 3) * tolerance)
            let radius := if ndim = 2 then fl (fl (fl (Real.sqrt 2) * sideLength) / 2) else fl (fl (fl (Real.sqrt 3) * sideLength) / 2)
            .ok { ndim := ndim, ndiv := ndiv, xmin := xmin, xmax := xmax, coefficient := coefficient,
                  sideLength := sideLength, tolerance := tolerance, tolDist := tolDist,
                  radius := radius, containers := [] }

/-- Body of the loop of `GridSearch::calc_container_key` (`ratio[i]`), `/repo/src/util/grid_search.rs:665-669`. -/
def ratio (g : GridSearch) (x : List ℝ) (i : Nat) : Nat :=
  let r := ⌊fl (fl (at' x i - at' g.xmin i) / g.sideLength)⌋₊
  if r = g.ndiv.getD i 0 then r - 1 else r

/-- `GridSearch::calc_container_key`, `/repo/src/util/grid_search.rs:658-673`. -/
def calcContainerKey (g : GridSearch) (x : List ℝ) : Option Nat :=
  (List.range g.ndim).foldlM
    (fun key i =>
      if at' x i < at' g.xmin i ∨ at' x i > at' g.xmax i then none
      else some (key + ratio fl g x i * g.coefficient.getD i 0)) 0

/-- `GridSearch::set_halo`, `/repo/src/util/grid_search.rs:778-824` (returns the corners). -/
def setHalo (g : GridSearch) (x : List ℝ) : List (List ℝ) :=
  let lo := fun i => fl (at' x i - g.tolerance)
  let hi := fun i => fl (at' x i + g.tolerance)
  if g.ndim = 2 then [[lo 0, lo 1], [hi 0, lo 1], [hi 0, hi 1], [lo 0, hi 1]]
  else
    [[lo 0, lo 1, lo 2], [hi 0, lo 1, lo 2], [hi 0, hi 1, lo 2], [lo 0, hi 1, lo 2],
     [lo 0, lo 1, hi 2], [hi 0, lo 1, hi 2], [hi 0, hi 1, hi 2], [lo 0, hi 1, hi 2]]

/-- `GridSearch::insert`, `/repo/src/util/grid_search.rs:278-305`. -/
def insert (g : GridSearch) (id : Nat) (x : List ℝ) : Res GridSearch :=
  if x.length ≠ g.ndim then .err "x.len() must equal ndim"
  else
    match calcContainerKey fl g x with
    | none => .err "cannot insert point because its coordinates are outside the grid"
    | some key =>
      .ok ((setHalo fl g x).foldl
        (fun g' corner =>
          match calcContainerKey fl g' corner with
          | some keyCorner => if keyCorner ≠ key then GridSearch.updateOrInsert g' keyCorner id x else g'
          | none => g')
        (GridSearch.updateOrInsert g key id x))

/-- Loop of `GridSearch::search`, `/repo/src/util/grid_search.rs:335-340`. -/
def searchLoop (tolDist : ℝ) (x : List ℝ) : List (Nat × List ℝ) → Res (Option Nat)
  | [] => .ok none
  | (id, xo) :: rest => do
    let distance ← pointPointDistance fl xo x
    if distance ≤ tolDist then .ok (some id) else searchLoop tolDist x rest

/-- `GridSearch::search`, `/repo/src/util/grid_search.rs:316-342`; `iter` is the iteration order of the hash map. -/
def search (iter : List (Nat × List ℝ) → List (Nat × List ℝ)) (g : GridSearch) (x : List ℝ) : Res (Option Nat) :=
  if x.length ≠ g.ndim then .err "x.len() must equal ndim"
  else
    match calcContainerKey fl g x with
    | none => .err "cannot find point because the coordinates are outside the grid"
    | some key =>
      match g.containers.get key with
      | none => .ok none
      | some c => searchLoop fl g.tolDist x (iter c)

end
end Gemlab.Rounded
