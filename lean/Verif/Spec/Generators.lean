import Verif.Model.Generators
import Verif.Spec.Block

/-!
# Structured meshes: what the generators promise

A structured mesh is described without reference to blocks and to the numbering of the points: cells at the places `(i, j, k)` of a grid,
whose lines are at given positions ("ticks") along each direction, and a map from these positions to space.
-/
namespace Gemlab.Structured
noncomputable section
open Gemlab.Mesh Gemlab.Shapes Gemlab.Block

/-- The position of node `m` of the cell `(i, j, k)`: the reference cell is mapped linearly to the box between consecutive ticks. -/
def tickPos (ndim : Nat) (tick : Nat → Nat → ℝ) (target : GeoKind) (i j k m : Nat) : List ℝ :=
  (List.range ndim).map fun a => tick a (pick i j k a) + (tick a (pick i j k a + 1) - tick a (pick i j k a)) * ((1 + refCoord target m a) / 2)

/-- The point of node `m` of cell number `c` of a mesh. -/
def ptOf (M : Mesh ℝ) (c m : Nat) : Nat := (((M.cells[c]?).map (·.points)).getD []).getD m 0

/-- The mesh consists of cells of the kind `target`, one for each place `(i, j, k)` in `S`; `num` gives the number of the cell and `marker`
its marker. -/
structure IsPatch (ndim : Nat) (target : GeoKind) (S : Nat → Nat → Nat → Prop) (tick : Nat → Nat → ℝ) (place : List ℝ → List ℝ)
    (marker : Nat → Nat → Nat → Int) (num : Nat → Nat → Nat → Nat) (M : Mesh ℝ) : Prop where
  space : M.ndim = ndim
  /-- every place has one cell -/
  cell : ∀ i j k, S i j k → ∃ c, M.cells[num i j k]? = some c ∧ c.id = num i j k ∧ c.marker = marker i j k ∧ c.kind = target ∧ c.points.length = target.nnode
  /-- and there are no others -/
  inj : ∀ i j k i' j' k', S i j k → S i' j' k' → num i j k = num i' j' k' → i = i' ∧ j = j' ∧ k = k'
  onto : ∀ c < M.cells.length, ∃ i j k, S i j k ∧ num i j k = c
  /-- the nodes are where they should be -/
  coords : ∀ i j k m, S i j k → m < target.nnode → ptOf M (num i j k) m < M.points.length ∧
    coordsOf M (ptOf M (num i j k) m) = place (tickPos ndim tick target i j k m)
  /-- two nodes are the same point of the mesh exactly if they are at the same position: the cells fit together -/
  shared : ∀ i j k m i' j' k' m', S i j k → S i' j' k' → m < target.nnode → m' < target.nnode →
    (ptOf M (num i j k) m = ptOf M (num i' j' k') m' ↔ tickPos ndim tick target i j k m = tickPos ndim tick target i' j' k' m')
  /-- the points are numbered, have no marker, and all are used -/
  points : ∀ (p : Nat) pt, M.points[p]? = some pt → pt.id = p ∧ pt.marker = 0 ∧ pt.coords.length = ndim ∧
    ∃ i j k m, S i j k ∧ m < target.nnode ∧ ptOf M (num i j k) m = p

/-- All places of a grid with `n 0 × n 1 × n 2` cells (in 2D, `n 2 = 1`). -/
def Box (n : Nat → Nat) (i j k : Nat) : Prop := i < n 0 ∧ j < n 1 ∧ k < n 2

/-- The numbering with the first direction first. -/
def rowMajor (n : Nat → Nat) (i j k : Nat) : Nat := i + n 0 * (j + n 1 * k)

/-- Ticks proportional to weights: from 0 to 1. -/
def weightTicks (w : List ℝ) (i : Nat) : ℝ := (w.take i).sum / w.sum

/-- Equally spaced ticks from 0 to 1. -/
def evenTicks (n i : Nat) : ℝ := i / n

/-- The grid of a quarter ring: weights along the radius, equal divisions along the angle and z. -/
def ringTicks (wr : List ℝ) (na nz : Nat) (a : Nat) : Nat → ℝ := if a = 0 then weightTicks wr else if a = 1 then evenTicks na else evenTicks nz

/-- Number of cells along the directions. -/
def ringDivs (wr : List ℝ) (na nz : Nat) (a : Nat) : Nat := if a = 0 then wr.length else if a = 1 then na else nz

/-- Polar coordinates: the first coordinate is mapped to the radius, from `rmin` to `rmax`, the second one to the angle, from 0 to 90°. -/
def polar (rmin rmax : ℝ) (p : List ℝ) : List ℝ :=
  [(rmin + p.getD 0 0 * (rmax - rmin)) * Real.cos (p.getD 1 0 * (Real.pi / 2)), (rmin + p.getD 0 0 * (rmax - rmin)) * Real.sin (p.getD 1 0 * (Real.pi / 2))]

/-- Cylindrical coordinates: in addition, the third coordinate is mapped to the height, from 0 to `z`. -/
def cylindrical (rmin rmax z : ℝ) (p : List ℝ) : List ℝ := polar rmin rmax p ++ [p.getD 2 0 * z]

/-- The weights are not too small for the search grid of the subdivision. -/
def WeightsOk (w : List ℝ) : Prop := ∀ v ∈ w, 35 / 10 ^ 5 * w.sum < v

/-- The number of equal divisions is not too large for the search grid of the subdivision. -/
def CountOk (n : Nat) : Prop := n < 2857

/-! ## Rectangle -/

/-- Consecutive intervals with the given ends, interval number `l` divided into `divs[l]` equal parts: the position of the line number `i`. -/
def segTicks : List ℝ → List Nat → Nat → ℝ
  | a :: b :: rest, n :: ns, i => if i ≤ n then a + (b - a) * evenTicks n i else segTicks (b :: rest) ns (i - n)
  | a :: _, _, _ => a
  | [], _, _ => 0

/-- The number of the interval of division `j`. -/
def segOf : List Nat → Nat → Nat
  | n :: ns, j => if j < n then 0 else 1 + segOf ns (j - n)
  | [], _ => 0

/-- The x-coordinates and the divisions along x of the rectangle. -/
def rectX (xa : ℝ) (xb : Option ℝ) (xc : ℝ) : List ℝ := match xb with | some x => [xa, x, xc] | none => [xa, xc]
def rectN (xb : Option ℝ) (na nb : Nat) : List Nat := match xb with | some _ => [na, nb] | none => [na]

/-- The lines of the grid of the rectangle. -/
def rectTicks (xa : ℝ) (xb : Option ℝ) (xc : ℝ) (na nb : Nat) (y : List ℝ) (ny : List Nat) (a : Nat) : Nat → ℝ :=
  if a = 0 then segTicks (rectX xa xb xc) (rectN xb na nb) else segTicks y ny

/-- The number of cells of the rectangle. -/
def rectDivs (xb : Option ℝ) (na nb : Nat) (ny : List Nat) (a : Nat) : Nat := if a = 0 then (rectN xb na nb).sum else if a = 1 then ny.sum else 1

/-- The numbers of the cells: the layers one after the other; in each layer first the cells before `xb`, then the others. -/
def rectNum (xb : Option ℝ) (na nb : Nat) (ny : List Nat) (i j _k : Nat) : Nat :=
  let l := segOf ny j
  let below := (ny.take l).sum
  (rectN xb na nb).sum * below + if i < na then i + na * (j - below) else na * ny.getD l 0 + (i - na) + nb * (j - below)

/-- What is needed for the rectangle, and not checked in this form: the coordinates can be represented, there are not too many divisions, and
the cells are larger than the tolerance of joining (the smallest distance of nodes is a fourth of the size of the cell). -/
structure RectOk (xa : ℝ) (xb : Option ℝ) (xc : ℝ) (na nb : Nat) (y : List ℝ) (ny : List Nat) : Prop where
  limX : -f64Max ≤ xa ∧ xc ≤ f64Max
  limY : ∀ v ∈ y, -f64Max ≤ v ∧ v ≤ f64Max
  count : (∀ n ∈ rectN xb na nb, CountOk n) ∧ ∀ n ∈ ny, CountOk n
  size : ∀ a < 2, ∀ i < rectDivs xb na nb ny a, 6 / 10 ^ 4 < rectTicks xa xb xc na nb y ny a (i + 1) - rectTicks xa xb xc na nb y ny a i

end
end Gemlab.Structured
