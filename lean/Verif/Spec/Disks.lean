import Verif.Spec.Blocks

/-!
# Quarter disks and plates with a hole: what the generators promise

All meshes are put together from the meshes of a few blocks. The blocks are described by geometry: points given by their distance from
the origin and their angle, sides that are on a circle around the origin, and (in space) prisms above such blocks.
-/
namespace Gemlab.Structured
noncomputable section
open Classical
open Gemlab.Mesh Gemlab.Shapes Gemlab.Block

/-- The point at the distance `R` from the origin and at the angle `t` (in units of 90°). -/
def angular (R t : ℝ) : List ℝ := [R * Real.cos (t * (Real.pi / 2)), R * Real.sin (t * (Real.pi / 2))]

/-- The point in the middle between two points. -/
def between (x y : List ℝ) : List ℝ := List.zipWith (fun a b => (a + b) / 2) x y

/-- A block: its nodes (4 or 8 in the plane; 8 or 20 in space), the numbers of equal divisions, and the sides that are on a circle around the
origin (a cylinder around the z-axis), with the radius. -/
structure Piece where
  nodes : List (List ℝ)
  ndiv : List Nat
  arcs : List (Nat × ℝ)

/-- Coordinate `j` of node `m`. -/
def Piece.at_ (P : Piece) (m j : Nat) : ℝ := at' (P.nodes.getD m []) j

/-- The circle (cylinder) of radius `R`. -/
def around (R : ℝ) : Surface := ⟨0, 1, 0, 0, R⟩

/-- The constraint of side `s`. -/
def Piece.constraint (P : Piece) (s : Nat) : Option Surface := (P.arcs.find? fun q => q.1 = s).map fun q => around q.2

/-- `A` is the mesh of the block: its subdivision into equal parts, all cells having the marker 1; no edge and no face is marked. -/
def IsPieceMesh (inv : MatInverse) (ndim : Nat) (P : Piece) (target : GeoKind) (A : Mesh ℝ) : Prop :=
  (∃ b, HasSettings inv P.nodes.length ndim P.at_ 1 P.ndiv (P.ndiv.map equalDivisions) P.constraint (fun _ => none) (fun _ => none) b ∧ IsSubdivision b target A) ∧
  A.markedEdges = [] ∧ A.markedFaces = []

/-- The results `run false` (and `run true`, with renumbering) of a generator consist of the meshes of the blocks, put together (if they can be). -/
def MadeOf (inv : MatInverse) (ndim : Nat) (pieces : List Piece) (target : GeoKind) (run : Bool → Res (Mesh ℝ)) : Prop :=
  ∃ ms : List (Mesh ℝ), ms.length = pieces.length ∧
    (∀ (i : Nat) (P : Piece) (A : Mesh ℝ), pieces[i]? = some P → ms[i]? = some A → IsPieceMesh inv ndim P target A) ∧
    (CanAssemble ndim ms → ∃ M, run false = .ok M ∧ IsAssembly ms M ∧ ∀ M', run true = .ok M' → Reordered M M')

/-! ## The blocks in the plane -/

/-- Quarter disk, version A: a block at the origin (with straight sides) and two blocks from there to the circle. -/
def diskA (r : ℝ) (na nb : Nat) : List Piece :=
  [⟨[[0, 0], angular (r / 2) 0, angular (1.15 * (r / 2)) (1 / 2), angular (r / 2) 1], [na, na], []⟩,
   ⟨[angular (r / 2) 0, angular r 0, angular r (1 / 2), angular (1.15 * (r / 2)) (1 / 2)], [nb, na], [(1, r)]⟩,
   ⟨[angular (r / 2) 1, angular (1.15 * (r / 2)) (1 / 2), angular r (1 / 2), angular r 1], [na, nb], [(2, r)]⟩]

/-- Quarter disk, version B: the block at the origin is (almost) a quarter disk of radius `a` itself. -/
def diskB (a r : ℝ) (na nb : Nat) : List Piece :=
  [⟨[[0, 0], angular a 0, angular a (1 / 2), angular a 1, angular (a / 2) 0, angular a (1 / 4), angular a (3 / 4), angular (a / 2) 1], [na, na], []⟩,
   ⟨[angular a 0, angular r 0, angular r (1 / 2), angular a (1 / 2), angular ((a + r) / 2) 0, angular r (1 / 4), angular ((a + r) / 2) (1 / 2), angular a (1 / 4)],
     [nb, na], [(1, r)]⟩,
   ⟨[angular a 1, angular a (1 / 2), angular r (1 / 2), angular r 1, angular a (3 / 4), angular ((a + r) / 2) (1 / 2), angular r (3 / 4), angular ((a + r) / 2) 1],
     [na, nb], [(2, r)]⟩]

/-- Quarter of a square plate with a hole: two blocks of a ring with the radii `r` and `r + a`, and two blocks from there to the sides of the
square, at the distance `b` from the ring. -/
def plate (r a b : ℝ) (na nb n45 : Nat) : List Piece :=
  let R := r + a
  let l := r + a + b
  [⟨[angular r 0, angular R 0, angular R (1 / 2), angular r (1 / 2),
      angular ((r + R) / 2) 0, angular R (1 / 4), angular ((r + R) / 2) (1 / 2), angular r (1 / 4)], [na, n45], [(3, r), (1, R)]⟩,
   ⟨[angular r (1 / 2), angular R (1 / 2), angular R 1, angular r 1,
      angular ((r + R) / 2) (1 / 2), angular R (3 / 4), angular ((r + R) / 2) 1, angular r (3 / 4)], [na, n45], [(3, r), (1, R)]⟩,
   ⟨[angular R 0, [l, 0], [l, l], angular R (1 / 2),
      between (angular R 0) [l, 0], [l, l / 2], between (angular R (1 / 2)) [l, l], angular R (1 / 4)], [nb, n45], [(3, R)]⟩,
   ⟨[angular R (1 / 2), [l, l], [0, l], angular R 1,
      between (angular R (1 / 2)) [l, l], [l / 2, l], between (angular R 1) [0, l], angular R (3 / 4)], [nb, n45], [(3, R)]⟩]

/-! ## The blocks in space -/

/-- The face above a side: in the plane the sides are bottom, right, top, left; in space x-, x+, y-, y+. -/
def faceAbove (s : Nat) : Nat := if s = 0 then 2 else if s = 1 then 1 else if s = 2 then 3 else 0

/-- The nodes of the prism of height `z`: corners below, corners above, middle nodes below, middle nodes above, middle nodes of the vertical edges. -/
def prismNodes (z : ℝ) (nodes : List (List ℝ)) : List (List ℝ) :=
  (nodes.take 4).map (· ++ [0]) ++ (nodes.take 4).map (· ++ [z]) ++ (nodes.drop 4).map (· ++ [0]) ++ (nodes.drop 4).map (· ++ [z]) ++
    (if nodes.length = 4 then [] else (nodes.take 4).map (· ++ [z / 2]))

/-- The prism above a block of the plane. -/
def prism (z : ℝ) (nz : Nat) (P : Piece) : Piece := ⟨prismNodes z P.nodes, P.ndiv ++ [nz], P.arcs.map fun q => (faceAbove q.1, q.2)⟩

/-! ## What the generators accept -/

/-- The common sides of the blocks of a disk: block, side, block, side. -/
def diskSeams : List (Nat × Nat × Nat × Nat) := [(0, 1, 1, 3), (0, 2, 2, 0), (1, 2, 2, 1)]

/-- The common sides of the blocks of a plate. -/
def plateSeams : List (Nat × Nat × Nat × Nat) := [(0, 2, 1, 0), (0, 1, 2, 3), (1, 1, 3, 3), (2, 2, 3, 0)]

/-- The same in space. -/
def seamsAbove (seams : List (Nat × Nat × Nat × Nat)) : List (Nat × Nat × Nat × Nat) := seams.map fun q => (q.1, faceAbove q.2.1, q.2.2.1, faceAbove q.2.2.2)

/-- The straight sides of a disk: block, side, coordinate, value (the sides on the x-axis have y = 0, the sides on the y-axis have x = 0). -/
def diskStraight : List (Nat × Nat × Nat × ℝ) := [(0, 0, 1, 0), (1, 0, 1, 0), (0, 3, 0, 0), (2, 3, 0, 0)]

/-- The straight sides of a plate: the axes and the outer sides. -/
def plateStraight (l : ℝ) : List (Nat × Nat × Nat × ℝ) := [(0, 0, 1, 0), (2, 0, 1, 0), (1, 2, 0, 0), (3, 2, 0, 0), (2, 1, 0, l), (3, 1, 1, l)]

/-- The same in space. -/
def straightAbove (sides : List (Nat × Nat × Nat × ℝ)) : List (Nat × Nat × Nat × ℝ) := sides.map fun q => (q.1, faceAbove q.2.1, q.2.2)

/-- The blocks made from acceptable data, with their common sides and their straight sides. -/
inductive Generated : Nat → List Piece → List (Nat × Nat × Nat × Nat) → List (Nat × Nat × Nat × ℝ) → Prop
  | diskA {r : ℝ} {na nb : Nat} : 2 / 10 ^ 8 ≤ r → 1 ≤ na → CountOk na → 1 ≤ nb → CountOk nb → Generated 2 (diskA r na nb) diskSeams diskStraight
  | diskB {a r : ℝ} {na nb : Nat} : 0 < a → a < r → 2 / 10 ^ 8 ≤ r → 1 ≤ na → CountOk na → 1 ≤ nb → CountOk nb → Generated 2 (diskB a r na nb) diskSeams diskStraight
  | plate {r a b : ℝ} {na nb n45 : Nat} : 2 / 10 ^ 8 ≤ r → 0 < a → 0 < b → 1 ≤ na → CountOk na → 1 ≤ nb → CountOk nb → 1 ≤ n45 → CountOk n45 →
      Generated 2 (plate r a b na nb n45) plateSeams (plateStraight (r + a + b))
  | above {pieces : List Piece} {seams : List (Nat × Nat × Nat × Nat)} {sides : List (Nat × Nat × Nat × ℝ)} {z : ℝ} {nz : Nat} : Generated 2 pieces seams sides → 0 < z → 1 ≤ nz → CountOk nz →
      Generated 3 (pieces.map (prism z nz)) (seamsAbove seams) (straightAbove sides)

/-! ## Coordinates -/

/-- The place of the position `p` (from 0 to 1 along each direction): the isoparametric map, projected onto the circle if `p` is on an arc. -/
def Piece.place (ndim : Nat) (P : Piece) (p : List ℝ) : List ℝ :=
  let ξ := p.map fun x => 2 * x - 1
  let x := isoMap P.nodes.length ndim P.at_ ξ
  match P.arcs.find? fun q => OnSide ndim q.1 ξ with
  | some q => (around q.2).project x
  | none => x

/-- Number of divisions along a direction (in the plane, there is one layer). -/
def Piece.divs (P : Piece) (a : Nat) : Nat := P.ndiv.getD a 1

/-- The position of node `m` of the cell `(i, j, k)`, from 0 to 1. -/
def Piece.pos (ndim : Nat) (P : Piece) (target : GeoKind) (i j k m : Nat) : List ℝ := tickPos ndim (fun a => evenTicks (P.divs a)) target i j k m

/-- The position is on side `s`. -/
def AtSide (ndim s : Nat) (p : List ℝ) : Prop := OnSide ndim s (p.map fun x => 2 * x - 1)

/-- The places of the points of the mesh `A` of the block `P` on side `s`. -/
def sidePlaces (ndim : Nat) (P : Piece) (target : GeoKind) (s : Nat) (A : Mesh ℝ) : Set (List ℝ) :=
  {x | ∃ i j k m, Box P.divs i j k ∧ m < target.nnode ∧ AtSide ndim s (P.pos ndim target i j k m) ∧ coordsOf A (ptOf A (rowMajor P.divs i j k) m) = x}

end
end Gemlab.Structured
