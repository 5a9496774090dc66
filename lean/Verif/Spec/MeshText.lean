import Verif.Model.MeshText

/-!
# What a text denotes (specification of the mesh format)

Independent of the loops of the parser: the *data lines* of a text are its lines other than comments and blank lines, each cut into
words; a mesh is denoted by a text if the data lines are the header, followed by the points, the cells, the marked edges and the
marked faces, in this order, possibly followed by other lines.
-/
namespace Gemlab.MeshText
open Gemlab Gemlab.Mesh

/-- The data lines of a text. -/
def dataLines (t : Text) : List (List Text) := (lines t).filterMap dataOf

/-- The decimal digits and their values. -/
def decimalDigits : List (Char × Nat) := [('0', 0), ('1', 1), ('2', 2), ('3', 3), ('4', 4), ('5', 5), ('6', 6), ('7', 7), ('8', 8), ('9', 9)]

/-- A non-empty sequence of decimal digits with the value `n`. -/
inductive IsDecimal : Text → Nat → Prop
  | one {c d} : (c, d) ∈ decimalDigits → IsDecimal [c] d
  | more {w n c d} : IsDecimal w n → (c, d) ∈ decimalDigits → IsDecimal (w ++ [c]) (10 * n + d)

/-- A word that denotes the number `n` of type `usize`: digits, possibly after a plus sign. -/
def IsUsizeWord (w : Text) (n : Nat) : Prop := n < 2 ^ 64 ∧ (IsDecimal w n ∨ ∃ r, w = '+' :: r ∧ IsDecimal r n)

/-- A word that denotes the number `n` of type `i32`: digits, possibly after a sign. -/
def IsI32Word (w : Text) (n : Int) : Prop :=
  -2 ^ 31 ≤ n ∧ n < 2 ^ 31 ∧ ∃ v : Nat, (n = v ∧ (IsDecimal w v ∨ ∃ r, w = '+' :: r ∧ IsDecimal r v)) ∨ (n = -v ∧ ∃ r, w = '-' :: r ∧ IsDecimal r v)

variable {K : Type} [Zero K]

/-- The words are decimal numbers with these values. -/
def AreNats (ws : List Text) (ns : List Nat) : Prop := List.Forall₂ (fun w n => parseUsize w = some n) ws ns

/-- The header (further words are ignored). -/
def IsHeader (ws : List Text) (m : Mesh K) : Prop :=
  5 ≤ ws.length ∧
  AreNats (ws.take 5) [m.ndim, m.points.length, m.cells.length, m.markedEdges.length, m.markedFaces.length]

/-- Line of a point: id, marker and coordinates. (For `ndim > 3`, only two coordinates are read and the others are zero.) -/
def IsPoint (ft : FloatText K) (ndim : Nat) (ws : List Text) (p : Point K) : Prop :=
  ∃ wid wm wx, ws = wid :: wm :: wx ∧ parseUsize wid = some p.id ∧ parseI32 wm = some p.marker ∧
    ∃ xs, List.Forall₂ (fun w x => ft.parse w = some x) wx xs ∧
      xs.length = (if ndim = 3 then 3 else 2) ∧ p.coords = xs ++ List.replicate (ndim - xs.length) 0

/-- Line of a cell: id, marker, kind, points. -/
def IsCell (ws : List Text) (c : Cell) : Prop :=
  ∃ wid wm wk wp, ws = wid :: wm :: wk :: wp ∧ parseUsize wid = some c.id ∧ parseI32 wm = some c.marker ∧
    GeoKind.fromString (String.ofList wk) = some c.kind ∧ AreNats wp c.points ∧ c.points.length = c.kind.nnode

/-- Line of a marked edge: marker and two points. -/
def IsEdge (ws : List Text) (e : Int × Nat × Nat) : Prop :=
  ∃ wm wp, ws = wm :: wp ∧ parseI32 wm = some e.1 ∧ AreNats wp [e.2.1, e.2.2]

/-- Line of a marked face: marker and three points, or marker, four points and anything else. -/
def IsFace (ws : List Text) (e : Int × Nat × Nat × Nat × Nat) : Prop :=
  ∃ wm wp, ws = wm :: wp ∧ parseI32 wm = some e.1 ∧
    (AreNats wp [e.2.1, e.2.2.1, e.2.2.2.1] ∧ e.2.2.2.2 = usizeMax ∨
     4 ≤ wp.length ∧ AreNats (wp.take 4) [e.2.1, e.2.2.1, e.2.2.2.1, e.2.2.2.2])

/-- The list of data lines denotes the mesh. (The last two conditions: if there are no points or no cells, nothing may follow.) -/
def Denotes (ft : FloatText K) (ds : List (List Text)) (m : Mesh K) : Prop :=
  ∃ header pts cls es fs rest, ds = header :: (pts ++ cls ++ es ++ fs ++ rest) ∧
    IsHeader header m ∧
    List.Forall₂ (IsPoint ft m.ndim) pts m.points ∧ (∀ (i : Nat) p, m.points[i]? = some p → p.id = i) ∧
    (m.points ≠ [] → 2 ≤ m.ndim) ∧
    List.Forall₂ IsCell cls m.cells ∧ (∀ (i : Nat) c, m.cells[i]? = some c → c.id = i) ∧
    List.Forall₂ IsEdge es m.markedEdges ∧
    List.Forall₂ IsFace fs m.markedFaces ∧
    (m.points = [] → cls ++ es ++ fs ++ rest = []) ∧
    (m.cells = [] → es ++ fs ++ rest = [])

end Gemlab.MeshText

namespace Gemlab.MeshText
open Gemlab Gemlab.Mesh
variable {K : Type}

/-- The range of `i32`. -/
def InI32 (n : Int) : Prop := -2 ^ 31 ≤ n ∧ n < 2 ^ 31

/-- All integers of the mesh are values of their machine types. (True of every value of type `Mesh`.) -/
structure MachineRange (m : Mesh K) : Prop where
  npoint : m.points.length ≤ usizeMax
  ncell : m.cells.length ≤ usizeMax
  nedge : m.markedEdges.length ≤ usizeMax
  nface : m.markedFaces.length ≤ usizeMax
  points : ∀ p ∈ m.points, InI32 p.marker
  cells : ∀ c ∈ m.cells, InI32 c.marker ∧ ∀ p ∈ c.points, p ≤ usizeMax
  edges : ∀ e ∈ m.markedEdges, InI32 e.1 ∧ e.2.1 ≤ usizeMax ∧ e.2.2 ≤ usizeMax
  faces : ∀ f ∈ m.markedFaces, InI32 f.1 ∧ f.2.1 ≤ usizeMax ∧ f.2.2.1 ≤ usizeMax ∧ f.2.2.2.1 ≤ usizeMax ∧ f.2.2.2.2 ≤ usizeMax

/-- Structure of a mesh: dimension, sequential ids, number of coordinates and number of points of each cell. -/
structure WellFormed (m : Mesh K) : Prop where
  dim : m.ndim = 2 ∨ m.ndim = 3
  pointIds : ∀ (i : Nat) p, m.points[i]? = some p → p.id = i
  coords : ∀ p ∈ m.points, p.coords.length = m.ndim
  cellIds : ∀ (i : Nat) c, m.cells[i]? = some c → c.id = i
  cellPoints : ∀ c ∈ m.cells, c.points.length = c.kind.nnode

/-- Formatting and parsing of floats is lossless on the coordinates of the mesh: a formatted number is a non-empty word (without white
space) and parsing it gives the number back. -/
def LosslessOn (ft : FloatText K) (m : Mesh K) : Prop :=
  ∀ p ∈ m.points, ∀ x ∈ p.coords, ft.parse (ft.fmt x) = some x ∧ ft.fmt x ≠ [] ∧ ∀ c ∈ ft.fmt x, isWs c = false

end Gemlab.MeshText
