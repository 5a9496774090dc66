import Verif.Model.MeshJson
import Verif.Spec.MeshText
import Mathlib.Data.List.Forall2

/-!
# The JSON grammar (RFC 8259), as a specification of the reader of JSON files

A document is a sequence of tokens separated by any blanks; a value determines its tokens.
-/
namespace Gemlab.MeshJson
open Gemlab Gemlab.Mesh
open Gemlab.MeshText (Text showNat showInt IsUsizeWord IsI32Word InI32)

mutual
/-- The tokens of a value. -/
def toks : Json → List Tok
  | .null => [.null]
  | .bool b => [.bool b]
  | .num t => [.num t]
  | .str t => [.str t]
  | .arr l => .lbrack :: (toksElems l ++ [.rbrack])
  | .obj l => .lbrace :: (toksMembers l ++ [.rbrace])

/-- The tokens of the elements of an array, separated by commas. -/
def toksElems : List Json → List Tok
  | [] => []
  | [v] => toks v
  | v :: w :: l => toks v ++ .comma :: toksElems (w :: l)

/-- The tokens of the members of an object, separated by commas. -/
def toksMembers : List (Text × Json) → List Tok
  | [] => []
  | [(k, v)] => .str k :: .colon :: toks v
  | (k, v) :: m :: l => .str k :: .colon :: (toks v ++ .comma :: toksMembers (m :: l))
end

/-- Blanks of JSON (RFC 8259): space, line feed, carriage return, horizontal tab. -/
def Blank (c : Char) : Prop := c = ' ' ∨ c = '\n' ∨ c = '\r' ∨ c = '\t'

/-- The characters allowed in a string without an escape sequence. -/
def Unescaped (c : Char) : Prop := c ≠ '"' ∧ c ≠ '\\' ∧ 0x20 ≤ c.toNat

/-- The escape sequences of one letter and the characters they stand for. -/
def escapes : List (Char × Char) :=
  [('"', '"'), ('\\', '\\'), ('/', '/'), ('b', Char.ofNat 8), ('f', Char.ofNat 12), ('n', Char.ofNat 10), ('r', Char.ofNat 13), ('t', Char.ofNat 9)]

/-- Characters inside of a string and what they stand for. -/
inductive SpellsStr : Text → Text → Prop
  | nil : SpellsStr [] []
  | plain {c : Char} {s t : Text} : Unescaped c → SpellsStr s t → SpellsStr (c :: s) (c :: t)
  | escaped {c d : Char} {s t : Text} : (c, d) ∈ escapes → SpellsStr s t → SpellsStr (d :: s) ('\\' :: c :: t)

/-- The digits from 0 to 9. -/
def decimal (c : Char) : Bool := '0' ≤ c && c ≤ '9'

/-- A sequence of decimal digits that is not empty. -/
def Digits (t : Text) : Prop := t ≠ [] ∧ ∀ c ∈ t, decimal c = true

/-- Numbers: optional sign, integer part without superfluous zeros, optional decimals, optional exponent. -/
def IsNumber (t : Text) : Prop :=
  ∃ s i f e : Text, t = s ++ (i ++ (f ++ e)) ∧ (s = [] ∨ s = ['-']) ∧
    (Digits i ∧ (i.head? = some '0' → i = ['0'])) ∧
    (f = [] ∨ ∃ d, f = '.' :: d ∧ Digits d) ∧
    (e = [] ∨ ∃ c g d, e = c :: (g ++ d) ∧ (c = 'e' ∨ c = 'E') ∧ (g = [] ∨ g = ['+'] ∨ g = ['-']) ∧ Digits d)

/-- The ways of writing a token. -/
inductive Spells : Tok → Text → Prop
  | lbrace : Spells .lbrace ['{']
  | rbrace : Spells .rbrace ['}']
  | lbrack : Spells .lbrack ['[']
  | rbrack : Spells .rbrack [']']
  | comma : Spells .comma [',']
  | colon : Spells .colon [':']
  | null : Spells .null ['n', 'u', 'l', 'l']
  | true : Spells (.bool true) ['t', 'r', 'u', 'e']
  | false : Spells (.bool false) ['f', 'a', 'l', 's', 'e']
  | num {t : Text} : IsNumber t → Spells (.num t) t
  | str {s t : Text} : SpellsStr s t → Spells (.str s) ('"' :: (t ++ ['"']))

/-- A text that consists of the given tokens and of blanks between, before and after them. -/
inductive Layout : Text → List Tok → Prop
  | nil : Layout [] []
  | blank {c : Char} {t : Text} {ts : List Tok} : Blank c → Layout t ts → Layout (c :: t) ts
  | tok {k : Tok} {s t : Text} {ts : List Tok} : Spells k s → Layout t ts → Layout (s ++ t) (k :: ts)

/-- The text is a JSON document with the given value. -/
def Denotes (t : Text) (v : Json) : Prop := Layout t (toks v)

/-! ## Which values stand for a mesh -/

/-- A natural number (`usize`). -/
def IsNat (v : Json) (n : Nat) : Prop := ∃ t, v = .num t ∧ IsUsizeWord t n

/-- An integer (`i32`). -/
def IsInt (v : Json) (n : Int) : Prop := ∃ t, v = .num t ∧ t ≠ ['-', '0'] ∧ IsI32Word t n

/-- A coordinate. -/
def IsFloat {K : Type} (F : JsonFloat K) (v : Json) (x : K) : Prop := ∃ t, v = .num t ∧ F.parse t = some x

/-- An array: one value for each element. -/
def IsList {α : Type} (R : Json → α → Prop) (v : Json) (l : List α) : Prop := ∃ vs, v = .arr vs ∧ List.Forall₂ R vs l

/-- The fields of a struct: an object in which each name occurs in exactly one member (in any order, among any other members), or an array
with the values of the fields in the order of the names. -/
def HasFields (names : List String) (v : Json) (vs : List Json) : Prop :=
  (∃ ms, v = .obj ms ∧ List.Forall₂ (fun n x => ms.filter (fun m => m.1 == n.toList) = [(n.toList, x)]) names vs) ∨
    v = .arr vs ∧ vs.length = names.length

/-- The names of the kinds of cells in the files. -/
def kindText : GeoKind → Text
  | .lin2 => "Lin2".toList
  | .lin3 => "Lin3".toList
  | .lin4 => "Lin4".toList
  | .lin5 => "Lin5".toList
  | .tri3 => "Tri3".toList
  | .tri6 => "Tri6".toList
  | .tri10 => "Tri10".toList
  | .tri15 => "Tri15".toList
  | .qua4 => "Qua4".toList
  | .qua8 => "Qua8".toList
  | .qua9 => "Qua9".toList
  | .qua12 => "Qua12".toList
  | .qua16 => "Qua16".toList
  | .qua17 => "Qua17".toList
  | .tet4 => "Tet4".toList
  | .tet10 => "Tet10".toList
  | .tet20 => "Tet20".toList
  | .hex8 => "Hex8".toList
  | .hex20 => "Hex20".toList
  | .hex32 => "Hex32".toList

/-- The name of a kind of cell (or an object with this name and `null`). -/
def IsKind (v : Json) (k : GeoKind) : Prop := v = .str (kindText k) ∨ v = .obj [(kindText k, .null)]

/-- A point. -/
def IsPoint {K : Type} (F : JsonFloat K) (v : Json) (p : Point K) : Prop :=
  ∃ i m x, HasFields ["id", "marker", "coords"] v [i, m, x] ∧ IsNat i p.id ∧ IsInt m p.marker ∧ IsList (IsFloat F) x p.coords

/-- A cell. -/
def IsCell (v : Json) (c : Cell) : Prop :=
  ∃ i m k p, HasFields ["id", "marker", "kind", "points"] v [i, m, k, p] ∧ IsNat i c.id ∧ IsInt m c.marker ∧ IsKind k c.kind ∧
    IsList IsNat p c.points

/-- A marked edge. -/
def IsEdge (v : Json) (e : Int × Nat × Nat) : Prop :=
  ∃ m a b, v = .arr [m, a, b] ∧ IsInt m e.1 ∧ IsNat a e.2.1 ∧ IsNat b e.2.2

/-- A marked face. -/
def IsFace (v : Json) (f : Int × Nat × Nat × Nat × Nat) : Prop :=
  ∃ m a b c d, v = .arr [m, a, b, c, d] ∧ IsInt m f.1 ∧ IsNat a f.2.1 ∧ IsNat b f.2.2.1 ∧ IsNat c f.2.2.2.1 ∧ IsNat d f.2.2.2.2

/-- A mesh. -/
def IsMesh {K : Type} (F : JsonFloat K) (v : Json) (m : Mesh K) : Prop :=
  ∃ n p c e f, HasFields ["ndim", "points", "cells", "marked_edges", "marked_faces"] v [n, p, c, e, f] ∧ IsNat n m.ndim ∧
    IsList (IsPoint F) p m.points ∧ IsList IsCell c m.cells ∧ IsList IsEdge e m.markedEdges ∧ IsList IsFace f m.markedFaces

/-! ## The value written for a mesh -/

def valNat (n : Nat) : Json := .num (showNat n)

def valInt (n : Int) : Json := .num (showInt n)

/-- `null` for the numbers that are not finite. -/
def valFloat {K : Type} (F : JsonFloat K) (x : K) : Json :=
  match F.fmt x with
  | some t => .num t
  | none => .null

def valPoint {K : Type} (F : JsonFloat K) (p : Point K) : Json :=
  .obj [("id".toList, valNat p.id), ("marker".toList, valInt p.marker), ("coords".toList, .arr (p.coords.map (valFloat F)))]

def valCell (c : Cell) : Json :=
  .obj [("id".toList, valNat c.id), ("marker".toList, valInt c.marker), ("kind".toList, .str (kindText c.kind)),
    ("points".toList, .arr (c.points.map valNat))]

def valEdge (e : Int × Nat × Nat) : Json := .arr [valInt e.1, valNat e.2.1, valNat e.2.2]

def valFace (f : Int × Nat × Nat × Nat × Nat) : Json :=
  .arr [valInt f.1, valNat f.2.1, valNat f.2.2.1, valNat f.2.2.2.1, valNat f.2.2.2.2]

/-- The JSON value of a mesh. -/
def valMesh {K : Type} (F : JsonFloat K) (m : Mesh K) : Json :=
  .obj [("ndim".toList, valNat m.ndim), ("points".toList, .arr (m.points.map (valPoint F))), ("cells".toList, .arr (m.cells.map valCell)),
    ("marked_edges".toList, .arr (m.markedEdges.map valEdge)), ("marked_faces".toList, .arr (m.markedFaces.map valFace))]

/-- Numbers are written as JSON numbers. (True of the numbers written by `serde_json`.) -/
def Proper {K : Type} (F : JsonFloat K) : Prop := ∀ x t, F.fmt x = some t → IsNumber t

/-- All integers of the mesh are values of their machine types. (True of every value of type `Mesh`.) -/
structure InRange {K : Type} (m : Mesh K) : Prop where
  ndim : m.ndim < 2 ^ 64
  points : ∀ p ∈ m.points, p.id < 2 ^ 64 ∧ InI32 p.marker
  cells : ∀ c ∈ m.cells, c.id < 2 ^ 64 ∧ InI32 c.marker ∧ ∀ p ∈ c.points, p < 2 ^ 64
  edges : ∀ e ∈ m.markedEdges, InI32 e.1 ∧ e.2.1 < 2 ^ 64 ∧ e.2.2 < 2 ^ 64
  faces : ∀ f ∈ m.markedFaces, InI32 f.1 ∧ f.2.1 < 2 ^ 64 ∧ f.2.2.1 < 2 ^ 64 ∧ f.2.2.2.1 < 2 ^ 64 ∧ f.2.2.2.2 < 2 ^ 64

/-- The coordinate `x` is finite and is written and read as `y`. -/
def Reread {K : Type} (F : JsonFloat K) (x y : K) : Prop := ∃ t, F.fmt x = some t ∧ F.parse t = some y

end Gemlab.MeshJson
