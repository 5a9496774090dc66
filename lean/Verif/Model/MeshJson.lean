import Verif.Model.MeshText
import Verif.Model.Generators

/-!
# Model of the JSON files: `Mesh`, `Blocks2d` and `Blocks3d` `::read_json` / `::write_json`

`/repo/src/mesh/mesh.rs:245-272`, `blocks2d.rs:63-90`, `blocks3d.rs:71-98`, and what the attributes `#[derive(Deserialize, Serialize)]` of
`Mesh`, `Point`, `Cell`, `GeoKind`, `Blocks2d`, `Blocks3d`, `Constraint2d` and `Constraint3d` generate.

`serde_json` is a library (not in /repo). What is modelled of it: the compact writer (`to_writer`), the JSON grammar of the reader
(`from_reader`, which demands that nothing but blanks follows the value) and the conversions between the JSON values and the types. A file is
its contents, a list of characters. All the failures of the reader are mapped by the code to the same message, so the model reads the whole
document first and converts it afterwards. Simplification: the escape sequences `\u…` in strings are not modelled (a text with one is
rejected); no key and no name of the formats contains any. Formatting and parsing of `f64` are the parameter `JsonFloat`.
-/
namespace Gemlab.MeshJson
open Gemlab Gemlab.Mesh Gemlab.MeshText

/-- Formatting and parsing of `f64`: `fmt` is `none` for the numbers that are not finite (NaN, ±∞), for which `serde_json` writes `null`;
`parse` converts a JSON number (`none`: out of range). -/
structure JsonFloat (K : Type) where
  fmt : K → Option Text
  parse : Text → Option K

/-- JSON values. A number is kept as it is written. -/
inductive Json where
  | null
  | bool (b : Bool)
  | num (t : Text)
  | str (t : Text)
  | arr (l : List Json)
  | obj (l : List (Text × Json))

/-- Tokens of a JSON document. -/
inductive Tok where
  | lbrace | rbrace | lbrack | rbrack | comma | colon | null
  | bool (b : Bool)
  | num (t : Text)
  | str (t : Text)
  deriving DecidableEq

/-! ## The reader: tokens -/

/-- Blanks of JSON: space, line feed, carriage return, horizontal tab. -/
def isBlank (c : Char) : Bool := c == ' ' || c == '\n' || c == '\r' || c == '\t'

def isDigit (c : Char) : Bool := '0' ≤ c && c ≤ '9'

/-- Characters that occur in numbers. -/
def isNumChar (c : Char) : Bool := isDigit c || c == '-' || c == '+' || c == '.' || c == 'e' || c == 'E'

/-- Exponent of a number (or nothing). -/
def expPart : Text → Bool
  | [] => true
  | c :: r => (c == 'e' || c == 'E') &&
    (match r with
      | [] => false
      | s :: r' => if s == '+' || s == '-' then r' ≠ [] && r'.all isDigit else (s :: r').all isDigit)

/-- Decimals of a number (or nothing), and what follows. -/
def fracPart : Text → Bool
  | '.' :: r => r.takeWhile isDigit ≠ [] && expPart (r.dropWhile isDigit)
  | r => expPart r

/-- Integer part of a number without sign (no superfluous zeros), and what follows. -/
def intPart : Text → Bool
  | [] => false
  | c :: r => if c == '0' then fracPart r else if isDigit c then fracPart (r.dropWhile isDigit) else false

/-- The text is a JSON number. -/
def isNumber : Text → Bool
  | '-' :: r => intPart r
  | r => intPart r

/-- The characters allowed in a string without an escape sequence. -/
def isPlain (c : Char) : Bool := c ≠ '"' && c ≠ '\\' && 0x20 ≤ c.toNat

/-- The escape sequences of one letter. -/
def unescape : Char → Option Char
  | '"' => some '"'
  | '\\' => some '\\'
  | '/' => some '/'
  | 'b' => some (Char.ofNat 8)
  | 'f' => some (Char.ofNat 12)
  | 'n' => some '\n'
  | 'r' => some '\r'
  | 't' => some '\t'
  | _ => none

/-- The rest of a string after the opening quotation mark, and what follows the closing one. -/
def lexStr : Text → Option (Text × Text)
  | [] => none
  | '"' :: r => some ([], r)
  | '\\' :: c :: r => do
    let d ← unescape c
    let (s, r') ← lexStr r
    some (d :: s, r')
  | c :: r => if isPlain c then do
      let (s, r') ← lexStr r
      some (c :: s, r')
    else none

/-- The tokens of a document (`n`: bound for the number of steps, at least the number of characters). -/
def lexGo : Nat → Text → Option (List Tok)
  | _, [] => some []
  | 0, _ => none
  | n + 1, c :: r =>
    if isBlank c then lexGo n r
    else if c = '{' then (lexGo n r).map (.lbrace :: ·)
    else if c = '}' then (lexGo n r).map (.rbrace :: ·)
    else if c = '[' then (lexGo n r).map (.lbrack :: ·)
    else if c = ']' then (lexGo n r).map (.rbrack :: ·)
    else if c = ',' then (lexGo n r).map (.comma :: ·)
    else if c = ':' then (lexGo n r).map (.colon :: ·)
    else if c = '"' then do
      let (s, r') ← lexStr r
      (lexGo n r').map (.str s :: ·)
    else if c = 'n' then
      if r.take 3 = ['u', 'l', 'l'] then (lexGo n (r.drop 3)).map (.null :: ·) else none
    else if c = 't' then
      if r.take 3 = ['r', 'u', 'e'] then (lexGo n (r.drop 3)).map (.bool true :: ·) else none
    else if c = 'f' then
      if r.take 4 = ['a', 'l', 's', 'e'] then (lexGo n (r.drop 4)).map (.bool false :: ·) else none
    else if isNumber (c :: r.takeWhile isNumChar) then
      (lexGo n (r.dropWhile isNumChar)).map (.num (c :: r.takeWhile isNumChar) :: ·)
    else none

def lex (t : Text) : Option (List Tok) := lexGo t.length t

/-! ## The reader: values -/

mutual
/-- A value at the beginning of the tokens, and the remaining tokens (`n`: bound for the number of steps). -/
def pVal : Nat → List Tok → Option (Json × List Tok)
  | 0, _ => none
  | _ + 1, .null :: r => some (.null, r)
  | _ + 1, .bool b :: r => some (.bool b, r)
  | _ + 1, .num t :: r => some (.num t, r)
  | _ + 1, .str t :: r => some (.str t, r)
  | _ + 1, .lbrack :: .rbrack :: r => some (.arr [], r)
  | n + 1, .lbrack :: r => (pElems n r).map fun x => (.arr x.1, x.2)
  | _ + 1, .lbrace :: .rbrace :: r => some (.obj [], r)
  | n + 1, .lbrace :: r => (pMembers n r).map fun x => (.obj x.1, x.2)
  | _ + 1, _ => none

/-- The elements of an array that is not empty, with the closing bracket. -/
def pElems : Nat → List Tok → Option (List Json × List Tok)
  | 0, _ => none
  | n + 1, ts =>
    match pVal n ts with
    | some (v, .rbrack :: r) => some ([v], r)
    | some (v, .comma :: r) => (pElems n r).map fun x => (v :: x.1, x.2)
    | _ => none

/-- The members of an object that is not empty, with the closing brace. -/
def pMembers : Nat → List Tok → Option (List (Text × Json) × List Tok)
  | 0, _ => none
  | n + 1, .str k :: .colon :: ts =>
    match pVal n ts with
    | some (v, .rbrace :: r) => some ([(k, v)], r)
    | some (v, .comma :: r) => (pMembers n r).map fun x => ((k, v) :: x.1, x.2)
    | _ => none
  | _ + 1, _ => none
end

/-- The tokens are exactly one value (`Deserializer::end` of `from_reader`: nothing may follow). -/
def parseToks (ts : List Tok) : Option Json :=
  match pVal (2 * ts.length) ts with
  | some (v, []) => some v
  | _ => none

/-- The JSON value of a document. -/
def parse (t : Text) : Option Json := do
  let ts ← lex t
  parseToks ts

/-! ## The reader: conversion to the types -/

/-- `usize`. -/
def decNat : Json → Option Nat
  | .num t => parseUsize t
  | _ => none

/-- `i32` (`-0` is a floating-point number for `serde_json`). -/
def decInt : Json → Option Int
  | .num t => if t = ['-', '0'] then none else parseI32 t
  | _ => none

/-- `f64` (`null` is not accepted). -/
def decFloat {K : Type} (F : JsonFloat K) : Json → Option K
  | .num t => F.parse t
  | _ => none

/-- `Vec<_>`. -/
def decVec {α : Type} (d : Json → Option α) : Json → Option (List α)
  | .arr l => l.mapM d
  | _ => none

/-- `Option<_>`. -/
def decOption {α : Type} (d : Json → Option α) : Json → Option (Option α)
  | .null => some none
  | v => (d v).map some

/-- Values of the fields of a struct, in the order of the declaration: the code derived accepts an array with one value per field, or an
object in which every field occurs exactly once; other members are ignored. -/
def fields (names : List Text) : Json → Option (List Json)
  | .arr l => if l.length = names.length then some l else none
  | .obj ms => names.mapM fun n =>
    match ms.filter (fun m => m.1 == n) with
    | [m] => some m.2
    | _ => none
  | _ => none

/-- Names of the fields of `Point` — mesh.rs:27-36. -/
def pointNames : List Text := ["id".toList, "marker".toList, "coords".toList]

/-- Names of the fields of `Cell` — mesh.rs:40-54. -/
def cellNames : List Text := ["id".toList, "marker".toList, "kind".toList, "points".toList]

/-- Names of the fields of `Mesh` — mesh.rs:110-135. -/
def meshNames : List Text :=
  ["ndim".toList, "points".toList, "cells".toList, "marked_edges".toList, "marked_faces".toList]

/-- Names of the fields of `Blocks2d` — blocks2d.rs:11-53. -/
def blocks2dNames : List Text :=
  ["points".toList, "regions".toList, "div_weights".toList, "edge_constraints".toList, "marked_edges".toList]

/-- Names of the fields of `Blocks3d` — blocks3d.rs:11-63. -/
def blocks3dNames : List Text :=
  ["points".toList, "regions".toList, "div_weights".toList, "face_constraints".toList, "marked_edges".toList, "marked_faces".toList]

/-- Names of the variants of `GeoKind` — enums.rs:116-176. -/
def kindName : GeoKind → Text
  | .lin2 => "Lin2".toList
  | .lin3 => "Lin3".toList
  | .lin4 => "Lin4".toList
  | .lin5 => "Lin5".toList
  | .tri3 => "Tri3".toList
  | .tri6 => "Tri6".toList
  | .tri10 => "Tri10".toList
  | .tri15 => "Tri15".toList
  | .qua4 => "Qua4".toList
  | .qua8 => "Qua8".toList
  | .qua9 => "Qua9".toList
  | .qua12 => "Qua12".toList
  | .qua16 => "Qua16".toList
  | .qua17 => "Qua17".toList
  | .tet4 => "Tet4".toList
  | .tet10 => "Tet10".toList
  | .tet20 => "Tet20".toList
  | .hex8 => "Hex8".toList
  | .hex20 => "Hex20".toList
  | .hex32 => "Hex32".toList

/-- `GeoKind`: the name of the variant, or an object with the name and `null`. -/
def decKind : Json → Option GeoKind
  | .str t => GeoKind.values.find? fun k => kindName k == t
  | .obj [(t, .null)] => GeoKind.values.find? fun k => kindName k == t
  | _ => none

/-- `Point` — mesh.rs:27-36. -/
def decPoint {K : Type} (F : JsonFloat K) (v : Json) : Option (Point K) :=
  match fields pointNames v with
  | some [i, m, x] => do
    let id ← decNat i
    let marker ← decInt m
    let coords ← decVec (decFloat F) x
    some { id := id, marker := marker, coords := coords }
  | _ => none

/-- `Cell` — mesh.rs:40-54. -/
def decCell (v : Json) : Option Cell :=
  match fields cellNames v with
  | some [i, m, k, p] => do
    let id ← decNat i
    let marker ← decInt m
    let kind ← decKind k
    let points ← decVec decNat p
    some { id := id, marker := marker, kind := kind, points := points }
  | _ => none

/-- `(i32, usize, usize)`. -/
def decEdge : Json → Option (Int × Nat × Nat)
  | .arr [m, a, b] => do
    let m ← decInt m
    let a ← decNat a
    let b ← decNat b
    some (m, a, b)
  | _ => none

/-- `(i32, usize, usize, usize, usize)`. -/
def decFace : Json → Option (Int × Nat × Nat × Nat × Nat)
  | .arr [m, a, b, c, d] => do
    let m ← decInt m
    let a ← decNat a
    let b ← decNat b
    let c ← decNat c
    let d ← decNat d
    some (m, a, b, c, d)
  | _ => none

/-- `Mesh` — mesh.rs:110-135. -/
def decMesh {K : Type} (F : JsonFloat K) (v : Json) : Option (Mesh K) :=
  match fields meshNames v with
  | some [n, p, c, e, f] => do
    let ndim ← decNat n
    let points ← decVec (decPoint F) p
    let cells ← decVec decCell c
    let edges ← decVec decEdge e
    let faces ← decVec decFace f
    some { ndim := ndim, points := points, cells := cells, markedEdges := edges, markedFaces := faces }
  | _ => none

/-- `(f64, f64)`. -/
def decPair {K : Type} (F : JsonFloat K) : Json → Option (K × K)
  | .arr [x, y] => do
    let x ← decFloat F x
    let y ← decFloat F y
    some (x, y)
  | _ => none

/-- `(f64, f64, f64)`. -/
def decTriple {K : Type} (F : JsonFloat K) : Json → Option (K × K × K)
  | .arr [x, y, z] => do
    let x ← decFloat F x
    let y ← decFloat F y
    let z ← decFloat F z
    some (x, y, z)
  | _ => none

/-- `(Vec<f64>, Vec<f64>)`. -/
def decWeights2 {K : Type} (F : JsonFloat K) : Json → Option (List K × List K)
  | .arr [x, y] => do
    let x ← decVec (decFloat F) x
    let y ← decVec (decFloat F) y
    some (x, y)
  | _ => none

/-- `(Vec<f64>, Vec<f64>, Vec<f64>)`. -/
def decWeights3 {K : Type} (F : JsonFloat K) : Json → Option (List K × List K × List K)
  | .arr [x, y, z] => do
    let x ← decVec (decFloat F) x
    let y ← decVec (decFloat F) y
    let z ← decVec (decFloat F) z
    some (x, y, z)
  | _ => none

/-- `(i32, usize, … 8 times)`. -/
def decRegion3 : Json → Option (Int × Nat × Nat × Nat × Nat × Nat × Nat × Nat × Nat)
  | .arr [m, a, b, c, d, e, f, g, h] => do
    let m ← decInt m
    let a ← decNat a
    let b ← decNat b
    let c ← decNat c
    let d ← decNat d
    let e ← decNat e
    let f ← decNat f
    let g ← decNat g
    let h ← decNat h
    some (m, a, b, c, d, e, f, g, h)
  | _ => none

/-- `Constraint2d` — block.rs:43-46: an object with the name of the variant and the array of its three numbers. -/
def decConstraint2 (F : JsonFloat ℝ) : Json → Option Constraint2d
  | .obj [(n, v)] =>
    if n = "Circle".toList then (decTriple F v).map fun x => .circle x.1 x.2.1 x.2.2 else none
  | _ => none

/-- `Constraint3d` — block.rs:50-59. -/
def decConstraint3 (F : JsonFloat ℝ) : Json → Option Constraint3d
  | .obj [(n, v)] =>
    if n = "CylinderX".toList then (decTriple F v).map fun x => .cylinderX x.1 x.2.1 x.2.2
    else if n = "CylinderY".toList then (decTriple F v).map fun x => .cylinderY x.1 x.2.1 x.2.2
    else if n = "CylinderZ".toList then (decTriple F v).map fun x => .cylinderZ x.1 x.2.1 x.2.2
    else none
  | _ => none

/-- `(usize, Constraint2d)`. -/
def decSide2 (F : JsonFloat ℝ) : Json → Option (Nat × Constraint2d)
  | .arr [i, c] => do
    let i ← decNat i
    let c ← decConstraint2 F c
    some (i, c)
  | _ => none

/-- `(usize, Constraint3d)`. -/
def decSide3 (F : JsonFloat ℝ) : Json → Option (Nat × Constraint3d)
  | .arr [i, c] => do
    let i ← decNat i
    let c ← decConstraint3 F c
    some (i, c)
  | _ => none

/-- `Blocks2d` — blocks2d.rs:11-53. -/
def decBlocks2d (F : JsonFloat ℝ) (v : Json) : Option Structured.Blocks2d :=
  match fields blocks2dNames v with
  | some [p, r, w, c, e] => do
    let points ← decVec (decPair F) p
    let regions ← decVec decFace r
    let weights ← decVec (decWeights2 F) w
    let constraints ← decVec (decOption (decSide2 F)) c
    let edges ← decVec decEdge e
    some { points := points, regions := regions, divWeights := weights, edgeConstraints := constraints, markedEdges := edges }
  | _ => none

/-- `Blocks3d` — blocks3d.rs:11-63. -/
def decBlocks3d (F : JsonFloat ℝ) (v : Json) : Option Structured.Blocks3d :=
  match fields blocks3dNames v with
  | some [p, r, w, c, e, f] => do
    let points ← decVec (decTriple F) p
    let regions ← decVec decRegion3 r
    let weights ← decVec (decWeights3 F) w
    let constraints ← decVec (decOption (decSide3 F)) c
    let edges ← decVec decEdge e
    let faces ← decVec decFace f
    some { points := points, regions := regions, divWeights := weights, faceConstraints := constraints, markedEdges := edges,
           markedFaces := faces }
  | _ => none

def msgParse : String := "cannot parse JSON file"

/-- `Mesh::read_json` — mesh.rs:245-254, for a file that can be opened and has the given contents. -/
def readMesh {K : Type} (F : JsonFloat K) (t : Text) : Res (Mesh K) :=
  match (parse t).bind (decMesh F) with
  | some m => .ok m
  | none => .err msgParse

/-- `Blocks2d::read_json` — blocks2d.rs:63-72. -/
def readBlocks2d (F : JsonFloat ℝ) (t : Text) : Res Structured.Blocks2d :=
  match (parse t).bind (decBlocks2d F) with
  | some m => .ok m
  | none => .err msgParse

/-- `Blocks3d::read_json` — blocks3d.rs:71-80. -/
def readBlocks3d (F : JsonFloat ℝ) (t : Text) : Res Structured.Blocks3d :=
  match (parse t).bind (decBlocks3d F) with
  | some m => .ok m
  | none => .err msgParse

/-! ## The writer -/

/-- Escaping of the characters of a string. -/
def escape (c : Char) : Text := if c = '"' ∨ c = '\\' then ['\\', c] else [c]

def showStr (t : Text) : Text := '"' :: t.flatMap escape ++ ['"']

/-- Elements separated by commas. -/
def commas : List Text → Text
  | [] => []
  | [t] => t
  | t :: ts => t ++ ',' :: commas ts

/-- `usize`. -/
def jNat (n : Nat) : Text := showNat n

/-- `i32`. -/
def jInt (n : Int) : Text := showInt n

/-- `f64`: `null` for the numbers that are not finite. -/
def jFloat {K : Type} (F : JsonFloat K) (x : K) : Text := (F.fmt x).getD "null".toList

/-- Sequences and tuples. -/
def jArr (l : List Text) : Text := '[' :: commas l ++ [']']

/-- Structs: names of the fields and values. -/
def jObj (l : List (Text × Text)) : Text := '{' :: commas (l.map fun m => showStr m.1 ++ ':' :: m.2) ++ ['}']

/-- `Point` — mesh.rs:27-36. -/
def jPoint {K : Type} (F : JsonFloat K) (p : Point K) : Text :=
  jObj [("id".toList, jNat p.id), ("marker".toList, jInt p.marker), ("coords".toList, jArr (p.coords.map (jFloat F)))]

/-- `Cell` — mesh.rs:40-54. -/
def jCell (c : Cell) : Text :=
  jObj [("id".toList, jNat c.id), ("marker".toList, jInt c.marker), ("kind".toList, showStr (kindName c.kind)),
    ("points".toList, jArr (c.points.map jNat))]

/-- `(i32, usize, usize)`. -/
def jEdge (e : Int × Nat × Nat) : Text := jArr [jInt e.1, jNat e.2.1, jNat e.2.2]

/-- `(i32, usize, usize, usize, usize)`. -/
def jFace (f : Int × Nat × Nat × Nat × Nat) : Text :=
  jArr [jInt f.1, jNat f.2.1, jNat f.2.2.1, jNat f.2.2.2.1, jNat f.2.2.2.2]

/-- `Mesh::write_json` — mesh.rs:261-272: the contents of the file (directories and failures of the file system are not modelled). -/
def writeMesh {K : Type} (F : JsonFloat K) (m : Mesh K) : Text :=
  jObj [("ndim".toList, jNat m.ndim), ("points".toList, jArr (m.points.map (jPoint F))), ("cells".toList, jArr (m.cells.map jCell)),
    ("marked_edges".toList, jArr (m.markedEdges.map jEdge)), ("marked_faces".toList, jArr (m.markedFaces.map jFace))]

/-- `Constraint2d` — block.rs:43-46. -/
noncomputable def jConstraint2 (F : JsonFloat ℝ) : Constraint2d → Text
  | .circle a b c => jObj [("Circle".toList, jArr [jFloat F a, jFloat F b, jFloat F c])]

/-- `Constraint3d` — block.rs:50-59. -/
noncomputable def jConstraint3 (F : JsonFloat ℝ) : Constraint3d → Text
  | .cylinderX a b c => jObj [("CylinderX".toList, jArr [jFloat F a, jFloat F b, jFloat F c])]
  | .cylinderY a b c => jObj [("CylinderY".toList, jArr [jFloat F a, jFloat F b, jFloat F c])]
  | .cylinderZ a b c => jObj [("CylinderZ".toList, jArr [jFloat F a, jFloat F b, jFloat F c])]

/-- `Option<(usize, Constraint2d)>`. -/
noncomputable def jSide2 (F : JsonFloat ℝ) : Option (Nat × Constraint2d) → Text
  | none => "null".toList
  | some (i, c) => jArr [jNat i, jConstraint2 F c]

/-- `Option<(usize, Constraint3d)>`. -/
noncomputable def jSide3 (F : JsonFloat ℝ) : Option (Nat × Constraint3d) → Text
  | none => "null".toList
  | some (i, c) => jArr [jNat i, jConstraint3 F c]

/-- `Blocks2d::write_json` — blocks2d.rs:79-90. -/
noncomputable def writeBlocks2d (F : JsonFloat ℝ) (b : Structured.Blocks2d) : Text :=
  jObj [("points".toList, jArr (b.points.map fun p => jArr [jFloat F p.1, jFloat F p.2])),
    ("regions".toList, jArr (b.regions.map jFace)),
    ("div_weights".toList, jArr (b.divWeights.map fun w => jArr [jArr (w.1.map (jFloat F)), jArr (w.2.map (jFloat F))])),
    ("edge_constraints".toList, jArr (b.edgeConstraints.map (jSide2 F))),
    ("marked_edges".toList, jArr (b.markedEdges.map jEdge))]

/-- `Blocks3d::write_json` — blocks3d.rs:87-98. -/
noncomputable def writeBlocks3d (F : JsonFloat ℝ) (b : Structured.Blocks3d) : Text :=
  jObj [("points".toList, jArr (b.points.map fun p => jArr [jFloat F p.1, jFloat F p.2.1, jFloat F p.2.2])),
    ("regions".toList, jArr (b.regions.map fun r =>
      jArr [jInt r.1, jNat r.2.1, jNat r.2.2.1, jNat r.2.2.2.1, jNat r.2.2.2.2.1, jNat r.2.2.2.2.2.1, jNat r.2.2.2.2.2.2.1,
        jNat r.2.2.2.2.2.2.2.1, jNat r.2.2.2.2.2.2.2.2])),
    ("div_weights".toList, jArr (b.divWeights.map fun w =>
      jArr [jArr (w.1.map (jFloat F)), jArr (w.2.1.map (jFloat F)), jArr (w.2.2.map (jFloat F))])),
    ("face_constraints".toList, jArr (b.faceConstraints.map (jSide3 F))),
    ("marked_edges".toList, jArr (b.markedEdges.map jEdge)), ("marked_faces".toList, jArr (b.markedFaces.map jFace))]

end Gemlab.MeshJson
