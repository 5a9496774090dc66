import Verif.Model.Mesh

/-!
# Model of the text format of meshes: `/repo/src/mesh/mesh.rs` (Display), `read_text_mesh.rs` and `write_text_file.rs`

A text is a list of (Unicode) characters. Formatting and parsing of integers are written out (decimal, optional sign, range of `usize` and
`i32`); formatting and parsing of `f64` are the parameter `FloatText`. Files (`read`, `write`) are represented by their contents.
-/
namespace Gemlab.MeshText
open Gemlab Gemlab.Mesh

abbrev Text := List Char

/-- `char::is_whitespace` (the property `White_Space` of Unicode). -/
def isWs (c : Char) : Bool :=
  (9 ≤ c.toNat && c.toNat ≤ 13) || c.toNat == 0x20 || c.toNat == 0x85 || c.toNat == 0xA0 || c.toNat == 0x1680 ||
  (0x2000 ≤ c.toNat && c.toNat ≤ 0x200A) || c.toNat == 0x2028 || c.toNat == 0x2029 || c.toNat == 0x202F ||
  c.toNat == 0x205F || c.toNat == 0x3000

/-- A line without its terminator: a carriage return before the line feed is removed (`cur` is reversed). -/
def stripCr : Text → Text
  | '\r' :: cur => cur.reverse
  | cur => cur.reverse

/-- `str::lines` (`cur`: the characters of the current line, reversed). -/
def linesGo : Text → Text → List Text
  | [], [] => []
  | [], cur => [cur.reverse]
  | c :: cs, cur => if c = '\n' then stripCr cur :: linesGo cs [] else linesGo cs (c :: cur)

def lines (t : Text) : List Text := linesGo t []

/-- `str::split_whitespace` (`cur`: the characters of the current word, reversed). -/
def wordsGo : Text → Text → List Text
  | [], [] => []
  | [], cur => [cur.reverse]
  | c :: cs, cur =>
    if isWs c then (if cur = [] then wordsGo cs [] else cur.reverse :: wordsGo cs [])
    else wordsGo cs (c :: cur)

def words (t : Text) : List Text := wordsGo t []

/-- Value of a decimal digit. -/
def digitVal (c : Char) : Option Nat := if '0' ≤ c ∧ c ≤ '9' then some (c.toNat - '0'.toNat) else none

/-- A non-empty sequence of decimal digits. -/
def parseDigits (t : Text) : Option Nat :=
  if t = [] then none
  else t.foldlM (fun acc c => do
    let d ← digitVal c
    some (10 * acc + d)) 0

/-- `str::parse::<usize>` (64 bits). -/
def parseUsize (t : Text) : Option Nat := do
  let n ← match t with
    | '+' :: r => parseDigits r
    | r => parseDigits r
  if n ≤ usizeMax then some n else none

/-- `str::parse::<i32>`. -/
def parseI32 (t : Text) : Option Int := do
  let n ← match t with
    | '-' :: r => (parseDigits r).map fun (n : Nat) => -(n : Int)
    | '+' :: r => (parseDigits r).map fun (n : Nat) => (n : Int)
    | r => (parseDigits r).map fun (n : Nat) => (n : Int)
  if -2 ^ 31 ≤ n ∧ n < 2 ^ 31 then some n else none

/-- `{}` of a `usize`. -/
def showNat (n : Nat) : Text :=
  if n < 10 then [Char.ofNat (48 + n)] else showNat (n / 10) ++ [Char.ofNat (48 + n % 10)]

/-- `{}` of an `i32`. -/
def showInt (n : Int) : Text := if n < 0 then '-' :: showNat n.natAbs else showNat n.natAbs

/-- Formatting (`{:?}`) and parsing of coordinates (`f64`). -/
structure FloatText (K : Type) where
  fmt : K → Text
  parse : Text → Option K

/-- The trimming and the test at the beginning of all `parse_…` functions (read_text_mesh.rs:37-42, 74-79, 127-132, 184-189,
218-223): `none` for comments and empty lines, otherwise the words of the line. -/
def dataOf (line : Text) : Option (List Text) :=
  let t := ((line.dropWhile isWs).reverse.dropWhile (· = '\n')).reverse
  if t.head? = some '#' ∨ t = [] then none else some (words t)

/-- `data.next()` and `.parse().map_err(…)?`, with an error if there is no word left. -/
def next {α : Type} (parse : Text → Option α) (msgParse msgRead : String) : List Text → Res (α × List Text)
  | [] => .err msgRead
  | t :: ts => match parse t with
    | some v => .ok (v, ts)
    | none => .err msgParse

/-- The same for the first word (`unwrap` or `unreachable!`). -/
def first {α : Type} (parse : Text → Option α) (msgParse : String) : List Text → Res (α × List Text)
  | [] => .panic
  | t :: ts => match parse t with
    | some v => .ok (v, ts)
    | none => .err msgParse

/-- `struct DataForReadTextMesh` — read_text_mesh.rs:9-19, without the counters (they are the lengths of the lists of the mesh). -/
structure Sizes where
  ndim : Nat
  npoint : Nat
  ncell : Nat
  nmarkedEdge : Nat
  nmarkedFace : Nat

/-- `parse_sizes` — read_text_mesh.rs:36-71. -/
def parseSizes (data : List Text) : Res Sizes := do
  let (ndim, data) ← first parseUsize "cannot parse ndim" data
  let (npoint, data) ← next parseUsize "cannot parse npoint" "cannot read npoint" data
  let (ncell, data) ← next parseUsize "cannot parse ncell" "cannot read ncell" data
  let (nmarkedEdge, data) ← next parseUsize "cannot parse nmarked_edge" "cannot read nmarked_edge" data
  let (nmarkedFace, _) ← next parseUsize "cannot parse nmarked_face" "cannot read nmarked_face" data
  .ok { ndim := ndim, npoint := npoint, ncell := ncell, nmarkedEdge := nmarkedEdge, nmarkedFace := nmarkedFace }

variable {K : Type} [Zero K]

/-- `parse_point` — read_text_mesh.rs:73-124; `current` is the number of points so far. -/
def parsePoint (ft : FloatText K) (ndim current : Nat) (data : List Text) : Res (Point K) := do
  let (id, data) ← first parseUsize "cannot parse point id" data
  if id ≠ current then .err "the id and index of points must equal each other"
  else do
    let (marker, data) ← next parseI32 "cannot parse point marker" "cannot read point marker" data
    let coords : List K := List.replicate ndim 0
    let (x, data) ← next ft.parse "cannot parse point x coordinate" "cannot read point x coordinate" data
    let coords ← Res.setIdx coords 0 x
    let (y, data) ← next ft.parse "cannot parse point y coordinate" "cannot read point y coordinate" data
    let coords ← Res.setIdx coords 1 y
    let (coords, data) ← (if ndim = 3 then do
        let (z, data) ← next ft.parse "cannot parse point z coordinate" "cannot read point z coordinate" data
        let coords ← Res.setIdx coords 2 z
        .ok (coords, data)
      else .ok (coords, data) : Res (List K × List Text))
    if data ≠ [] then .err "point data contains extra values"
    else .ok { id := id, marker := marker, coords := coords }

/-- The loop over the points of a cell — read_text_mesh.rs:157-165. -/
def parseIds : Nat → List Text → Res (List Nat × List Text)
  | 0, data => .ok ([], data)
  | n + 1, data => do
    let (id, data) ← next parseUsize "cannot parse cell point id" "cannot read cell point id" data
    let (ids, data) ← parseIds n data
    .ok (id :: ids, data)

/-- `parse_cell` — read_text_mesh.rs:126-181. -/
def parseCell (current : Nat) (data : List Text) : Res Cell := do
  let (id, data) ← first parseUsize "cannot parse cell id" data
  if id ≠ current then .err "the id and index of cells must equal each other"
  else do
    let (marker, data) ← next parseI32 "cannot parse cell marker" "cannot read cell marker" data
    let (kind, data) ← next (fun t => GeoKind.fromString (String.ofList t)) "string representation of GeoKind is incorrect" "cannot read cell kind" data
    let (points, data) ← parseIds kind.nnode data
    if data ≠ [] then .err "cell data contains extra values"
    else .ok { id := id, marker := marker, kind := kind, points := points }

/-- `parse_marked_edge` — read_text_mesh.rs:183-215. -/
def parseMarkedEdge (data : List Text) : Res (Int × Nat × Nat) := do
  let (marker, data) ← first parseI32 "cannot parse marked edge" data
  let (p1, data) ← next parseUsize "cannot parse p1 of marked edge" "cannot read p1 of marked edge" data
  let (p2, data) ← next parseUsize "cannot parse p2 of marked edge" "cannot read p2 of marked edge" data
  if data ≠ [] then .err "marked edge data contains extra values" else .ok (marker, p1, p2)

/-- `parse_marked_face` — read_text_mesh.rs:217-255. -/
def parseMarkedFace (data : List Text) : Res (Int × Nat × Nat × Nat × Nat) := do
  let (marker, data) ← first parseI32 "cannot parse marked face" data
  let (p1, data) ← next parseUsize "cannot parse p1 of marked face" "cannot read p1 of marked face" data
  let (p2, data) ← next parseUsize "cannot parse p2 of marked face" "cannot read p2 of marked face" data
  let (p3, data) ← next parseUsize "cannot parse p3 of marked face" "cannot read p3 of marked face" data
  match data with
  | [] => .ok (marker, p1, p2, p3, usizeMax)
  | t :: _ => match parseUsize t with
    | some p4 => .ok (marker, p1, p2, p3, p4)
    | none => .err "cannot parse p4 of marked face"

/-- The loop that looks for the header — read_text_mesh.rs:325-335, 512-521 (the message differs between `read` and `from_text`). -/
def readHeader (msg : String) : List Text → Res (Sizes × List Text)
  | [] => .err msg
  | line :: ls => match dataOf line with
    | none => readHeader msg ls
    | some data => do
      let s ← parseSizes data
      .ok (s, ls)

/-- The loops that read points, cells, marked edges and marked faces — read_text_mesh.rs:347-359, 367-379, 388-400, 408-420 and
533-544, 552-563, 572-583, 591-602: parse lines until `n` entries have been found or there are no more lines. -/
def readSection {α : Type} (parse : Nat → List Text → Res α) (n : Nat) : List Text → List α → Res (List α × List Text)
  | [], acc => .ok (acc, [])
  | line :: ls, acc => match dataOf line with
    | none => readSection parse n ls acc
    | some data => do
      let a ← parse acc.length data
      if acc.length + 1 = n then .ok (acc ++ [a], ls) else readSection parse n ls (acc ++ [a])

/-- Everything after the header — read_text_mesh.rs:337-427, 523-609. -/
def readBody (ft : FloatText K) (s : Sizes) (ls : List Text) : Res (Mesh K) := do
  let (points, ls) ← readSection (parsePoint ft s.ndim) s.npoint ls []
  if points.length ≠ s.npoint then .err "not all points have been found"
  else do
    let (cells, ls) ← readSection parseCell s.ncell ls []
    if cells.length ≠ s.ncell then .err "not all cells have been found"
    else do
      let (edges, ls) ← (if s.nmarkedEdge > 0 then readSection (fun _ => parseMarkedEdge) s.nmarkedEdge ls [] else .ok ([], ls))
      if s.nmarkedEdge > 0 ∧ edges.length ≠ s.nmarkedEdge then .err "not all marked edges have been found"
      else do
        let (faces, _) ← (if s.nmarkedFace > 0 then readSection (fun _ => parseMarkedFace) s.nmarkedFace ls [] else .ok ([], ls))
        if s.nmarkedFace > 0 ∧ faces.length ≠ s.nmarkedFace then .err "not all marked faces have been found"
        else .ok { ndim := s.ndim, points := points, cells := cells, markedEdges := edges, markedFaces := faces }

/-- `Mesh::from_text` — read_text_mesh.rs:506-610. -/
def fromText (ft : FloatText K) (t : Text) : Res (Mesh K) := do
  let (s, ls) ← readHeader "text string is empty or header is missing" (lines t)
  readBody ft s ls

/-- `Mesh::read` — read_text_mesh.rs:312-428, of a file with this (valid UTF-8) content. -/
def read (ft : FloatText K) (content : Text) : Res (Mesh K) := do
  let (s, ls) ← readHeader "file is empty or header is missing" (lines content)
  readBody ft s ls

/-- Words separated by one space. -/
def spaced : List Text → Text
  | [] => []
  | [w] => w
  | w :: ws => w ++ ' ' :: spaced ws

/-- Line of a point — mesh.rs:643-659. -/
def pointLine (ft : FloatText K) (ndim : Nat) (p : Point K) : Res Text := do
  let x ← Res.idx p.coords 0
  let y ← Res.idx p.coords 1
  if ndim = 2 then .ok (spaced [showNat p.id, showInt p.marker, ft.fmt x, ft.fmt y])
  else do
    let z ← Res.idx p.coords 2
    .ok (spaced [showNat p.id, showInt p.marker, ft.fmt x, ft.fmt y, ft.fmt z])

/-- Line of a cell — mesh.rs:664-677. -/
def cellLine (c : Cell) : Text :=
  spaced [showNat c.id, showInt c.marker, c.kind.toStr.toList] ++ c.points.flatMap fun p => ' ' :: showNat p

/-- Line of a marked face — mesh.rs:693-697. -/
def faceLine (e : Int × Nat × Nat × Nat × Nat) : Text :=
  if e.2.2.2.2 = usizeMax then spaced [showInt e.1, showNat e.2.1, showNat e.2.2.1, showNat e.2.2.2.1]
  else spaced [showInt e.1, showNat e.2.1, showNat e.2.2.1, showNat e.2.2.2.1, showNat e.2.2.2.2]

/-- The lines written by `Display` — mesh.rs:625-701 (every `write!` ends with a line feed). -/
def meshLines (ft : FloatText K) (m : Mesh K) : Res (List Text) := do
  let pts ← m.points.mapM (pointLine ft m.ndim)
  .ok (
    ["# header".toList,
     "# ndim npoint ncell nmarked_edge nmarked_face".toList,
     spaced [showNat m.ndim, showNat m.points.length, showNat m.cells.length, showNat m.markedEdges.length, showNat m.markedFaces.length],
     [], "# points".toList, "# id marker x y {z}".toList] ++ pts ++
    [[], "# cells".toList, "# id marker kind points".toList] ++ m.cells.map cellLine ++
    (if m.markedEdges.length > 0 then
      [[], "# marked edges".toList, "# marker p1 p2".toList] ++
      m.markedEdges.map fun e => spaced [showInt e.1, showNat e.2.1, showNat e.2.2]
     else []) ++
    (if m.markedFaces.length > 0 then
      [[], "# marked faces".toList, "# marker p1 p2 p3 {p4}".toList] ++ m.markedFaces.map faceLine
     else []))

/-- `format!("{}", mesh)` — mesh.rs:623-702. -/
def display (ft : FloatText K) (m : Mesh K) : Res Text := do
  let ls ← meshLines ft m
  .ok (ls.flatMap fun l => l ++ ['\n'])

/-- `Mesh::write` — write_text_file.rs:63-89: the content of the file. -/
def write (ft : FloatText K) (m : Mesh K) : Res Text :=
  if m.cells.length < 1 then .err "there are no cells to write" else display ft m

end Gemlab.MeshText
