import Verif.Model.Paraview
import Verif.Spec.Paraview
import Verif.Proofs.MeshText3
import Verif.Lib.ResList

/-! # Proofs about `write_vtu` -/
namespace Gemlab.Paraview
open Gemlab Gemlab.Mesh Gemlab.MeshText

variable {K : Type}

/-- Words with a space after each. -/
def row (ws : List Text) : Text := ws.flatMap fun w => w ++ [' ']

theorem row_nil : row [] = [] := rfl
theorem row_append (a b : List Text) : row (a ++ b) = row a ++ row b := by simp [row]
theorem row_single (w : Text) : row [w] = w ++ [' '] := by simp [row]

theorem words_row (ws : List Text) (h : ∀ w ∈ ws, IsWord w) : words (row ws) = ws := by
  unfold words
  induction ws with
  | nil => rfl
  | cons w ws ih =>
    obtain ⟨c, cs, hw, hc⟩ := (h w (by simp)).head
    have h2 := (h w (by simp)).2
    have hr : w.reverse ≠ [] := by rw [hw]; simp
    have : row (w :: ws) = w ++ (' ' :: row ws) := by simp [row]
    rw [this, wordsGo_word w h2, List.append_nil]
    simp only [wordsGo, isWs_space, if_true, if_neg hr, List.reverse_reverse]
    rw [ih fun v hv => h v (by simp [hv])]

theorem row_clean (ws : List Text) (h : ∀ w ∈ ws, IsWord w) : '\n' ∉ row ws ∧ '\r' ∉ row ws := by
  have key : ∀ c ∈ row ws, c = ' ' ∨ isWs c = false := by
    intro c hc
    unfold row at hc
    rw [List.mem_flatMap] at hc
    obtain ⟨w, hw, hc⟩ := hc
    rw [List.mem_append] at hc
    rcases hc with hc | hc
    · exact Or.inr ((h w hw).2 c hc)
    · exact Or.inl (by simpa using hc)
  constructor <;> intro hc <;> rcases key _ hc with h1 | h1 <;> revert h1 <;> decide

/-- The words of the coordinates of a point. -/
def coordWords (ft : FloatText K) (ndim : Nat) (p : Point K) : List Text :=
  (p.coords.take ndim).map ft.fmt ++ (if ndim = 2 then ["0.0".toList] else [])

theorem space_lit : " ".toList = [' '] := by decide +kernel
theorem zero_lit : "0.0 ".toList = "0.0".toList ++ [' '] := by decide +kernel

/-- Looping over the indices of a list. -/
theorem foldlM_idx {α σ : Type} (f : σ → α → Res σ) (xs : List α) (n : Nat) (h : n ≤ xs.length) (s : σ) :
    (List.range n).foldlM (fun s i => do
      let a ← Res.idx xs i
      f s a) s = (xs.take n).foldlM f s := by
  induction n with
  | zero => rfl
  | succ n ih =>
    have hn : n < xs.length := by omega
    rw [List.range_succ, List.foldlM_append, ih (by omega), List.take_succ_eq_append_getElem hn, List.foldlM_append]
    congr 1
    funext s
    simp only [List.foldlM_cons, List.foldlM_nil, Res.idx_of_lt hn, Res.bind_ok]

theorem foldlM_idx' {α σ : Type} (f : σ → α → Res σ) (xs : List α) (s : σ) :
    (List.range xs.length).foldlM (fun s i => do
      let a ← Res.idx xs i
      f s a) s = xs.foldlM f s := by
  rw [foldlM_idx f xs _ le_rfl, List.take_length]

/-- A loop that appends a row for each element. -/
theorem foldlM_row {α : Type} (f : Text → α → Res Text) (g : α → List Text) (xs : List α)
    (h : ∀ a ∈ xs, ∀ b, f b a = .ok (b ++ row (g a))) (buf : Text) : xs.foldlM f buf = .ok (buf ++ row (xs.flatMap g)) := by
  induction xs generalizing buf with
  | nil => simp [row]
  | cons a xs ih =>
    rw [List.foldlM_cons, h a (by simp), Res.bind_ok, ih (fun a ha => h a (by simp [ha]))]
    simp [row]

theorem foldl_row {α : Type} (f : Text → α → Text) (g : α → List Text) (xs : List α)
    (h : ∀ a ∈ xs, ∀ b, f b a = b ++ row (g a)) (buf : Text) : xs.foldl f buf = buf ++ row (xs.flatMap g) := by
  induction xs generalizing buf with
  | nil => simp [row]
  | cons a xs ih =>
    rw [List.foldl_cons, h a (by simp), ih (fun a ha => h a (by simp [ha]))]
    simp [row]

theorem coordSteps (ft : FloatText K) (coords : List K) (n : Nat) (h : n ≤ coords.length) (buf : Text) :
    (List.range n).foldlM (coordStep ft coords) buf = .ok (buf ++ row ((coords.take n).map ft.fmt)) := by
  have := foldlM_idx (fun (buf : Text) x => Res.ok (buf ++ ft.fmt x ++ " ".toList)) coords n h buf
  rw [show (coordStep ft coords) = fun s i => do
      let a ← Res.idx coords i
      (fun (buf : Text) x => Res.ok (buf ++ ft.fmt x ++ " ".toList)) s a from rfl, this,
    foldlM_row _ (fun x => [ft.fmt x])]
  · rw [List.map_eq_flatMap]
  · intro a _ b; simp [row, space_lit]

/-- The body of the loop over the points. -/
def pointBody (ft : FloatText K) (ndim : Nat) (buf : Text) (p : Point K) : Res Text := do
  let buf ← (List.range ndim).foldlM (coordStep ft p.coords) buf
  if ndim = 2 then .ok (buf ++ "0.0 ".toList) else .ok buf

theorem pointBody_ok (ft : FloatText K) (ndim : Nat) (p : Point K) (h : ndim ≤ p.coords.length) (buf : Text) :
    pointBody ft ndim buf p = .ok (buf ++ row (coordWords ft ndim p)) := by
  unfold pointBody coordWords
  rw [coordSteps ft _ _ h, Res.bind_ok]
  split
  · rw [row_append, row_single, zero_lit, List.append_assoc]
  · simp

theorem coordSteps_panic (ft : FloatText K) (coords : List K) (n : Nat) (h : coords.length < n) (buf : Text) :
    (List.range n).foldlM (coordStep ft coords) buf = .panic := by
  obtain ⟨d, rfl⟩ : ∃ d, n = coords.length + 1 + d := ⟨n - coords.length - 1, by omega⟩
  rw [List.range_add, List.foldlM_append, List.range_succ, List.foldlM_append, coordSteps ft _ _ le_rfl, Res.bind_ok,
    List.foldlM_cons]
  unfold coordStep Res.idx
  simp

theorem pointSteps (ft : FloatText K) (m : Mesh K) (h : ∀ p ∈ m.points, m.ndim ≤ p.coords.length) (buf : Text) :
    (List.range m.points.length).foldlM (pointStep ft m) buf = .ok (buf ++ row (m.points.flatMap (coordWords ft m.ndim))) := by
  have := foldlM_idx' (pointBody ft m.ndim) m.points buf
  rw [show pointStep ft m = fun s i => do
      let a ← Res.idx m.points i
      pointBody ft m.ndim s a from rfl, this]
  exact foldlM_row _ _ _ (fun p hp b => pointBody_ok ft _ p (h p hp) b) buf

theorem pointSteps_panic (ft : FloatText K) (m : Mesh K) (h : ∃ p ∈ m.points, p.coords.length < m.ndim) (buf : Text) :
    (List.range m.points.length).foldlM (pointStep ft m) buf = .panic := by
  have := foldlM_idx' (pointBody ft m.ndim) m.points buf
  rw [show pointStep ft m = fun s i => do
      let a ← Res.idx m.points i
      pointBody ft m.ndim s a from rfl, this]
  clear this
  generalize m.points = ps at h
  induction ps generalizing buf with
  | nil => simp at h
  | cons p ps ih =>
    rw [List.foldlM_cons]
    by_cases hp : p.coords.length < m.ndim
    · unfold pointBody
      rw [coordSteps_panic ft _ _ hp]
      rfl
    · rw [pointBody_ok ft _ p (by omega), Res.bind_ok]
      apply ih
      obtain ⟨q, hq, hl⟩ := h
      rw [List.mem_cons] at hq
      rcases hq with rfl | hq
      · exact absurd hl hp
      · exact ⟨q, hq, hl⟩

theorem connSteps (cs : List Cell) (h : ∀ c ∈ cs, c.kind.vtkType ≠ none) (buf : Text) :
    cs.foldlM connStep buf = .ok (buf ++ row ((cs.flatMap (·.points)).map showNat)) := by
  rw [foldlM_row _ (fun c => c.points.map showNat), List.map_flatMap]
  intro c hc b
  unfold connStep
  rw [if_neg (h c hc), foldl_row _ (fun p => [showNat p])]
  · rw [List.map_eq_flatMap]
  · intro a _ b; simp [row, space_lit]

theorem connSteps_err (cs : List Cell) (h : ∃ c ∈ cs, c.kind.vtkType = none) (buf : Text) : ∃ e, cs.foldlM connStep buf = .err e := by
  induction cs generalizing buf with
  | nil => simp at h
  | cons c cs ih =>
    rw [List.foldlM_cons]
    by_cases hc : c.kind.vtkType = none
    · unfold connStep
      rw [if_pos hc]
      exact ⟨_, rfl⟩
    · have : ∃ b, connStep buf c = .ok b := by unfold connStep; rw [if_neg hc]; exact ⟨_, rfl⟩
      obtain ⟨b, hb⟩ := this
      rw [hb, Res.bind_ok]
      apply ih
      obtain ⟨q, hq, hl⟩ := h
      rw [List.mem_cons] at hq
      rcases hq with rfl | hq
      · exact absurd hl hc
      · exact ⟨q, hq, hl⟩

/-- Numbers of points of the first cells, of the first two, … (plus `o`). -/
def offsets : Nat → List Cell → List Nat
  | _, [] => []
  | o, c :: cs => (o + c.points.length) :: offsets (o + c.points.length) cs

theorem offsetSteps (cs : List Cell) (buf : Text) (o : Nat) : (cs.foldl offsetStep (buf, o)).1 = buf ++ row ((offsets o cs).map showNat) := by
  induction cs generalizing buf o with
  | nil => simp [offsets, row]
  | cons c cs ih =>
    rw [List.foldl_cons]
    rw [show offsetStep (buf, o) c = (buf ++ showNat (o + c.points.length) ++ " ".toList, o + c.points.length) from rfl, ih]
    simp [offsets, row, space_lit]

/-- The code of a kind (0 if there is none). -/
def code (k : GeoKind) : Nat := k.vtkType.getD 0

theorem typeSteps (cs : List Cell) (h : ∀ c ∈ cs, c.kind.vtkType ≠ none) (buf : Text) :
    cs.foldl typeStep buf = buf ++ row (cs.map fun c => showNat (code c.kind)) := by
  rw [foldl_row _ (fun c => [showNat (code c.kind)])]
  · rw [List.map_eq_flatMap]
  · intro c hc b
    unfold typeStep code
    cases hk : c.kind.vtkType with
    | none => exact absurd hk (h c hc)
    | some v => simp [row, space_lit]

theorem pointMarkerSteps (m : Mesh K) (buf : Text) :
    (List.range m.points.length).foldlM (pointMarkerStep m) buf = .ok (buf ++ row (m.points.map fun p => showInt p.marker)) := by
  have := foldlM_idx' (fun (buf : Text) (p : Point K) => Res.ok (buf ++ showInt p.marker ++ " ".toList)) m.points buf
  rw [show pointMarkerStep m = fun s i => do
      let a ← Res.idx m.points i
      (fun (buf : Text) (p : Point K) => Res.ok (buf ++ showInt p.marker ++ " ".toList)) s a from rfl, this,
    foldlM_row _ (fun p => [showInt p.marker])]
  · rw [List.map_eq_flatMap]
  · intro a _ b; simp [row, space_lit]

theorem cellMarkerSteps (cs : List Cell) (buf : Text) :
    cs.foldl cellMarkerStep buf = buf ++ row (cs.map fun c => showInt c.marker) := by
  rw [foldl_row _ (fun c => [showInt c.marker])]
  · rw [List.map_eq_flatMap]
  · intro c _ b
    simp [cellMarkerStep, row, space_lit]

/-- The lines of the file. -/
def vtuLines (ft : FloatText K) (m : Mesh K) : List Text := [
  "<?xml version=\"1.0\"?>".toList,
  "<VTKFile type=\"UnstructuredGrid\" version=\"0.1\" byte_order=\"LittleEndian\">".toList,
  "<UnstructuredGrid>".toList,
  "<Piece NumberOfPoints=\"".toList ++ showNat m.points.length ++ "\" NumberOfCells=\"".toList ++ showNat m.cells.length ++ "\">".toList,
  "<Points>".toList,
  "<DataArray type=\"Float64\" NumberOfComponents=\"3\" format=\"ascii\">".toList,
  row (m.points.flatMap (coordWords ft m.ndim)),
  "</DataArray>".toList, "</Points>".toList, "<Cells>".toList,
  "<DataArray type=\"Int32\" Name=\"connectivity\" format=\"ascii\">".toList,
  row ((m.cells.flatMap (·.points)).map showNat),
  "</DataArray>".toList,
  "<DataArray type=\"Int32\" Name=\"offsets\" format=\"ascii\">".toList,
  row ((offsets 0 m.cells).map showNat),
  "</DataArray>".toList,
  "<DataArray type=\"UInt8\" Name=\"types\" format=\"ascii\">".toList,
  row (m.cells.map fun c => showNat (code c.kind)),
  "</DataArray>".toList, "</Cells>".toList, "<PointData Scalars=\"TheScalars\">".toList,
  "<DataArray type=\"Int32\" Name=\"marker\" NumberOfComponents=\"1\" format=\"ascii\">".toList,
  row (m.points.map fun p => showInt p.marker),
  "</DataArray>".toList, "</PointData>".toList, "<CellData Scalars=\"TheScalars\">".toList,
  "<DataArray type=\"Int32\" Name=\"marker\" NumberOfComponents=\"1\" format=\"ascii\">".toList,
  row (m.cells.map fun c => showInt c.marker),
  "</DataArray>".toList, "</CellData>".toList, "</Piece>".toList, "</UnstructuredGrid>".toList, "</VTKFile>".toList]

theorem lit0 : "<?xml version=\"1.0\"?>\n".toList = "<?xml version=\"1.0\"?>".toList ++ ['\n'] := by decide +kernel
theorem lit1 : "<VTKFile type=\"UnstructuredGrid\" version=\"0.1\" byte_order=\"LittleEndian\">\n".toList = "<VTKFile type=\"UnstructuredGrid\" version=\"0.1\" byte_order=\"LittleEndian\">".toList ++ ['\n'] := by decide +kernel
theorem lit2 : "<UnstructuredGrid>\n".toList = "<UnstructuredGrid>".toList ++ ['\n'] := by decide +kernel
theorem lit3 : "\">\n".toList = "\">".toList ++ ['\n'] := by decide +kernel
theorem lit4 : "<Points>\n".toList = "<Points>".toList ++ ['\n'] := by decide +kernel
theorem lit5 : "<DataArray type=\"Float64\" NumberOfComponents=\"3\" format=\"ascii\">\n".toList = "<DataArray type=\"Float64\" NumberOfComponents=\"3\" format=\"ascii\">".toList ++ ['\n'] := by decide +kernel
theorem lit6 : "\n</DataArray>\n".toList = '\n' :: ("</DataArray>".toList ++ ['\n']) := by decide +kernel
theorem lit7 : "</Points>\n".toList = "</Points>".toList ++ ['\n'] := by decide +kernel
theorem lit8 : "<Cells>\n".toList = "<Cells>".toList ++ ['\n'] := by decide +kernel
theorem lit9 : "<DataArray type=\"Int32\" Name=\"connectivity\" format=\"ascii\">\n".toList = "<DataArray type=\"Int32\" Name=\"connectivity\" format=\"ascii\">".toList ++ ['\n'] := by decide +kernel
theorem lit10 : "<DataArray type=\"Int32\" Name=\"offsets\" format=\"ascii\">\n".toList = "<DataArray type=\"Int32\" Name=\"offsets\" format=\"ascii\">".toList ++ ['\n'] := by decide +kernel
theorem lit11 : "<DataArray type=\"UInt8\" Name=\"types\" format=\"ascii\">\n".toList = "<DataArray type=\"UInt8\" Name=\"types\" format=\"ascii\">".toList ++ ['\n'] := by decide +kernel
theorem lit12 : "</Cells>\n".toList = "</Cells>".toList ++ ['\n'] := by decide +kernel
theorem lit13 : "<PointData Scalars=\"TheScalars\">\n".toList = "<PointData Scalars=\"TheScalars\">".toList ++ ['\n'] := by decide +kernel
theorem lit14 : "<DataArray type=\"Int32\" Name=\"marker\" NumberOfComponents=\"1\" format=\"ascii\">\n".toList = "<DataArray type=\"Int32\" Name=\"marker\" NumberOfComponents=\"1\" format=\"ascii\">".toList ++ ['\n'] := by decide +kernel
theorem lit15 : "</PointData>\n".toList = "</PointData>".toList ++ ['\n'] := by decide +kernel
theorem lit16 : "<CellData Scalars=\"TheScalars\">\n".toList = "<CellData Scalars=\"TheScalars\">".toList ++ ['\n'] := by decide +kernel
theorem lit17 : "</CellData>\n".toList = "</CellData>".toList ++ ['\n'] := by decide +kernel
theorem lit18 : "</Piece>\n".toList = "</Piece>".toList ++ ['\n'] := by decide +kernel
theorem lit19 : "</UnstructuredGrid>\n".toList = "</UnstructuredGrid>".toList ++ ['\n'] := by decide +kernel
theorem lit20 : "</VTKFile>\n".toList = "</VTKFile>".toList ++ ['\n'] := by decide +kernel

theorem writeVtu_eq (ft : FloatText K) (m : Mesh K) (hc : m.cells ≠ []) (h : ∀ p ∈ m.points, m.ndim ≤ p.coords.length)
    (hk : ∀ c ∈ m.cells, c.kind.vtkType ≠ none) :
    writeVtu ft m = .ok ((vtuLines ft m).flatMap fun l => l ++ ['\n']) := by
  unfold writeVtu
  rw [if_neg (by have := List.length_pos_iff.2 hc; omega)]
  dsimp only
  rw [pointSteps ft m h, Res.bind_ok, connSteps _ hk, Res.bind_ok, offsetSteps, typeSteps _ hk, pointMarkerSteps, Res.bind_ok,
    cellMarkerSteps]
  refine congrArg Res.ok ?_
  simp only [lit0, lit1, lit2, lit3, lit4, lit5, lit6, lit7, lit8, lit9, lit10, lit11, lit12, lit13, lit14, lit15, lit16, lit17, lit18, lit19, lit20, vtuLines, List.flatMap_cons, List.flatMap_nil, List.append_assoc, List.nil_append, List.append_nil,
    List.cons_append]

/-! ### Reading -/

theorem tag_cons (s : String) (ls : List Text) : tag s (s.toList :: ls) = some ls := by simp [tag]

theorem quoted_none (w r cur : Text) (h : '"' ∉ w) : quoted (w ++ r) cur = quoted r (w.reverse ++ cur) := by
  induction w generalizing cur with
  | nil => rfl
  | cons c w ih =>
    simp only [List.mem_cons, not_or] at h
    simp only [List.cons_append, quoted, if_neg (Ne.symm h.1)]
    rw [ih _ h.2]; simp

theorem quoted_quote (r cur : Text) : quoted ('"' :: r) cur = cur.reverse :: quoted r [] := by simp [quoted]

theorem showNat_no_quote (n : Nat) : '"' ∉ showNat n := by
  intro h
  obtain ⟨d, hd, he⟩ := showNat_digits n _ h
  have : ∀ d : Fin 10, '"' ≠ Char.ofNat (48 + d) := by decide
  exact this ⟨d, hd⟩ he

theorem pieceLine_eq (np nc : Nat) (h1 : np ≤ usizeMax) (h2 : nc ≤ usizeMax) (ls : List Text) :
    pieceLine (("<Piece NumberOfPoints=\"".toList ++ showNat np ++ "\" NumberOfCells=\"".toList ++ showNat nc ++ "\">".toList) :: ls) =
      some ((np, nc), ls) := by
  have e1 : "<Piece NumberOfPoints=\"".toList = "<Piece NumberOfPoints=".toList ++ ['"'] := by decide +kernel
  have e2 : "\" NumberOfCells=\"".toList = '"' :: (" NumberOfCells=".toList ++ ['"']) := by decide +kernel
  have e3 : "\">".toList = '"' :: ">".toList := by decide +kernel
  have q : quoted ("<Piece NumberOfPoints=\"".toList ++ showNat np ++ "\" NumberOfCells=\"".toList ++ showNat nc ++ "\">".toList) [] =
      ["<Piece NumberOfPoints=".toList, showNat np, " NumberOfCells=".toList, showNat nc, ">".toList] := by
    have n1 : '"' ∉ "<Piece NumberOfPoints=".toList := by decide +kernel
    have n2 : '"' ∉ " NumberOfCells=".toList := by decide +kernel
    have n3 : '"' ∉ ">".toList := by decide +kernel
    rw [e1, e2, e3]
    generalize "<Piece NumberOfPoints=".toList = a at n1 ⊢
    generalize " NumberOfCells=".toList = b at n2 ⊢
    generalize ">".toList = c at n3 ⊢
    have : a ++ ['"'] ++ showNat np ++ '"' :: (b ++ ['"']) ++ showNat nc ++ '"' :: c =
        a ++ '"' :: (showNat np ++ '"' :: (b ++ '"' :: (showNat nc ++ '"' :: (c ++ [])))) := by simp
    rw [this, quoted_none _ _ _ n1, quoted_quote, quoted_none _ _ _ (showNat_no_quote np), quoted_quote, quoted_none _ _ _ n2,
      quoted_quote, quoted_none _ _ _ (showNat_no_quote nc), quoted_quote, quoted_none _ _ _ n3]
    simp [quoted]
  unfold pieceLine
  dsimp only
  rw [q]
  dsimp only
  rw [if_pos ⟨rfl, rfl, rfl⟩, parseUsize_showNat np h1, parseUsize_showNat nc h2]
  rfl

theorem mapM_map {α β : Type} (parse : Text → Option β) (show' : α → Text) (val : α → β) (l : List α)
    (h : ∀ a ∈ l, parse (show' a) = some (val a)) : (l.map show').mapM parse = some (l.map val) := by
  induction l with
  | nil => rfl
  | cons a l ih =>
    rw [List.map_cons, List.mapM_cons, h a (by simp), ih fun a ha => h a (by simp [ha])]
    rfl

theorem parseId_showNat (n : Nat) (h : n < 2 ^ 31) : parseId (showNat n) = some n := by
  have e : showNat n = showInt n := by unfold showInt; rw [if_neg (by omega)]; simp
  unfold parseId
  rw [e, parseI32_showInt n (by omega) (by omega)]
  simp

theorem parseUInt8_showNat (n : Nat) (h : n < 256) : parseUInt8 (showNat n) = some n := by
  unfold parseUInt8
  rw [parseUsize_showNat n (by unfold usizeMax; omega)]
  simp [h]

theorem offsets_length (o : Nat) (cs : List Cell) : (offsets o cs).length = cs.length := by
  induction cs generalizing o with
  | nil => rfl
  | cons c cs ih => simp [offsets, ih]

theorem offsets_le (o : Nat) (cs : List Cell) : ∀ x ∈ offsets o cs, x ≤ o + (cs.flatMap (·.points)).length := by
  induction cs generalizing o with
  | nil => simp [offsets]
  | cons c cs ih =>
    intro x hx
    simp only [offsets, List.mem_cons] at hx
    rw [List.flatMap_cons, List.length_append]
    rcases hx with rfl | hx
    · omega
    · have := ih _ x hx; omega

theorem cutAt_offsets (cs : List Cell) (pre : List Nat) :
    cutAt (pre ++ cs.flatMap (·.points)) pre.length (offsets pre.length cs) = some (cs.map (·.points)) := by
  induction cs generalizing pre with
  | nil => simp [offsets, cutAt]
  | cons c cs ih =>
    have h := ih (pre ++ c.points)
    rw [List.length_append, List.append_assoc] at h
    simp only [offsets, cutAt, List.flatMap_cons]
    rw [if_pos (by simp), h]
    simp

theorem triples_flatMap {α : Type} (l : List α) (x y z : α → K) :
    triples (l.flatMap fun a => [x a, y a, z a]) = some (l.map fun a => (x a, y a, z a)) := by
  induction l with
  | nil => rfl
  | cons a l ih => simp only [List.flatMap_cons, List.cons_append, List.nil_append, triples, ih, List.map_cons, Option.map_some]

theorem bind_tag {α : Type} (s : String) (ls : List Text) (k : List Text → Option α) : (tag s (s.toList :: ls) >>= k) = k ls := by
  rw [tag_cons]; rfl

theorem bind_data {α : Type} (l : Text) (ls : List Text) (k : List Text × List Text → Option α) :
    (dataLine (l :: ls) >>= k) = k (words l, ls) := rfl

theorem bind_some_eq {α β : Type} {o : Option β} {v : β} (h : o = some v) (k : β → Option α) : (o >>= k) = k v := by
  rw [h]; rfl

theorem readVtu_lines (parse : Text → Option K) (t piece r1 r2 r3 r4 r5 r6 : Text) (np nc : Nat) (xs : List K) (pts : List (K × K × K))
    (cn os ty : List Nat) (cs : List (List Nat)) (pm cm : List Int)
    (hl : lines t = ["<?xml version=\"1.0\"?>".toList,
      "<VTKFile type=\"UnstructuredGrid\" version=\"0.1\" byte_order=\"LittleEndian\">".toList,
      "<UnstructuredGrid>".toList, piece, "<Points>".toList,
      "<DataArray type=\"Float64\" NumberOfComponents=\"3\" format=\"ascii\">".toList, r1,
      "</DataArray>".toList, "</Points>".toList, "<Cells>".toList,
      "<DataArray type=\"Int32\" Name=\"connectivity\" format=\"ascii\">".toList, r2, "</DataArray>".toList,
      "<DataArray type=\"Int32\" Name=\"offsets\" format=\"ascii\">".toList, r3, "</DataArray>".toList,
      "<DataArray type=\"UInt8\" Name=\"types\" format=\"ascii\">".toList, r4,
      "</DataArray>".toList, "</Cells>".toList, "<PointData Scalars=\"TheScalars\">".toList,
      "<DataArray type=\"Int32\" Name=\"marker\" NumberOfComponents=\"1\" format=\"ascii\">".toList, r5,
      "</DataArray>".toList, "</PointData>".toList, "<CellData Scalars=\"TheScalars\">".toList,
      "<DataArray type=\"Int32\" Name=\"marker\" NumberOfComponents=\"1\" format=\"ascii\">".toList, r6,
      "</DataArray>".toList, "</CellData>".toList, "</Piece>".toList, "</UnstructuredGrid>".toList, "</VTKFile>".toList])
    (hp : ∀ ls, pieceLine (piece :: ls) = some ((np, nc), ls))
    (h1 : (words r1).mapM parse = some xs) (ht : triples xs = some pts) (h2 : (words r2).mapM parseId = some cn)
    (h3 : (words r3).mapM parseId = some os) (hcut : cutAt cn 0 os = some cs) (h4 : (words r4).mapM parseUInt8 = some ty)
    (h5 : (words r5).mapM parseI32 = some pm) (h6 : (words r6).mapM parseI32 = some cm)
    (hlen : pts.length = np ∧ pm.length = np ∧ cs.length = nc ∧ ty.length = nc ∧ cm.length = nc) :
    readVtu parse t = some { points := pts, cells := ty.zip cs, pointMarkers := pm, cellMarkers := cm } := by
  unfold readVtu
  rw [hl]
  refine (bind_tag _ _ _).trans ?_
  refine (bind_tag _ _ _).trans ?_
  refine (bind_tag _ _ _).trans ?_
  refine (bind_some_eq (hp _) _).trans ?_
  refine (bind_tag _ _ _).trans ?_
  refine (bind_tag _ _ _).trans ?_
  refine (bind_data _ _ _).trans ?_
  refine (bind_tag _ _ _).trans ?_
  refine (bind_tag _ _ _).trans ?_
  refine (bind_tag _ _ _).trans ?_
  refine (bind_tag _ _ _).trans ?_
  refine (bind_data _ _ _).trans ?_
  refine (bind_tag _ _ _).trans ?_
  refine (bind_tag _ _ _).trans ?_
  refine (bind_data _ _ _).trans ?_
  refine (bind_tag _ _ _).trans ?_
  refine (bind_tag _ _ _).trans ?_
  refine (bind_data _ _ _).trans ?_
  refine (bind_tag _ _ _).trans ?_
  refine (bind_tag _ _ _).trans ?_
  refine (bind_tag _ _ _).trans ?_
  refine (bind_tag _ _ _).trans ?_
  refine (bind_data _ _ _).trans ?_
  refine (bind_tag _ _ _).trans ?_
  refine (bind_tag _ _ _).trans ?_
  refine (bind_tag _ _ _).trans ?_
  refine (bind_tag _ _ _).trans ?_
  refine (bind_data _ _ _).trans ?_
  refine (bind_tag _ _ _).trans ?_
  refine (bind_tag _ _ _).trans ?_
  refine (bind_tag _ _ _).trans ?_
  refine (bind_tag _ _ _).trans ?_
  refine (bind_tag _ _ _).trans ?_
  refine (bind_some_eq h1 _).trans ?_
  refine (bind_some_eq ht _).trans ?_
  refine (bind_some_eq h2 _).trans ?_
  refine (bind_some_eq h3 _).trans ?_
  refine (bind_some_eq hcut _).trans ?_
  refine (bind_some_eq h4 _).trans ?_
  refine (bind_some_eq h5 _).trans ?_
  refine (bind_some_eq h6 _).trans ?_
  exact if_pos ⟨rfl, hlen⟩

end Gemlab.Paraview
