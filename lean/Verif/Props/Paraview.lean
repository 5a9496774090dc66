import Verif.Proofs.Paraview
import Verif.Spec.MeshText
import Mathlib.Tactic.NormNum

/-!
# C61: `Mesh::write_vtu`

`readVtu` (Spec/Paraview) reads the file the way the VTK XML format says; the theorems say what it finds in the file written by `write_vtu`.
Creation and writing of the file itself are not modelled.
-/
namespace Gemlab.Props.Paraview
open Gemlab Gemlab.Mesh Gemlab.MeshText Gemlab.Paraview

variable {K : Type} [Zero K]

/-- **C61.** The kinds that have a VTK type, and their codes, are those of the table of VTK cell types. -/
theorem C61_vtk_type (k : GeoKind) (t : Nat) :
    k.vtkType = some t ↔ ∃ e ∈ vtkName, e.1 = k ∧ ∃ v ∈ vtkCells, v.2.1 = e.2 ∧ v.1 = t := by
  constructor
  · intro h
    cases k <;> simp only [GeoKind.vtkType, reduceCtorEq, Option.some.injEq] at h <;> subst h <;> decide +kernel
  · rintro ⟨e, he, rfl, v, hv, hn, rfl⟩
    have : ∀ e ∈ vtkName, ∀ v ∈ vtkCells, v.2.1 = e.2 → e.1.vtkType = some v.1 := by decide +kernel
    exact this e he v hv hn

/-- **C61.** A cell has as many nodes as its VTK type, and they are in the order of VTK: the reference coordinates of the nodes are VTK's
parametric coordinates, mapped from `[0, 1]` to `[-1, 1]` for lines, quadrilaterals and hexahedra. -/
theorem C61_vtk_node_order : ∀ e ∈ vtkName, ∀ v ∈ vtkCells, v.2.1 = e.2 →
    v.2.2.length = e.1.nnode ∧
    e.1.referenceCoords = v.2.2.map fun x => x.map fun s : ℤ =>
      if e.1.classOf = .tri ∨ e.1.classOf = .tet then (s : ℚ) / 6 else 2 * ((s : ℚ) / 6) - 1 := by
  decide +kernel

/-- **C61.** Without cells: error. -/
theorem C61_no_cells (ft : FloatText K) (m : Mesh K) (h : m.cells = []) : ∃ e, writeVtu ft m = .err e := by
  unfold writeVtu; rw [if_pos (by simp [h])]; exact ⟨_, rfl⟩

/-- **C61.** If there are cells and every point has its coordinates: success if and only if every cell has a VTK type, and otherwise an
error. -/
theorem C61_outcome (ft : FloatText K) (m : Mesh K) (hc : m.cells ≠ []) (h : ∀ p ∈ m.points, m.ndim ≤ p.coords.length) :
    ((∃ t, writeVtu ft m = .ok t) ↔ ∀ c ∈ m.cells, ∃ e ∈ vtkName, e.1 = c.kind) ∧
    ((∃ e, writeVtu ft m = .err e) ↔ ∃ c ∈ m.cells, ∀ e ∈ vtkName, e.1 ≠ c.kind) := by
  have key : ∀ k : GeoKind, k.vtkType ≠ none ↔ ∃ e ∈ vtkName, e.1 = k := by
    intro k; cases k <;> decide +kernel
  by_cases hk : ∀ c ∈ m.cells, c.kind.vtkType ≠ none
  · rw [writeVtu_eq ft m hc h hk]
    refine ⟨⟨fun _ c hm => (key _).1 (hk c hm), fun _ => ⟨_, rfl⟩⟩, ⟨fun ⟨e, he⟩ => by simp at he, ?_⟩⟩
    rintro ⟨c, hm, hn⟩
    obtain ⟨e, he, h1⟩ := (key _).1 (hk c hm)
    exact absurd h1 (hn e he)
  · have hk' : ∃ c ∈ m.cells, c.kind.vtkType = none := by
      by_contra hh
      exact hk fun c hm hn => hh ⟨c, hm, hn⟩
    have he : ∃ e, writeVtu ft m = .err e := by
      unfold writeVtu
      rw [if_neg (by have := List.length_pos_iff.2 hc; omega)]
      dsimp only
      rw [pointSteps ft m h, Res.bind_ok]
      generalize (_ ++ _ : Text) = buf
      obtain ⟨e, he⟩ := connSteps_err m.cells hk' buf
      rw [he]
      exact ⟨e, rfl⟩
    obtain ⟨e, he⟩ := he
    rw [he]
    obtain ⟨c, hm, hn⟩ := hk'
    refine ⟨⟨fun ⟨t, ht⟩ => by simp at ht, fun hh => absurd ((key _).2 (hh c hm)) (by simp [hn])⟩,
      ⟨fun _ => ⟨c, hm, fun e he h1 => absurd ((key _).2 ⟨e, he, h1⟩) (by simp [hn])⟩, fun _ => ⟨e, rfl⟩⟩⟩

/-- **C61.** A panic occurs if and only if there are cells and a point without enough coordinates. -/
theorem C61_panic (ft : FloatText K) (m : Mesh K) :
    writeVtu ft m = .panic ↔ m.cells ≠ [] ∧ ∃ p ∈ m.points, p.coords.length < m.ndim := by
  constructor
  · intro hp
    by_cases hc : m.cells = []
    · obtain ⟨e, he⟩ := C61_no_cells ft m hc
      rw [he] at hp; simp at hp
    · refine ⟨hc, ?_⟩
      by_contra hh
      have h : ∀ p ∈ m.points, m.ndim ≤ p.coords.length := fun p hm => by
        by_contra hl
        exact hh ⟨p, hm, by omega⟩
      have ho := C61_outcome ft m hc h
      by_cases hk : ∀ c ∈ m.cells, ∃ e ∈ vtkName, e.1 = c.kind
      · obtain ⟨t, ht⟩ := ho.1.2 hk
        rw [ht] at hp; simp at hp
      · obtain ⟨e, he⟩ := ho.2.2 (by
          by_contra hn
          exact hk fun c hm => by
            by_contra hq
            exact hn ⟨c, hm, fun e he h1 => hq ⟨e, he, h1⟩⟩)
        rw [he] at hp; simp at hp
  · rintro ⟨hc, h⟩
    unfold writeVtu
    rw [if_neg (by have := List.length_pos_iff.2 hc; omega)]
    dsimp only
    rw [pointSteps_panic ft m h]
    rfl

/-- The integers of the file are in the range of `Int32`, the type that is declared for them. -/
structure InInt32 (m : Mesh K) : Prop where
  pointMarkers : ∀ p ∈ m.points, InI32 p.marker
  cellMarkers : ∀ c ∈ m.cells, InI32 c.marker
  ids : ∀ c ∈ m.cells, ∀ p ∈ c.points, p < 2 ^ 31
  total : (m.cells.flatMap (·.points)).length < 2 ^ 31

/-- **C61.** The file says what the mesh is: the coordinates of the points (with `z = 0` in 2D), in order; for each cell, in order, the VTK
type of its kind and its points; the markers of the points and of the cells. -/
theorem C61_read_back (ft : FloatText K) (m : Mesh K) (hd : m.ndim = 2 ∨ m.ndim = 3) (hp : ∀ p ∈ m.points, p.coords.length = m.ndim)
    (hc : m.cells ≠ []) (hk : ∀ c ∈ m.cells, ∃ e ∈ vtkName, e.1 = c.kind) (hf : LosslessOn ft m)
    (hz : ft.parse "0.0".toList = some 0) (hr : InInt32 m) (hl : m.points.length ≤ usizeMax ∧ m.cells.length ≤ usizeMax) :
    ∃ t V, writeVtu ft m = .ok t ∧ readVtu ft.parse t = some V ∧
      V.points.length = m.points.length ∧
      (∀ (i : Nat) (p : Point K), m.points[i]? = some p →
        (m.ndim = 2 → ∃ x y, p.coords = [x, y] ∧ V.points[i]? = some (x, y, 0)) ∧
        (m.ndim = 3 → ∃ x y z, p.coords = [x, y, z] ∧ V.points[i]? = some (x, y, z))) ∧
      V.cells.length = m.cells.length ∧
      (∀ (i : Nat) (c : Cell), m.cells[i]? = some c → ∃ t, V.cells[i]? = some (t, c.points) ∧
        ∃ e ∈ vtkName, e.1 = c.kind ∧ ∃ v ∈ vtkCells, v.2.1 = e.2 ∧ v.1 = t) ∧
      V.pointMarkers = m.points.map (·.marker) ∧ V.cellMarkers = m.cells.map (·.marker) := by
  have key : ∀ k : GeoKind, k.vtkType ≠ none ↔ ∃ e ∈ vtkName, e.1 = k := by
    intro k; cases k <;> decide +kernel
  have hk' : ∀ c ∈ m.cells, c.kind.vtkType ≠ none := fun c hm => (key _).2 (hk c hm)
  have hw := writeVtu_eq ft m hc (fun p hm => (hp p hm).ge) hk'
  -- words
  have w1 : ∀ w ∈ m.points.flatMap (coordWords ft m.ndim), IsWord w := by
    intro w hw
    rw [List.mem_flatMap] at hw
    obtain ⟨p, hm, hw⟩ := hw
    unfold coordWords at hw
    rw [List.mem_append] at hw
    rcases hw with hw | hw
    · obtain ⟨x, hx, rfl⟩ := List.mem_map.1 hw
      have := hf p hm x (List.mem_of_mem_take hx)
      exact ⟨this.2.1, this.2.2⟩
    · split at hw
      · rw [List.mem_singleton] at hw
        subst hw
        exact ⟨by decide +kernel, by decide +kernel⟩
      · simp at hw
  have wn : ∀ {α : Type} (l : List α) (f : α → Nat), ∀ w ∈ l.map (fun a => showNat (f a)), IsWord w := by
    intro α l f w hw
    obtain ⟨n, _, rfl⟩ := List.mem_map.1 hw
    exact showNat_word _
  have wi : ∀ {α : Type} (l : List α) (f : α → Int), ∀ w ∈ l.map (fun a => showInt (f a)), IsWord w := by
    intro α l f w hw
    obtain ⟨n, _, rfl⟩ := List.mem_map.1 hw
    exact showInt_word _
  have w2 := wn (m.cells.flatMap (·.points)) id
  have w3 := wn (offsets 0 m.cells) id
  have w4 := wn m.cells fun c => code c.kind
  have w5 := wi m.points fun p => p.marker
  have w6 := wi m.cells fun c => c.marker
  simp only [id] at w2 w3
  -- lines
  have hlines : lines ((vtuLines ft m).flatMap fun l => l ++ ['\n']) = vtuLines ft m := by
    apply lines_join
    have hlit : ∀ s : String, (∀ c ∈ s.toList, c ≠ '\n' ∧ c ≠ '\r') → '\n' ∉ s.toList ∧ '\r' ∉ s.toList :=
      fun s h => ⟨fun hc => (h _ hc).1 rfl, fun hc => (h _ hc).2 rfl⟩
    have hnum : ∀ n, '\n' ∉ showNat n ∧ '\r' ∉ showNat n := fun n =>
      ⟨fun hc => absurd ((showNat_word n).2 _ hc) (by decide), fun hc => absurd ((showNat_word n).2 _ hc) (by decide)⟩
    intro l hl
    unfold vtuLines at hl
    simp only [List.mem_cons, List.not_mem_nil, or_false] at hl
    rcases hl with rfl | rfl | rfl | rfl | rfl | rfl | rfl | rfl | rfl | rfl | rfl | rfl | rfl | rfl | rfl | rfl | rfl | rfl | rfl |
      rfl | rfl | rfl | rfl | rfl | rfl | rfl | rfl | rfl | rfl | rfl | rfl | rfl | rfl
    case inr.inr.inr.inl =>
      have a1 := hlit "<Piece NumberOfPoints=\"" (by decide +kernel)
      have a2 := hlit "\" NumberOfCells=\"" (by decide +kernel)
      have a3 := hlit "\">" (by decide +kernel)
      have b1 := hnum m.points.length
      have b2 := hnum m.cells.length
      simp only [List.mem_append, not_or]
      tauto
    all_goals first
      | exact row_clean _ w1
      | exact row_clean _ w2
      | exact row_clean _ w3
      | exact row_clean _ w4
      | exact row_clean _ w5
      | exact row_clean _ w6
      | exact hlit _ (by decide +kernel)
  -- values
  let X : Point K → K := fun p => p.coords.getD 0 0
  let Y : Point K → K := fun p => p.coords.getD 1 0
  let Z : Point K → K := fun p => if m.ndim = 3 then p.coords.getD 2 0 else 0
  have v1 : (m.points.flatMap (coordWords ft m.ndim)).mapM ft.parse = some (m.points.flatMap fun p => [X p, Y p, Z p]) := by
    have : ∀ (l : List (Point K)), (∀ p ∈ l, p ∈ m.points) →
        (l.flatMap (coordWords ft m.ndim)).mapM ft.parse = some (l.flatMap fun p => [X p, Y p, Z p]) := by
      intro l
      induction l with
      | nil => intro _; rfl
      | cons p l ih =>
        intro hl
        have hm := hl p (by simp)
        have h1 : (coordWords ft m.ndim p).mapM ft.parse = some [X p, Y p, Z p] := by
          have hfp := hf p hm
          have hlp := hp p hm
          simp only [X, Y, Z, coordWords]
          generalize "0.0".toList = w0 at hz ⊢
          rcases hd with hd | hd
          · rw [hd] at hlp
            obtain ⟨x, y, hxy⟩ := List.length_eq_two.1 hlp
            rw [hxy] at hfp ⊢
            have hx := (hfp x (by simp)).1
            have hy := (hfp y (by simp)).1
            simp [hd, hx, hy, hz]
          · rw [hd] at hlp
            obtain ⟨x, y, z, hxy⟩ := List.length_eq_three.1 hlp
            rw [hxy] at hfp ⊢
            have hx := (hfp x (by simp)).1
            have hy := (hfp y (by simp)).1
            have hz := (hfp z (by simp)).1
            simp [hd, hx, hy, hz]
        rw [List.flatMap_cons, List.flatMap_cons, List.mapM_append, h1, ih fun q hq => hl q (by simp [hq])]
        rfl
    exact this _ fun _ h => h
  have v2 := mapM_map parseId showNat id (m.cells.flatMap (·.points)) (fun n hn => by
    obtain ⟨c, hm, hn⟩ := List.mem_flatMap.1 hn
    exact parseId_showNat n (hr.ids c hm n hn))
  have v3 := mapM_map parseId showNat id (offsets 0 m.cells) (fun n hn => parseId_showNat n (by
    have := offsets_le 0 m.cells n hn
    have := hr.total
    omega))
  have v4 := mapM_map parseUInt8 (fun c : Cell => showNat (code c.kind)) (fun c => code c.kind) m.cells (fun c _ =>
    parseUInt8_showNat _ (by cases c.kind <;> decide +kernel))
  have v5 := mapM_map parseI32 (fun p : Point K => showInt p.marker) (·.marker) m.points (fun p hm =>
    parseI32_showInt _ (hr.pointMarkers p hm).1 (hr.pointMarkers p hm).2)
  have v6 := mapM_map parseI32 (fun c : Cell => showInt c.marker) (·.marker) m.cells (fun c hm =>
    parseI32_showInt _ (hr.cellMarkers c hm).1 (hr.cellMarkers c hm).2)
  have hcut := cutAt_offsets m.cells []
  rw [List.nil_append, List.length_nil] at hcut
  rw [List.map_id] at v2 v3
  have hread : readVtu ft.parse ((vtuLines ft m).flatMap fun l => l ++ ['\n']) =
      some { points := m.points.map fun p => (X p, Y p, Z p), cells := (m.cells.map fun c => code c.kind).zip (m.cells.map (·.points)), pointMarkers := m.points.map (·.marker), cellMarkers := m.cells.map (·.marker) } := by
    refine readVtu_lines ft.parse _ _ _ _ _ _ _ _ _ _ _ _ _ _ _ _ _ _ hlines (pieceLine_eq _ _ hl.1 hl.2) ?_ (triples_flatMap m.points X Y Z)
      ?_ ?_ hcut ?_ ?_ ?_ (by simp)
    · rw [words_row _ w1]; exact v1
    · rw [words_row _ w2]; exact v2
    · rw [words_row _ w3]; exact v3
    · rw [words_row _ w4]; exact v4
    · rw [words_row _ w5]; exact v5
    · rw [words_row _ w6]; exact v6
  refine ⟨_, _, hw, hread, by simp, ?_, by simp, ?_, rfl, rfl⟩
  · intro i p hi
    have hm := List.mem_of_getElem? hi
    have hlp := hp p hm
    refine ⟨fun h2 => ?_, fun h3 => ?_⟩
    · rw [h2] at hlp
      obtain ⟨x, y, hxy⟩ := List.length_eq_two.1 hlp
      exact ⟨x, y, hxy, by simp [hi, X, Y, Z, hxy, h2]⟩
    · rw [h3] at hlp
      obtain ⟨x, y, z, hxy⟩ := List.length_eq_three.1 hlp
      exact ⟨x, y, z, hxy, by simp [hi, X, Y, Z, hxy, h3]⟩
  · intro i c hi
    have hm := List.mem_of_getElem? hi
    refine ⟨code c.kind, ?_, ?_⟩
    · rw [List.getElem?_zip_eq_some]
      simp [hi]
    · rw [← C61_vtk_type]
      unfold code
      obtain ⟨t, ht⟩ := Option.ne_none_iff_exists'.1 (hk' c hm)
      rw [ht]; rfl

/-! ### The hypotheses can be met: a mesh with a triangle and a line, and integers for coordinates -/

/-- Integers as texts ("0.0" for zero). -/
def exText : FloatText ℤ where
  fmt x := if x = 0 then "0.0".toList else showInt x
  parse w := if w = "0.0".toList then some 0 else parseI32 w

def exMesh : Mesh ℤ where
  ndim := 2
  points := [⟨0, -1, [0, 0]⟩, ⟨1, -2, [15, 0]⟩, ⟨2, 0, [0, -7]⟩]
  cells := [⟨0, 1, .tri3, [0, 1, 2]⟩, ⟨1, 2, .lin2, [2, 0]⟩]
  markedEdges := []
  markedFaces := []

example : ∃ t V, writeVtu exText exMesh = .ok t ∧ readVtu exText.parse t = some V ∧
    V.points.length = 3 ∧ V.cells.length = 2 ∧ V.pointMarkers = [-1, -2, 0] ∧ V.cellMarkers = [1, 2] := by
  obtain ⟨t, V, h1, h2, h3, -, h5, -, h7, h8⟩ := C61_read_back exText exMesh (Or.inl rfl) (by decide) (by decide) (by decide +kernel)
    (by unfold LosslessOn; decide +kernel) (by decide +kernel)
    ⟨by unfold InI32; decide, by unfold InI32; decide, by decide, by decide⟩ (by decide)
  exact ⟨t, V, h1, h2, h3, h5, h7, h8⟩

example : ∃ e, writeVtu exText { exMesh with cells := [⟨0, 1, .lin5, [0, 1, 2, 0, 1]⟩] } = .err e :=
  (C61_outcome exText _ (by decide) (by decide)).2.2 ⟨_, by simp; rfl, by decide⟩

end Gemlab.Props.Paraview
