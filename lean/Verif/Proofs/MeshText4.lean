import Verif.Proofs.MeshText3

/-! Round trip. -/
namespace Gemlab.MeshText
open Gemlab Gemlab.Mesh

variable {K : Type}

def pointWords (ft : FloatText K) (p : Point K) : List Text := showNat p.id :: showInt p.marker :: p.coords.map ft.fmt
def cellWords (c : Cell) : List Text := showNat c.id :: showInt c.marker :: c.kind.toStr.toList :: c.points.map showNat
def edgeWords (e : Int × Nat × Nat) : List Text := [showInt e.1, showNat e.2.1, showNat e.2.2]
def faceWords (e : Int × Nat × Nat × Nat × Nat) : List Text :=
  if e.2.2.2.2 = usizeMax then [showInt e.1, showNat e.2.1, showNat e.2.2.1, showNat e.2.2.2.1]
  else [showInt e.1, showNat e.2.1, showNat e.2.2.1, showNat e.2.2.2.1, showNat e.2.2.2.2]
def headerWords (m : Mesh K) : List Text :=
  [showNat m.ndim, showNat m.points.length, showNat m.cells.length, showNat m.markedEdges.length, showNat m.markedFaces.length]

theorem pointLine_eq (ft : FloatText K) (ndim : Nat) (hd : ndim = 2 ∨ ndim = 3) (p : Point K) (hp : p.coords.length = ndim) :
    pointLine ft ndim p = .ok (spaced (pointWords ft p)) := by
  unfold pointLine pointWords
  obtain ⟨id, mk, co⟩ := p
  dsimp only at hp ⊢
  rcases hd with rfl | rfl
  · match co, hp with
    | [x, y], _ => rfl
  · match co, hp with
    | [x, y, z], _ => rfl

theorem cellLine_eq (c : Cell) : cellLine c = spaced (cellWords c) := by
  unfold cellLine cellWords
  rw [spaced_append _ (by simp)]
  rfl

theorem faceLine_eq (e : Int × Nat × Nat × Nat × Nat) : faceLine e = spaced (faceWords e) := by
  unfold faceLine faceWords
  split <;> rfl

theorem mapM_ok {α β : Type} (f : α → Res β) (g : α → β) (l : List α) (h : ∀ a ∈ l, f a = .ok (g a)) : l.mapM f = .ok (l.map g) := by
  induction l with
  | nil => rfl
  | cons a l ih =>
    rw [List.mapM_cons, h a (by simp), ih fun a ha => h a (by simp [ha])]
    rfl

/-- Lines of the text of a mesh. -/
def theLines (ft : FloatText K) (m : Mesh K) : List Text :=
  ["# header".toList, "# ndim npoint ncell nmarked_edge nmarked_face".toList, spaced (headerWords m),
     [], "# points".toList, "# id marker x y {z}".toList] ++ m.points.map (fun p => spaced (pointWords ft p)) ++
    [[], "# cells".toList, "# id marker kind points".toList] ++ m.cells.map (fun c => spaced (cellWords c)) ++
    (if m.markedEdges.length > 0 then
      [[], "# marked edges".toList, "# marker p1 p2".toList] ++ m.markedEdges.map fun e => spaced (edgeWords e)
     else []) ++
    (if m.markedFaces.length > 0 then
      [[], "# marked faces".toList, "# marker p1 p2 p3 {p4}".toList] ++ m.markedFaces.map fun e => spaced (faceWords e)
     else [])

theorem display_eq (ft : FloatText K) (m : Mesh K) (h : WellFormed m) :
    display ft m = .ok ((theLines ft m).flatMap fun l => l ++ ['\n']) := by
  unfold display meshLines
  rw [mapM_ok _ (fun p => spaced (pointWords ft p)) _ fun p hp => pointLine_eq ft _ h.dim p (h.coords p hp)]
  have h1 : m.cells.map cellLine = m.cells.map fun c => spaced (cellWords c) := List.map_congr_left fun c _ => cellLine_eq c
  have h2 : m.markedFaces.map faceLine = m.markedFaces.map fun c => spaced (faceWords c) := List.map_congr_left fun c _ => faceLine_eq c
  rw [h1, h2]
  rfl

theorem comment_lines : ∀ l ∈ (["# header".toList, "# ndim npoint ncell nmarked_edge nmarked_face".toList, [], "# points".toList,
    "# id marker x y {z}".toList, "# cells".toList, "# id marker kind points".toList, "# marked edges".toList, "# marker p1 p2".toList,
    "# marked faces".toList, "# marker p1 p2 p3 {p4}".toList] : List Text), ('\n' ∉ l ∧ '\r' ∉ l) ∧ dataOf l = none := by
  decide +kernel

theorem edgeWords_word (e : Int × Nat × Nat) : ∀ w ∈ edgeWords e, IsWord w := by
  intro w hw
  simp only [edgeWords, List.mem_cons, List.not_mem_nil, or_false] at hw
  rcases hw with rfl | rfl | rfl
  · exact showInt_word _
  · exact showNat_word _
  · exact showNat_word _

theorem faceWords_word (e : Int × Nat × Nat × Nat × Nat) : ∀ w ∈ faceWords e, IsWord w := by
  intro w hw
  unfold faceWords at hw
  split at hw <;> simp only [List.mem_cons, List.not_mem_nil, or_false] at hw
  · rcases hw with rfl | rfl | rfl | rfl
    · exact showInt_word _
    all_goals exact showNat_word _
  · rcases hw with rfl | rfl | rfl | rfl | rfl
    · exact showInt_word _
    all_goals exact showNat_word _

theorem headerWords_word (m : Mesh K) : ∀ w ∈ headerWords m, IsWord w := by
  intro w hw
  simp only [headerWords, List.mem_cons, List.not_mem_nil, or_false] at hw
  rcases hw with rfl | rfl | rfl | rfl | rfl
  all_goals exact showNat_word _

theorem cellWords_word (c : Cell) : ∀ w ∈ cellWords c, IsWord w := by
  intro w hw
  simp only [cellWords, List.mem_cons, List.mem_map] at hw
  rcases hw with rfl | rfl | rfl | ⟨p, _, rfl⟩
  · exact showNat_word _
  · exact showInt_word _
  · exact kind_word _
  · exact showNat_word _

theorem pointWords_word (ft : FloatText K) (m : Mesh K) (h : LosslessOn ft m) (p : Point K) (hp : p ∈ m.points) :
    ∀ w ∈ pointWords ft p, IsWord w := by
  intro w hw
  simp only [pointWords, List.mem_cons, List.mem_map] at hw
  rcases hw with rfl | rfl | ⟨x, hx, rfl⟩
  · exact showNat_word _
  · exact showInt_word _
  · exact (h p hp x hx).2

theorem theLines_clean (ft : FloatText K) (m : Mesh K) (h : LosslessOn ft m) : ∀ l ∈ theLines ft m, '\n' ∉ l ∧ '\r' ∉ l := by
  have key : ∀ ws : List Text, (∀ w ∈ ws, IsWord w) → '\n' ∉ spaced ws ∧ '\r' ∉ spaced ws :=
    fun ws h => ⟨spaced_no_nl ws h, spaced_no_cr ws h⟩
  have hc := comment_lines
  simp only [List.forall_mem_cons, List.not_mem_nil, false_imp_iff, implies_true, and_true] at hc
  obtain ⟨c1, c2, c3, c4, c5, c6, c7, c8, c9, c10, c11⟩ := hc
  intro l hl
  unfold theLines at hl
  simp only [List.mem_append, or_assoc] at hl
  rcases hl with hl | hl | hl | hl | hl | hl
  · simp only [List.mem_cons, List.not_mem_nil, or_false] at hl
    rcases hl with rfl | rfl | rfl | rfl | rfl | rfl
    · exact c1.1
    · exact c2.1
    · exact key _ (headerWords_word m)
    · exact ⟨by simp, by simp⟩
    · exact c4.1
    · exact c5.1
  · obtain ⟨p, hp, rfl⟩ := List.mem_map.mp hl
    exact key _ (pointWords_word ft m h p hp)
  · simp only [List.mem_cons, List.not_mem_nil, or_false] at hl
    rcases hl with rfl | rfl | rfl
    · exact ⟨by simp, by simp⟩
    · exact c6.1
    · exact c7.1
  · obtain ⟨p, hp, rfl⟩ := List.mem_map.mp hl
    exact key _ (cellWords_word p)
  · split at hl
    · simp only [List.mem_append, List.mem_cons, List.not_mem_nil, or_false, List.mem_map] at hl
      rcases hl with (rfl | rfl | rfl) | ⟨e, _, rfl⟩
      · exact ⟨by simp, by simp⟩
      · exact c8.1
      · exact c9.1
      · exact key _ (edgeWords_word e)
    · simp at hl
  · split at hl
    · simp only [List.mem_append, List.mem_cons, List.not_mem_nil, or_false, List.mem_map] at hl
      rcases hl with (rfl | rfl | rfl) | ⟨e, _, rfl⟩
      · exact ⟨by simp, by simp⟩
      · exact c10.1
      · exact c11.1
      · exact key _ (faceWords_word e)
    · simp at hl

theorem filterMap_map_some {α : Type} (l : List α) (f : α → Text) (g : α → List Text) (h : ∀ a ∈ l, dataOf (f a) = some (g a)) :
    (l.map f).filterMap dataOf = l.map g := by
  induction l with
  | nil => rfl
  | cons a l ih =>
    rw [List.map_cons, List.filterMap_cons, h a (by simp), ih fun a ha => h a (by simp [ha])]
    rfl

theorem dataOf_words (w : Text) (ws : List Text) (h : ∀ v ∈ w :: ws, IsWord v) (hh : w.head? ≠ some '#') :
    dataOf (spaced (w :: ws)) = some (w :: ws) := dataOf_spaced w ws h hh

/-- The data lines of the text of a mesh. -/
theorem theLines_data (ft : FloatText K) (m : Mesh K) (h : LosslessOn ft m) :
    (theLines ft m).filterMap dataOf = headerWords m :: (m.points.map (pointWords ft) ++ m.cells.map cellWords ++
      m.markedEdges.map edgeWords ++ m.markedFaces.map faceWords ++ []) := by
  have hc := comment_lines
  simp only [List.forall_mem_cons, List.not_mem_nil, false_imp_iff, implies_true, and_true] at hc
  obtain ⟨⟨_, c1⟩, ⟨_, c2⟩, ⟨_, c3⟩, ⟨_, c4⟩, ⟨_, c5⟩, ⟨_, c6⟩, ⟨_, c7⟩, ⟨_, c8⟩, ⟨_, c9⟩, ⟨_, c10⟩, _, c11⟩ := hc
  have hhd : dataOf (spaced (headerWords m)) = some (headerWords m) := dataOf_words _ _ (headerWords_word m) (showNat_head' _)
  have hp := filterMap_map_some m.points (fun p => spaced (pointWords ft p)) (pointWords ft)
    fun p hp => dataOf_words _ _ (pointWords_word ft m h p hp) (showNat_head' _)
  have hcl := filterMap_map_some m.cells (fun p => spaced (cellWords p)) cellWords
    fun p _ => dataOf_words _ _ (cellWords_word p) (showNat_head' _)
  have he := filterMap_map_some m.markedEdges (fun p => spaced (edgeWords p)) edgeWords
    fun p _ => dataOf_words _ _ (edgeWords_word p) (showInt_head _)
  have hf := filterMap_map_some m.markedFaces (fun p => spaced (faceWords p)) faceWords (by
    intro p _
    have := faceWords_word p
    revert this
    unfold faceWords
    split <;> intro this <;> exact dataOf_words _ _ this (showInt_head _))
  unfold theLines
  simp only [List.filterMap_append, List.filterMap_cons, List.filterMap_nil, c1, c2, c3, c4, c5, c6, c7, hhd, hp, hcl]
  have e1 : (if m.markedEdges.length > 0 then
      [[], "# marked edges".toList, "# marker p1 p2".toList] ++ m.markedEdges.map fun e => spaced (edgeWords e)
     else []).filterMap dataOf = m.markedEdges.map edgeWords := by
    split
    · simp only [List.filterMap_append, List.filterMap_cons, List.filterMap_nil, c3, c8, c9, he, List.nil_append]
    · have : m.markedEdges = [] := List.length_eq_zero_iff.mp (by omega)
      rw [this]; rfl
  have e2 : (if m.markedFaces.length > 0 then
      [[], "# marked faces".toList, "# marker p1 p2 p3 {p4}".toList] ++ m.markedFaces.map fun e => spaced (faceWords e)
     else []).filterMap dataOf = m.markedFaces.map faceWords := by
    split
    · simp only [List.filterMap_append, List.filterMap_cons, List.filterMap_nil, c3, c10, c11, hf, List.nil_append]
    · have : m.markedFaces = [] := List.length_eq_zero_iff.mp (by omega)
      rw [this]; rfl
  rw [e1, e2]
  simp

theorem display_dataLines (ft : FloatText K) (m : Mesh K) (h : WellFormed m) (hf : LosslessOn ft m) :
    ∃ t, display ft m = .ok t ∧ dataLines t = headerWords m :: (m.points.map (pointWords ft) ++ m.cells.map cellWords ++
      m.markedEdges.map edgeWords ++ m.markedFaces.map faceWords ++ []) := by
  refine ⟨_, display_eq ft m h, ?_⟩
  unfold dataLines
  rw [lines_join _ (theLines_clean ft m hf), theLines_data ft m hf]

theorem forall2_map {α β : Type} (R : β → α → Prop) (f : α → β) (l : List α) (h : ∀ a ∈ l, R (f a) a) : List.Forall₂ R (l.map f) l := by
  induction l with
  | nil => exact .nil
  | cons a l ih => exact .cons (h a (by simp)) (ih fun a ha => h a (by simp [ha]))

variable [Zero K]

theorem denotes_display (ft : FloatText K) (m : Mesh K) (h : WellFormed m) (hf : LosslessOn ft m) (hr : MachineRange m)
    (h1 : m.points = [] → m.cells = []) (h2 : m.cells = [] → m.markedEdges = [] ∧ m.markedFaces = []) :
    Denotes ft (headerWords m :: (m.points.map (pointWords ft) ++ m.cells.map cellWords ++
      m.markedEdges.map edgeWords ++ m.markedFaces.map faceWords ++ [])) m := by
  have hu : usizeMax = 2 ^ 64 - 1 := rfl
  refine ⟨_, _, _, _, _, _, rfl, ?_, ?_, h.pointIds, ?_, ?_, h.cellIds, ?_, ?_, ?_, ?_⟩
  · refine ⟨by simp [headerWords], ?_⟩
    unfold headerWords
    simp only [List.take_succ_cons, List.take_zero]
    refine .cons (parseUsize_showNat _ ?_) (.cons (parseUsize_showNat _ hr.npoint) (.cons (parseUsize_showNat _ hr.ncell)
      (.cons (parseUsize_showNat _ hr.nedge) (.cons (parseUsize_showNat _ hr.nface) .nil))))
    rcases h.dim with e | e <;> rw [e, hu] <;> omega
  · apply forall2_map
    intro p hp
    have hid : p.id ≤ usizeMax := by
      obtain ⟨i, hi, he⟩ := List.mem_iff_getElem.mp hp
      have := h.pointIds i p (by rw [List.getElem?_eq_getElem hi, he])
      have := hr.npoint
      omega
    have hl := h.coords p hp
    refine ⟨_, _, _, rfl, parseUsize_showNat _ hid, parseI32_showInt _ (hr.points p hp).1 (hr.points p hp).2, p.coords, ?_, ?_, ?_⟩
    · exact forall2_map _ _ _ fun x hx => (hf p hp x hx).1
    · rcases h.dim with e | e <;> rw [hl, e] <;> rfl
    · rw [hl]; simp
  · intro _; rcases h.dim with e | e <;> omega
  · apply forall2_map
    intro c hc
    have hid : c.id ≤ usizeMax := by
      obtain ⟨i, hi, he⟩ := List.mem_iff_getElem.mp hc
      have := h.cellIds i c (by rw [List.getElem?_eq_getElem hi, he])
      have := hr.ncell
      omega
    refine ⟨_, _, _, _, rfl, parseUsize_showNat _ hid, parseI32_showInt _ (hr.cells c hc).1.1 (hr.cells c hc).1.2, kind_roundtrip _, ?_,
      h.cellPoints c hc⟩
    exact forall2_map _ _ _ fun p hp => parseUsize_showNat _ ((hr.cells c hc).2 p hp)
  · apply forall2_map
    intro e he
    obtain ⟨r1, r2, r3⟩ := hr.edges e he
    exact ⟨_, _, rfl, parseI32_showInt _ r1.1 r1.2, .cons (parseUsize_showNat _ r2) (.cons (parseUsize_showNat _ r3) .nil)⟩
  · apply forall2_map
    intro e he
    obtain ⟨r1, r2, r3, r4, r5⟩ := hr.faces e he
    unfold faceWords
    split
    · rename_i hm
      exact ⟨_, _, rfl, parseI32_showInt _ r1.1 r1.2, Or.inl ⟨.cons (parseUsize_showNat _ r2) (.cons (parseUsize_showNat _ r3)
        (.cons (parseUsize_showNat _ r4) .nil)), hm⟩⟩
    · exact ⟨_, _, rfl, parseI32_showInt _ r1.1 r1.2, Or.inr ⟨by simp, .cons (parseUsize_showNat _ r2) (.cons (parseUsize_showNat _ r3)
        (.cons (parseUsize_showNat _ r4) (.cons (parseUsize_showNat _ r5) .nil)))⟩⟩
  · intro hp
    have hc := h1 hp
    have := h2 hc
    simp [hc, this.1, this.2]
  · intro hc
    have := h2 hc
    simp [this.1, this.2]

end Gemlab.MeshText
