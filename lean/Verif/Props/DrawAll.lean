import Verif.Props.DrawMarks5

/-! # C77 (`Draw::all`) -/
namespace Gemlab.Draw
open Gemlab Gemlab.Mesh Gemlab.Shapes Gemlab.Props.Mesh Gemlab.Props.Features Gemlab.Spec Gemlab.Scratchpad
noncomputable section

variable {m : Mesh ℝ}

/-- Some layer needs the features of the mesh. -/
def needsFeatures (s : Settings) : Bool := s.showEdgeMarkers || s.showFaceMarkers || s.showNormalVectors || s.showBoundaryEdges3d || s.showBoundaryFaces

/-- The layers are those asked for, with the contents given by the functions for the single layers (`F`: the features of the boundary). -/
structure IsDrawing (iterE : List (EdgeKey × Feature) → List (EdgeKey × Feature)) (iterF iterB : List (FaceKey × Feature) → List (FaceKey × Feature))
    (s : Settings) (m : Mesh ℝ) (F : Features) (L : List Layer) : Prop where
  cells : ∀ a b, .cells a b ∈ L ↔ s.showCells ∧ Draw.cells m = .ok (a, b)
  cellIds : ∀ l, .cellIds l ∈ L ↔ s.showCellIds ∧ Draw.cellIds m s.showCellMarker = .ok l
  pointDots : ∀ l, .pointDots l ∈ L ↔ s.showPointDots ∧ Draw.pointDots m = .ok l
  pointIds : ∀ l, .pointIds l ∈ L ↔ s.showPointIds ∧ Draw.pointIds m s.showPointMarker = .ok l
  edgeMarkers : ∀ l, .edgeMarkers l ∈ L ↔ s.showEdgeMarkers ∧ Draw.edgeMarkers F s.mNormalVectorMarker s.tolEdgeMarker = .ok l
  faceMarkers : ∀ l, .faceMarkers l ∈ L ↔ s.showFaceMarkers ∧ Draw.faceMarkers F s.mNormalVectorMarker = .ok l
  normals : ∀ l, .normals l ∈ L ↔ s.showNormalVectors ∧ normalVectors iterE iterF F s.mNormalVector = .ok l
  boundaryFaces : ∀ l, .boundaryFaces l ∈ L ↔ s.showBoundaryFaces ∧ boundaryFaces3d iterB F = .ok l
  boundaryEdges : ∀ l, .boundaryEdges l ∈ L ↔ s.showBoundaryEdges3d ∧ boundaryEdges3d F = .ok l
  range2 : ∀ r, .range2 r ∈ L ↔ (m.ndim = 2 ∧ s.range2d = some r) ∨
    ((if m.ndim = 2 then s.range2d = none else s.range3d = none) ∧ plotRange f64Max (-f64Max) m s.mRange = .ok (some r))
  range3 : ∀ r, .range3 r ∈ L ↔ m.ndim ≠ 2 ∧ s.range3d = some r

theorem layerIf_ok {α : Type} {flag : Bool} {f : Res α} {g : α → Layer} {a : α} (h : f = .ok a) : layerIf flag f g = .ok (if flag then [g a] else []) := by
  unfold layerIf
  rw [h]
  cases flag <;> rfl

/-- The range is always computed. -/
theorem rangeLayer_ok (s : Settings) (hd : 2 ≤ m.ndim) (hc : GoodCoords m) (hne : m.points ≠ []) (hb : ∀ p ∈ m.points, ∀ v ∈ p.coords, -f64Max ≤ v ∧ v ≤ f64Max) :
    ∃ l, rangeLayer s m = .ok l ∧ (∀ x ∈ l, (∃ r, x = .range2 r) ∨ ∃ r, x = .range3 r) ∧
      (∀ r, .range2 r ∈ l ↔ (m.ndim = 2 ∧ s.range2d = some r) ∨
        ((if m.ndim = 2 then s.range2d = none else s.range3d = none) ∧ plotRange f64Max (-f64Max) m s.mRange = .ok (some r))) ∧
      ∀ r, .range3 r ∈ l ↔ m.ndim ≠ 2 ∧ s.range3d = some r := by
  obtain ⟨out, ho, -⟩ := C77_range f64Max (-f64Max) hd hc hne hb s.mRange
  unfold rangeLayer
  rw [ho, Res.bind_ok]
  dsimp only
  by_cases h2 : m.ndim = 2
  · rw [if_pos h2]
    cases hr : s.range2d with
    | none =>
      cases out with
      | none => exact ⟨[], rfl, by simp, by simp [h2, hr], by simp [h2]⟩
      | some r => exact ⟨[.range2 r], rfl, fun x hx => .inl ⟨r, List.mem_singleton.1 hx⟩, by simp [h2, eq_comm], by simp [h2]⟩
    | some r => exact ⟨[.range2 r], rfl, fun x hx => .inl ⟨r, List.mem_singleton.1 hx⟩, by simp [h2, eq_comm], by simp [h2]⟩
  · rw [if_neg h2]
    cases hr : s.range3d with
    | none =>
      cases out with
      | none => exact ⟨[], rfl, by simp, by simp [h2, hr], by simp⟩
      | some r => exact ⟨[.range2 r], rfl, fun x hx => .inl ⟨r, List.mem_singleton.1 hx⟩, by simp [h2, eq_comm], by simp⟩
    | some r => exact ⟨[.range3 r], rfl, fun x hx => .inr ⟨r, List.mem_singleton.1 hx⟩, by simp [h2], by simp [h2, eq_comm]⟩

/-- **C77.** `Draw::all` on a valid mesh with finite coordinates: if the features can be found (or no layer needs them), the layers are those asked for; and if a
layer needs the features, and the mesh has no extent in some direction, it panics. -/
theorem C77_all (h : ValidMesh m) (hd : m.ndim = 2 ∨ m.ndim = 3) (hk : ∀ c ∈ m.cells, c.kind.ndim ≤ m.ndim) (hne : m.points ≠ [])
    (hb : ∀ p ∈ m.points, ∀ v ∈ p.coords, -f64Max ≤ v ∧ v ≤ f64Max) (hr : ∀ e ∈ m.markedEdges, e.2.1 < m.points.length ∧ e.2.2 < m.points.length)
    (hsmall : 324 * m.cells.length < usizeMax) (o : Orders) (ho : o.Valid) (s : Settings)
    {iterE : List (EdgeKey × Feature) → List (EdgeKey × Feature)} {iterF iterB : List (FaceKey × Feature) → List (FaceKey × Feature)}
    (hE : IterOrder iterE) (hF : IterOrder iterF) (hB : IterOrder iterB) :
    (∀ F, Features.new o m false = .ok F → ∃ L, all o iterE iterF iterB s m = .ok L ∧ IsDrawing iterE iterF iterB s m F L) ∧
    (needsFeatures s = false → ∃ L, all o iterE iterF iterB s m = .ok L ∧ ∀ F, IsDrawing iterE iterF iterB s m F L) ∧
    (Features.new o m false = .panic → needsFeatures s = true → all o iterE iterF iterB s m = .panic) := by
  obtain ⟨parts, out, -, c1, -⟩ := C77_cells h hd hk (by omega)
  obtain ⟨c3, c2⟩ := C77_points h hd s.showPointMarker
  obtain ⟨l4, c4, -⟩ := C77_cell_labels h hd s.showCellMarker
  obtain ⟨lr, r1, r2, r3, r4⟩ := rangeLayer_ok s (by omega) h.coords hne hb
  have hpre : ∀ R, featureLayers o iterE iterF iterB s m = .ok R → ∃ L, all o iterE iterF iterB s m = .ok L ∧ ∀ x, x ∈ L ↔
      (s.showCells ∧ x = .cells parts.flatten out) ∨ (s.showCellIds ∧ x = .cellIds l4) ∨ (s.showPointDots ∧ ∃ l, pointDots m = .ok l ∧ x = .pointDots l) ∨
      (s.showPointIds ∧ ∃ l, pointIds m s.showPointMarker = .ok l ∧ x = .pointIds l) ∨ x ∈ R ∨ x ∈ lr := by
    intro R hR
    unfold all
    rw [layerIf_ok c1, Res.bind_ok, layerIf_ok c4, Res.bind_ok, layerIf_ok c3, Res.bind_ok, layerIf_ok c2, Res.bind_ok, hR, Res.bind_ok, r1, Res.bind_ok]
    refine ⟨_, rfl, fun x => ?_⟩
    rw [c3, c2]
    simp only [List.mem_append, Res.ok.injEq]
    cases s.showCells <;> cases s.showCellIds <;> cases s.showPointDots <;> cases s.showPointIds <;> simp [or_assoc]
  have hend : ∀ (F : Features) (R L : List Layer), (∀ x, x ∈ R ↔
      (s.showEdgeMarkers ∧ ∃ l, edgeMarkers F s.mNormalVectorMarker s.tolEdgeMarker = .ok l ∧ x = .edgeMarkers l) ∨
      (s.showFaceMarkers ∧ ∃ l, faceMarkers F s.mNormalVectorMarker = .ok l ∧ x = .faceMarkers l) ∨
      (s.showNormalVectors ∧ ∃ l, normalVectors iterE iterF F s.mNormalVector = .ok l ∧ x = .normals l) ∨
      (s.showBoundaryFaces ∧ ∃ l, boundaryFaces3d iterB F = .ok l ∧ x = .boundaryFaces l) ∨
      (s.showBoundaryEdges3d ∧ ∃ l, boundaryEdges3d F = .ok l ∧ x = .boundaryEdges l)) → (∀ x, x ∈ L ↔
      (s.showCells ∧ x = .cells parts.flatten out) ∨ (s.showCellIds ∧ x = .cellIds l4) ∨ (s.showPointDots ∧ ∃ l, pointDots m = .ok l ∧ x = .pointDots l) ∨
      (s.showPointIds ∧ ∃ l, pointIds m s.showPointMarker = .ok l ∧ x = .pointIds l) ∨ x ∈ R ∨ x ∈ lr) → IsDrawing iterE iterF iterB s m F L := by
    intro F R L hR hL
    have hn : ∀ x, x ∈ lr → (∃ r, x = .range2 r) ∨ ∃ r, x = .range3 r := r2
    constructor
    · intro a b
      rw [hL, hR, c1]
      have : Layer.cells a b ∉ lr := fun hx => by rcases hn _ hx with ⟨r, hr⟩ | ⟨r, hr⟩ <;> cases hr
      simp [this, @eq_comm _ a, @eq_comm _ b]
    · intro l
      rw [hL, hR, c4]
      have : Layer.cellIds l ∉ lr := fun hx => by rcases hn _ hx with ⟨r, hr⟩ | ⟨r, hr⟩ <;> cases hr
      simp [this, @eq_comm _ l]
    · intro l
      rw [hL, hR]
      have : Layer.pointDots l ∉ lr := fun hx => by rcases hn _ hx with ⟨r, hr⟩ | ⟨r, hr⟩ <;> cases hr
      simp [this]
    · intro l
      rw [hL, hR]
      have : Layer.pointIds l ∉ lr := fun hx => by rcases hn _ hx with ⟨r, hr⟩ | ⟨r, hr⟩ <;> cases hr
      simp [this]
    · intro l
      rw [hL, hR]
      have : Layer.edgeMarkers l ∉ lr := fun hx => by rcases hn _ hx with ⟨r, hr⟩ | ⟨r, hr⟩ <;> cases hr
      simp [this]
    · intro l
      rw [hL, hR]
      have : Layer.faceMarkers l ∉ lr := fun hx => by rcases hn _ hx with ⟨r, hr⟩ | ⟨r, hr⟩ <;> cases hr
      simp [this]
    · intro l
      rw [hL, hR]
      have : Layer.normals l ∉ lr := fun hx => by rcases hn _ hx with ⟨r, hr⟩ | ⟨r, hr⟩ <;> cases hr
      simp [this]
    · intro l
      rw [hL, hR]
      have : Layer.boundaryFaces l ∉ lr := fun hx => by rcases hn _ hx with ⟨r, hr⟩ | ⟨r, hr⟩ <;> cases hr
      simp [this]
    · intro l
      rw [hL, hR]
      have : Layer.boundaryEdges l ∉ lr := fun hx => by rcases hn _ hx with ⟨r, hr⟩ | ⟨r, hr⟩ <;> cases hr
      simp [this]
    · intro r
      rw [hL, hR, r3]
      simp
    · intro r
      rw [hL, hR, r4]
      simp
  refine ⟨fun F hnew => ?_, fun hno => ?_, fun hpanic hyes => ?_⟩
  · obtain ⟨x, hx, hy, hz⟩ := C47_new m h hd hb o ho false
    have hN : IsNew m false x F := by
      by_cases hs : ∀ i < m.ndim, ∃ p q, FeaturePoint m x p ∧ FeaturePoint m x q ∧ (coordsOf m p).getD i 0 < (coordsOf m q).getD i 0
      · obtain ⟨F', f1, f2⟩ := hy hs
        rw [hnew, Res.ok.injEq] at f1
        exact f1 ▸ f2
      · rw [hz hs] at hnew
        cases hnew
    have ⟨p1, d1⟩ : ∃ l, edgeMarkers F s.mNormalVectorMarker s.tolEdgeMarker = .ok l := by
      rcases hd with h2 | h3
      · obtain ⟨l, hl, -⟩ := C77_edge_markers_2d hN h h2 s.mNormalVectorMarker s.tolEdgeMarker
        exact ⟨_, hl⟩
      · exact ⟨_, C77_edge_markers_3d hN h h3 hr _ _⟩
    have ⟨p2, d2⟩ : ∃ l, faceMarkers F s.mNormalVectorMarker = .ok l := by
      rcases hd with h2 | h3
      · exact ⟨_, C77_face_markers_2d hN h2 _⟩
      · obtain ⟨l, hl, -⟩ := C77_face_markers_3d hN h h3 s.mNormalVectorMarker
        exact ⟨_, hl⟩
    have ⟨p3, d3⟩ : ∃ l, normalVectors iterE iterF F s.mNormalVector = .ok l := by
      rcases hd with h2 | h3
      · obtain ⟨l, _, hl, -⟩ := C77_normals_2d hN h h2 hE (iterF := iterF) s.mNormalVector
        exact ⟨_, hl⟩
      · obtain ⟨l, _, _, hl, -⟩ := C77_normals_3d hN h h3 hF (iterE := iterE) s.mNormalVector
        exact ⟨_, hl⟩
    have ⟨p4, d4⟩ : ∃ l, boundaryFaces3d iterB F = .ok l := by
      rcases hd with h2 | h3
      · exact ⟨_, C77_boundary_faces_2d hN h2 _⟩
      · obtain ⟨_, l, hl, -⟩ := C77_boundary_faces_3d hN h h3 iterB hB hsmall
        exact ⟨_, hl⟩
    have ⟨p5, d5⟩ : ∃ l, boundaryEdges3d F = .ok l := by
      rcases hd with h2 | h3
      · exact ⟨_, C77_boundary_edges_2d hN h2⟩
      · obtain ⟨l, hl, -⟩ := C77_boundary_edges hN h h3
        exact ⟨_, hl⟩
    have hR : ∃ R, featureLayers o iterE iterF iterB s m = .ok R ∧ ∀ x, x ∈ R ↔
      (s.showEdgeMarkers ∧ ∃ l, edgeMarkers F s.mNormalVectorMarker s.tolEdgeMarker = .ok l ∧ x = .edgeMarkers l) ∨
      (s.showFaceMarkers ∧ ∃ l, faceMarkers F s.mNormalVectorMarker = .ok l ∧ x = .faceMarkers l) ∨
      (s.showNormalVectors ∧ ∃ l, normalVectors iterE iterF F s.mNormalVector = .ok l ∧ x = .normals l) ∨
      (s.showBoundaryFaces ∧ ∃ l, boundaryFaces3d iterB F = .ok l ∧ x = .boundaryFaces l) ∨
      (s.showBoundaryEdges3d ∧ ∃ l, boundaryEdges3d F = .ok l ∧ x = .boundaryEdges l) := by
      unfold featureLayers
      rw [d1, d2, d3, d4, d5]
      rw [hnew, Res.bind_ok, layerIf_ok d1, Res.bind_ok, layerIf_ok d2, Res.bind_ok, layerIf_ok d3, Res.bind_ok, layerIf_ok d4, Res.bind_ok, layerIf_ok d5, Res.bind_ok]
      have hall : ∀ x : Layer, x ∈ ((((if s.showEdgeMarkers then [Layer.edgeMarkers p1] else []) ++ (if s.showFaceMarkers then [Layer.faceMarkers p2] else [])) ++
          (if s.showNormalVectors then [Layer.normals p3] else [])) ++ (if s.showBoundaryFaces then [Layer.boundaryFaces p4] else [])) ++
          (if s.showBoundaryEdges3d then [Layer.boundaryEdges p5] else []) ↔
          (s.showEdgeMarkers ∧ x = .edgeMarkers p1) ∨ (s.showFaceMarkers ∧ x = .faceMarkers p2) ∨ (s.showNormalVectors ∧ x = .normals p3) ∨
          (s.showBoundaryFaces ∧ x = .boundaryFaces p4) ∨ (s.showBoundaryEdges3d ∧ x = .boundaryEdges p5) := by
        intro x
        simp only [List.mem_append]
        cases s.showEdgeMarkers <;> cases s.showFaceMarkers <;> cases s.showNormalVectors <;> cases s.showBoundaryFaces <;> cases s.showBoundaryEdges3d <;> simp [or_assoc]
      simp only [Res.ok.injEq, exists_eq_left']
      by_cases hif : (s.showEdgeMarkers || s.showFaceMarkers || s.showNormalVectors || s.showBoundaryEdges3d || s.showBoundaryFaces) = true
      · rw [if_pos hif]
        exact ⟨_, rfl, hall⟩
      · rw [if_neg hif]
        refine ⟨_, rfl, fun x => ?_⟩
        simp only [Bool.or_eq_true, not_or] at hif
        obtain ⟨⟨⟨⟨n1, n2⟩, n3⟩, n4⟩, n5⟩ := hif
        simp [n1, n2, n3, n4, n5]
    obtain ⟨R, hR1, hR2⟩ := hR
    obtain ⟨L, hL1, hL2⟩ := hpre R hR1
    exact ⟨L, hL1, hend F R L hR2 hL2⟩
  · have hR : featureLayers o iterE iterF iterB s m = .ok [] := by
      unfold featureLayers
      unfold needsFeatures at hno
      rw [hno]
      rfl
    obtain ⟨L, hL1, hL2⟩ := hpre _ hR
    refine ⟨L, hL1, fun F => hend F [] L ?_ hL2⟩
    unfold needsFeatures at hno
    simp only [Bool.or_eq_false_iff] at hno
    obtain ⟨⟨⟨⟨n1, n2⟩, n3⟩, n4⟩, n5⟩ := hno
    simp [n1, n2, n3, n4, n5]
  · unfold all
    rw [layerIf_ok c1, Res.bind_ok, layerIf_ok c4, Res.bind_ok, layerIf_ok c3, Res.bind_ok, layerIf_ok c2, Res.bind_ok]
    have hR : featureLayers o iterE iterF iterB s m = .panic := by
      unfold featureLayers
      unfold needsFeatures at hyes
      rw [hyes, hpanic]
      rfl
    rw [hR]
    rfl

/-- **C77.** In particular, the normals (or markers, or boundary) of a mesh whose points all have the same coordinate in some direction, such as a flat shell in space,
cannot be drawn: `all` panics. -/
theorem C77_all_flat (h : ValidMesh m) (hd : m.ndim = 2 ∨ m.ndim = 3) (hk : ∀ c ∈ m.cells, c.kind.ndim ≤ m.ndim) (hne : m.points ≠ [])
    (hb : ∀ p ∈ m.points, ∀ v ∈ p.coords, -f64Max ≤ v ∧ v ≤ f64Max) (hr : ∀ e ∈ m.markedEdges, e.2.1 < m.points.length ∧ e.2.2 < m.points.length)
    (hsmall : 324 * m.cells.length < usizeMax) (o : Orders) (ho : o.Valid) (s : Settings)
    {iterE : List (EdgeKey × Feature) → List (EdgeKey × Feature)} {iterF iterB : List (FaceKey × Feature) → List (FaceKey × Feature)}
    (hE : IterOrder iterE) (hF : IterOrder iterF) (hB : IterOrder iterB) (hs : needsFeatures s = true)
    {i : Nat} (hi : i < m.ndim) (z : ℝ) (hflat : ∀ p ∈ m.points, p.coords.getD i 0 = z) : all o iterE iterF iterB s m = .panic := by
  refine (C77_all h hd hk hne hb hr hsmall o ho s hE hF hB).2.2 ?_ hs
  obtain ⟨x, hx, hy, hz⟩ := C47_new m h hd hb o ho false
  refine hz fun hspread => ?_
  obtain ⟨F, -, hN⟩ := hy hspread
  obtain ⟨p, q, hp, hq, hlt⟩ := hspread i hi
  have hin : ∀ p, FeaturePoint m x p → (coordsOf m p).getD i 0 = z := by
    intro p hp
    have hl : p < m.points.length := by
      rcases hp with hp | ⟨cell, hc, -, hp⟩
      · obtain ⟨h2, hx⟩ | ⟨h3, hx⟩ := hN.extracted
        · obtain ⟨key, f, hf, hpf⟩ := (hx.points p).1 hp
          exact (stored_edge hN h h2 (by rw [hN.edges]; exact hf)).2.2 p hpf
        · obtain ⟨key, f, hf, hpf⟩ := (hx.points p).1 hp
          exact (stored_face hN h h3 (by rw [hN.faces]; exact hf)).2.2 p hpf
      · exact h.inRange cell hc p hp
    unfold coordsOf
    rw [List.getElem?_eq_getElem hl]
    exact hflat _ (List.getElem_mem hl)
  rw [hin p hp, hin q hq] at hlt
  exact lt_irrefl _ hlt

/-- The unit square, with everything asked for: all layers are drawn. -/
theorem C77_all_example (o : Orders) (ho : o.Valid) (s : Settings) {iterE : List (EdgeKey × Feature) → List (EdgeKey × Feature)}
    {iterF iterB : List (FaceKey × Feature) → List (FaceKey × Feature)} (hE : IterOrder iterE) (hF : IterOrder iterF) (hB : IterOrder iterB) :
    ∃ F L, Features.new o square false = .ok F ∧ all o iterE iterF iterB s square = .ok L ∧ IsDrawing iterE iterF iterB s square F L := by
  have hb : ∀ p ∈ square.points, ∀ v ∈ p.coords, -f64Max ≤ v ∧ v ≤ f64Max := by
    have hb : (1 : ℝ) ≤ f64Max := one_le_f64Max
    intro p hp v hv
    simp [square] at hp
    rcases hp with rfl | rfl | rfl | rfl <;> simp at hv
    · subst hv; constructor <;> linarith
    · rcases hv with rfl | rfl <;> constructor <;> linarith
    · subst hv; constructor <;> linarith
    · rcases hv with rfl | rfl <;> constructor <;> linarith
  obtain ⟨x, hx, h1, _⟩ := C47_new square square_valid (Or.inl rfl) hb o ho false
  obtain ⟨_, hx2⟩ | ⟨h3, _⟩ := id hx
  swap
  · simp [square] at h3
  have he01 : HasEdge square (0, 1) 0 0 := ⟨_, 1, 0, rfl, rfl, by decide, rfl, rfl, by decide, by decide⟩
  have he12 : HasEdge square (1, 2) 0 1 := ⟨_, 2, 1, rfl, rfl, by decide, rfl, rfl, by decide, by decide⟩
  have huniq : ∀ (k : Nat), k < 2 → ExactlyOne (HasEdge square (k, k + 1)) := by
    intro k hk
    refine ⟨0, k, by interval_cases k <;> assumption, ?_⟩
    rintro c e ⟨cell, a, b, hc, hk2, he, ha, hb, -, hkey⟩
    have hc0 : c = 0 := by
      have := (List.getElem?_eq_some_iff.1 hc).1
      simp [square] at this
      exact this
    subst hc0
    have hcell : cell = ⟨0, 1, .qua4, [0, 1, 2, 3]⟩ := by simpa [square] using hc.symm
    subst hcell
    change e < 4 at he
    refine ⟨rfl, ?_⟩
    interval_cases k <;> interval_cases e <;> simp [edgeNode, GeoKind.edgeNodeIds] at ha hb <;> simp_all <;> omega
  obtain ⟨f01, hf01⟩ := Option.isSome_iff_exists.1 ((hx2.accepted (0, 1)).2 ⟨⟨0, 0, he01⟩, Or.inr (huniq 0 (by decide))⟩)
  obtain ⟨f12, hf12⟩ := Option.isSome_iff_exists.1 ((hx2.accepted (1, 2)).2 ⟨⟨0, 1, he12⟩, Or.inr (huniq 1 (by decide))⟩)
  obtain ⟨_, a1, a2, _, a3, _⟩ := edge_key_points square_valid hx hf01
  obtain ⟨_, b1, b2, _, b3, _⟩ := edge_key_points square_valid hx hf12
  obtain ⟨F, hNew, hN⟩ := h1 (by
    intro i hi
    change i < 2 at hi
    interval_cases i
    · exact ⟨0, 1, Or.inl (a3 _ a1), Or.inl (a3 _ a2), by simp [coordsOf, square]⟩
    · exact ⟨1, 2, Or.inl (b3 _ b1), Or.inl (b3 _ b2), by simp [coordsOf, square]⟩)
  obtain ⟨L, l1, l2⟩ := (C77_all square_valid (.inl rfl) (by simp [square, GeoKind.ndim]) (by simp [square]) hb (by simp [square]) (by simp [square]; decide) o ho s hE hF hB).1 F hNew
  exact ⟨F, L, hNew, l1, l2⟩

end
end Gemlab.Draw
