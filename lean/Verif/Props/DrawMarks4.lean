import Verif.Props.DrawMarks3
import Verif.Props.Draw
import Verif.Props.TriSurface2

/-! # C77 (faces, boundary, cells, range) -/
namespace Gemlab.Draw
open Gemlab Gemlab.Mesh Gemlab.Shapes Gemlab.Props.Mesh Gemlab.Props.Features Gemlab.Spec Gemlab.Scratchpad
noncomputable section

variable {m : Mesh ℝ} {extractAll : Bool} {x : Extracted ℝ} {F : Features}

/-- **C77.** `face_markers` in the plane: nothing. -/
theorem C77_face_markers_2d (hF : IsNew m extractAll x F) (h2 : m.ndim = 2) (mult : ℝ) : faceMarkers F mult = .ok [] := by
  unfold faceMarkers
  rw [if_pos (by rw [hF.mesh]; exact h2)]
  rfl

/-- **C77.** `face_markers` in space: for the marked faces, in order, nothing if the face (given by its points in any order) is not stored; otherwise the number of the
marker half way along the normal, and a line along the normal. -/
theorem C77_face_markers_3d (hF : IsNew m extractAll x F) (h : ValidMesh m) (h3 : m.ndim = 3) (mult : ℝ) :
    ∃ l, faceMarkers F mult = .ok l.flatten ∧ List.Forall₂ (fun (e : Int × Nat × Nat × Nat × Nat) marks =>
      ∀ key : FaceKey, key.toList.Pairwise (· ≤ ·) → key.toList.Perm [e.2.1, e.2.2.1, e.2.2.2.1, e.2.2.2.2] →
      (F.faces.get key = none → marks = []) ∧
      ∀ f, F.faces.get key = some f → IsMarkerMarks m f (boxDiagonal 3 F.min F.max * mult) e.1 marks) m.markedFaces l := by
  have hstep : ∀ e : Int × Nat × Nat × Nat × Nat, ∃ marks, faceMark F (boxDiagonal 3 F.min F.max * mult) e = .ok marks ∧
      ∀ key : FaceKey, key.toList.Pairwise (· ≤ ·) → key.toList.Perm [e.2.1, e.2.2.1, e.2.2.2.1, e.2.2.2.2] →
      (F.faces.get key = none → marks = []) ∧
      ∀ f, F.faces.get key = some f → IsMarkerMarks m f (boxDiagonal 3 F.min F.max * mult) e.1 marks := by
    intro e
    have hs : ∀ key : FaceKey, key.toList.Pairwise (· ≤ ·) → key.toList.Perm [e.2.1, e.2.2.1, e.2.2.2.1, e.2.2.2.2] →
        key = sort4 e.2.1 e.2.2.1 e.2.2.2.1 e.2.2.2.2 := by
      intro key h1 h2
      exact ((sort4_eq_iff _ _ _ _ key).2 ⟨h1, h2⟩).symm
    unfold faceMark
    cases hf : F.faces.get (sort4 e.2.1 e.2.2.1 e.2.2.2.1 e.2.2.2.2) with
    | none =>
      refine ⟨_, rfl, fun key h1 h2 => ?_⟩
      rw [hs key h1 h2, hf]
      exact ⟨fun _ => rfl, fun f hf => by cases hf⟩
    | some f =>
      obtain ⟨a1, a2, a3⟩ := stored_face hF h h3 hf
      obtain ⟨px, un, n1, n2, n3⟩ := normalAt_ok h (.inr h3) (f := f) ⟨a1, a2, a3⟩
      dsimp only
      rw [hF.mesh, middleKsi_eq, n1, Res.bind_ok]
      refine ⟨_, rfl, fun key h1 h2 => ?_⟩
      rw [hs key h1 h2, hf]
      refine ⟨fun hn => by simp at hn, ?_⟩
      intro f' hf'
      rw [Option.some.injEq] at hf'
      subst hf'
      refine ⟨ahead 3 px un 0, ahead 3 px un (boxDiagonal 3 F.min F.max * mult), ahead 3 px un (1 / 2 * (boxDiagonal 3 F.min F.max * mult)), none, rfl, ?_, ?_, ?_⟩
      · unfold IsNormalLine
        have := ahead_along (s := boxDiagonal 3 F.min F.max * mult) n2 n3
        rw [h3] at this ⊢
        exact this
      · unfold IsNormalLine
        have := ahead_along (s := 1 / 2 * (boxDiagonal 3 F.min F.max * mult)) n2 n3
        rw [h3] at this ⊢
        exact this
      · intro α hα
        cases hα
  choose g g1 g2 using hstep
  refine ⟨m.markedFaces.map g, ?_, ?_⟩
  · unfold faceMarkers
    rw [if_neg (by rw [hF.mesh, h3]; decide), diagonal_ok hF, Res.bind_ok, hF.mesh, h3, Res.mapM_eq_ok_of _ g _ fun e _ => g1 e, Res.bind_ok]
    rfl
  · rw [List.forall₂_map_right_iff, List.forall₂_same]
    exact fun e _ => g2 e

theorem xyz_coords (h : ValidMesh m) (h3 : m.ndim = 3) {p : Nat} (hp : p < m.points.length) :
    ∃ a, xyz m p = .ok a ∧ [a.1, a.2.1, a.2.2] = coordsOf m p := by
  have hl : m.points[p].coords.length = 3 := by rw [h.coords _ (List.getElem_mem hp), h3]
  unfold xyz
  rw [Res.idx_of_lt hp, Res.bind_ok, Res.idx_of_lt (by omega), Res.bind_ok, Res.idx_of_lt (by omega), Res.bind_ok, Res.idx_of_lt (by omega), Res.bind_ok]
  refine ⟨_, rfl, ?_⟩
  unfold coordsOf
  rw [List.getElem?_eq_getElem hp]
  simp only [Option.map_some, Option.getD_some]
  refine List.ext_getElem (by simp [hl]) fun i hi _ => ?_
  have : i < 3 := by simpa using hi
  interval_cases i <;> rfl

/-- **C77.** `boundary_edges_3d`: in space, one straight line for each edge of the faces that belong to a single cell, between its two end points. -/
theorem C77_boundary_edges (hF : IsNew m extractAll x F) (h : ValidMesh m) (h3 : m.ndim = 3) :
    ∃ keys : List EdgeKey, boundaryEdges3d F = .ok (keys.map fun k => .segment (coordsOf m k.1) (coordsOf m k.2)) ∧ keys.Nodup ∧
      ∀ key, key ∈ keys ↔ ∃ fkey face e, F.faces.get fkey = some face ∧ ExactlyOne (HasFace m fkey) ∧ HasFaceEdge face key e := by
  obtain ⟨keys, k1, k2, k3⟩ := C51_boundary_edges_3d hF h h3
  refine ⟨keys, ?_, k2, k3⟩
  unfold boundaryEdges3d
  rw [if_pos (by rw [hF.mesh]; exact h3), k1, Res.bind_ok]
  refine Res.mapM_eq_ok_of _ _ _ fun key hkey => ?_
  obtain ⟨fkey, face, e, hf, -, a, b, he, ha, hb, -, hab⟩ := (k3 key).1 hkey
  obtain ⟨-, -, s3⟩ := stored_face hF h h3 hf
  have la := s3 a (List.mem_of_getElem? ha)
  have lb := s3 b (List.mem_of_getElem? hb)
  have hr : key.1 < m.points.length ∧ key.2 < m.points.length := by
    rcases hab with rfl | rfl
    · exact ⟨la, lb⟩
    · exact ⟨lb, la⟩
  obtain ⟨p, p1, p2⟩ := xyz_coords h h3 hr.1
  obtain ⟨q, q1, q2⟩ := xyz_coords h h3 hr.2
  rw [hF.mesh, p1, Res.bind_ok, q1, Res.bind_ok, p2, q2]
  rfl

/-- **C77.** `boundary_edges_3d` in the plane: nothing. -/
theorem C77_boundary_edges_2d (hF : IsNew m extractAll x F) (h2 : m.ndim = 2) : boundaryEdges3d F = .ok [] := by
  unfold boundaryEdges3d
  rw [if_neg (by rw [hF.mesh, h2]; decide)]
  rfl

/-- **C77.** `boundary_faces_3d`: nothing in the plane. -/
theorem C77_boundary_faces_2d (hF : IsNew m extractAll x F) (h2 : m.ndim = 2) (iter : List (FaceKey × Feature) → List (FaceKey × Feature)) :
    boundaryFaces3d iter F = .ok none := by
  unfold boundaryFaces3d
  rw [if_neg (by rw [hF.mesh, h2]; decide)]
  rfl

/-- **C77.** `boundary_faces_3d`: in space, the triangles of exactly the faces that belong to a single cell (nothing, if there are none). -/
theorem C77_boundary_faces_3d (hF : IsNew m extractAll x F) (h : ValidMesh m) (h3 : m.ndim = 3)
    (iter : List (FaceKey × Feature) → List (FaceKey × Feature)) (hi : IterOrder iter) (hsmall : 324 * m.cells.length < usizeMax) :
    ∃ (faces : List (FaceKey × Feature)) (out : Option TriState), boundaryFaces3d iter F = .ok out ∧ (faces.map (·.1)).Nodup ∧
      (∀ key, key ∈ faces.map (·.1) ↔ ExactlyOne (HasFace m key)) ∧
      (∀ key f, (key, f) ∈ faces → ∃ c k, HasFace m key c k ∧ FaceOf m c k f ∧ f.kind.ndim = 2) ∧
      (out = none ↔ faces = []) ∧
      ∀ tr, out = some tr → ∃ label, IsTriangulation m (faces.map fun e => (e.2.kind, e.2.points)) label tr.xx tr.yy tr.zz tr.triangles := by
  obtain ⟨faces, tr, label, t1, t2, t3, t4, t5⟩ := C60_boundary hF h h3 iter hi hsmall
  obtain ⟨n1, -⟩ := C59_sizes t2
  refine ⟨faces, if tr.triangles.length > 0 then some tr else none, ?_, t3, t4, t5, ?_, ?_⟩
  · unfold boundaryFaces3d
    rw [if_pos (by rw [hF.mesh]; exact h3), t1, Res.bind_ok]
    rfl
  · cases faces with
    | nil =>
      rw [if_neg (by rw [n1]; simp)]; simp
    | cons e es =>
      obtain ⟨c, k, -, -, h2⟩ := t5 e.1 e.2 List.mem_cons_self
      have hp : 0 < e.2.kind.triangulateNtriangle := by
        revert h2
        cases e.2.kind <;> decide
      rw [if_pos (by rw [n1]; simp only [List.map_cons, List.sum_cons]; omega)]
      simp
  · intro tr' htr
    split at htr
    · cases htr
      exact ⟨label, t2⟩
    · cases htr

/-- **C77.** `cells`: the commands are those of `draw_cell` for each cell in turn; the triangles are those of the shells (surface cells in space), if there are any. -/
theorem C77_cells (h : ValidMesh m) (hd : m.ndim = 2 ∨ m.ndim = 3) (hk : ∀ c ∈ m.cells, c.kind.ndim ≤ m.ndim) (hsmall : 96 * m.cells.length < usizeMax) :
    ∃ (parts : List (List Cmd)) (out : Option TriState) (shells : List Cell), cells m = .ok (parts.flatten, out) ∧ parts.length = m.cells.length ∧
      (∀ (c : Nat) (cmds : List Cmd), parts[c]? = some cmds → drawCell m c = .ok cmds) ∧
      shells.Sublist m.cells ∧ (∀ c, c ∈ shells ↔ c ∈ m.cells ∧ m.ndim = 3 ∧ c.kind.ndim = 2) ∧ (out = none ↔ shells = []) ∧
      ∀ tr, out = some tr → ∃ label, IsTriangulation m (shells.map fun c => (c.kind, c.points)) label tr.xx tr.yy tr.zz tr.triangles := by
  have hdraw : ∀ c ∈ List.range m.cells.length, ∃ cmds, drawCell m c = .ok cmds := by
    intro c hc
    obtain ⟨cell, hcell⟩ : ∃ cell, m.cells[c]? = some cell := ⟨_, List.getElem?_eq_getElem (List.mem_range.1 hc)⟩
    have hle := hk cell (List.mem_of_getElem? hcell)
    have hn : cell.kind.ndim = 1 ∨ cell.kind.ndim = 2 ∨ cell.kind.ndim = 3 := by
      cases cell.kind <;> decide
    have hek : cell.kind.ndim ≠ 1 → ∃ ek, cell.kind.edgeKind = some ek := by
      intro h1
      revert h1
      cases cell.kind <;> first | exact fun h1 => absurd rfl h1 | exact fun _ => ⟨_, rfl⟩
    rcases hd with h2 | h3
    · rcases hn with h1 | h1 | h1
      · obtain ⟨cmds, _, q, -⟩ := C72_line m h h2 c cell hcell h1
        exact ⟨cmds, q⟩
      · obtain ⟨cmds, _, q, -⟩ := C72_outline m h h2 c cell hcell h1
        exact ⟨cmds, q⟩
      · omega
    · rcases hn with h1 | h1 | h1
      · obtain ⟨cmds, q, -⟩ := C72_line_space m h h3 c cell hcell h1
        exact ⟨cmds, q⟩
      · obtain ⟨ek, hek⟩ := hek (by omega)
        obtain ⟨cmds, _, _, q, -⟩ := C72_outline_space m h h3 c cell hcell h1 ek hek
        exact ⟨cmds, q⟩
      · obtain ⟨ek, hek⟩ := hek (by omega)
        obtain ⟨parts, q, -⟩ := C72_solid m h h3 c cell hcell h1 ek hek
        exact ⟨_, q⟩
  have hg : ∃ g : Nat → List Cmd, ∀ c ∈ List.range m.cells.length, drawCell m c = .ok (g c) := by
    choose! g hg using hdraw
    exact ⟨g, hg⟩
  obtain ⟨g, hg⟩ := hg
  have hmem : ∀ c : Cell, c ∈ (if m.ndim = 3 then m.cells.filter fun c => c.kind.classOf = .tri ∨ c.kind.classOf = .qua else []) ↔ c ∈ m.cells ∧ m.ndim = 3 ∧ c.kind.ndim = 2 := by
    intro c
    have hc : (c.kind.classOf = .tri ∨ c.kind.classOf = .qua) ↔ c.kind.ndim = 2 := by
      cases c.kind <;> decide
    split_ifs with h3
    · rw [List.mem_filter]
      simp only [decide_eq_true_eq, hc]
      tauto
    · simp [h3]
  have hsub : (if m.ndim = 3 then m.cells.filter fun c => c.kind.classOf = .tri ∨ c.kind.classOf = .qua else []).Sublist m.cells := by
    split_ifs
    · exact List.filter_sublist
    · exact List.nil_sublist _
  have hparts : ∀ (c : Nat) (cmds : List Cmd), ((List.range m.cells.length).map g)[c]? = some cmds → drawCell m c = .ok cmds := by
    intro c cmds hc
    rw [List.getElem?_map, Option.map_eq_some_iff] at hc
    obtain ⟨c', hc', rfl⟩ := hc
    obtain ⟨hl, hh⟩ := List.getElem?_eq_some_iff.1 hc'
    rw [List.getElem_range] at hh
    subst hh
    exact hg c (List.mem_of_getElem? hc')
  unfold cells
  rw [Res.mapM_eq_ok_of _ g _ hg, Res.bind_ok]
  generalize (if m.ndim = 3 then m.cells.filter fun c => c.kind.classOf = .tri ∨ c.kind.classOf = .qua else []) = shells at hmem hsub
  by_cases hs : shells = []
  · refine ⟨_, none, shells, ?_, by simp, hparts, hsub, hmem, by simp [hs], by simp⟩
    subst hs
    rfl
  · have hv : ValidSurface m (shells.map fun c => (c.kind, c.points)) := by
      refine ⟨hd, h.coords, ?_, ?_, ?_⟩
      · intro c hc
        obtain ⟨c', hc', rfl⟩ := List.mem_map.1 hc
        exact h.nnode _ (hsub.subset hc')
      · intro c hc
        obtain ⟨c', hc', rfl⟩ := List.mem_map.1 hc
        exact h.inRange _ (hsub.subset hc')
      · rw [surfaceTriangles_length, List.map_map]
        have hle : (shells.map ((fun cell : GeoKind × List Nat => cell.1.triangulateNtriangle) ∘ fun c : Cell => (c.kind, c.points))).sum ≤ shells.length * 32 := by
          have := List.sum_le_card_nsmul (shells.map ((fun cell : GeoKind × List Nat => cell.1.triangulateNtriangle) ∘ fun c : Cell => (c.kind, c.points))) 32 (by
            intro v hv
            obtain ⟨c, -, rfl⟩ := List.mem_map.1 hv
            show c.kind.triangulateNtriangle ≤ 32
            cases c.kind <;> decide)
          rw [List.length_map, smul_eq_mul] at this
          exact this
        have := hsub.length_le
        omega
    obtain ⟨tr, label, t1, t2⟩ := C59_from_surface m _ hv
    refine ⟨_, some tr, shells, ?_, by simp, hparts, hsub, hmem, by simp [hs], ?_⟩
    · dsimp only
      rw [if_pos (List.length_pos_iff.2 hs), t1, Res.bind_ok]
      rfl
    · intro tr' htr
      cases htr
      exact ⟨label, t2⟩

/-- **C77.** The plotted range (if it is set) contains all points, provided that the multiplier is not negative; it is set if and only if the points are neither on a
vertical nor on a horizontal line. -/
theorem C77_range (big low : ℝ) (hd : 2 ≤ m.ndim) (hc : GoodCoords m) (hne : m.points ≠ []) (hb : ∀ p ∈ m.points, ∀ v ∈ p.coords, low ≤ v ∧ v ≤ big) (mRange : ℝ) :
    ∃ out, plotRange big low m mRange = .ok out ∧
      (out = none ↔ (∀ p ∈ m.points, ∀ q ∈ m.points, p.coords[0]? = q.coords[0]?) ∨ ∀ p ∈ m.points, ∀ q ∈ m.points, p.coords[1]? = q.coords[1]?) ∧
      ∀ x0 x1 y0 y1, out = some (x0, x1, y0, y1) → 0 ≤ mRange →
        ∀ p ∈ m.points, ∀ a b, p.coords[0]? = some a → p.coords[1]? = some b → x0 ≤ a ∧ a ≤ x1 ∧ y0 ≤ b ∧ b ≤ y1 := by
  obtain ⟨mn, mx, g1, g2⟩ := C24_get_limits big low m hc hne hb
  have l1 := g2.lenMin
  have l2 := g2.lenMax
  have i0 : mn[0]? = some mn[0] := List.getElem?_eq_getElem (by omega)
  have i1 : mn[1]? = some mn[1] := List.getElem?_eq_getElem (by omega)
  have j0 : mx[0]? = some mx[0] := List.getElem?_eq_getElem (by omega)
  have j1 : mx[1]? = some mx[1] := List.getElem?_eq_getElem (by omega)
  have hin : ∀ p ∈ m.points, ∃ a b, p.coords[0]? = some a ∧ p.coords[1]? = some b ∧ (mn[0] ≤ a ∧ a ≤ mx[0]) ∧ mn[1] ≤ b ∧ b ≤ mx[1] := by
    intro p hp
    have hl := hc p hp
    have e0 : p.coords[0]? = some p.coords[0] := List.getElem?_eq_getElem (by omega)
    have e1 : p.coords[1]? = some p.coords[1] := List.getElem?_eq_getElem (by omega)
    exact ⟨_, _, e0, e1, g2.inside _ (List.mem_map_of_mem hp) 0 _ _ _ i0 e0 j0, g2.inside _ (List.mem_map_of_mem hp) 1 _ _ _ i1 e1 j1⟩
  have flat : ∀ (i : Nat) (a b : ℝ), mn[i]? = some a → mx[i]? = some b → (∀ p ∈ m.points, ∃ v, p.coords[i]? = some v) →
      (¬ b - a > 0 ↔ ∀ p ∈ m.points, ∀ q ∈ m.points, p.coords[i]? = q.coords[i]?) := by
    intro i a b ha hb hv
    constructor
    · intro hab p hp q hq
      obtain ⟨v, hv1⟩ := hv p hp
      obtain ⟨w, hw1⟩ := hv q hq
      have := g2.inside _ (List.mem_map_of_mem hp) i _ _ _ ha hv1 hb
      have := g2.inside _ (List.mem_map_of_mem hq) i _ _ _ ha hw1 hb
      rw [hv1, hw1, Option.some.injEq]
      linarith
    · intro hall
      obtain ⟨X, hX, hXa⟩ := g2.attainedMin i a ha
      obtain ⟨Y, hY, hYb⟩ := g2.attainedMax i b hb
      obtain ⟨p, hp, rfl⟩ := List.mem_map.1 hX
      obtain ⟨q, hq, rfl⟩ := List.mem_map.1 hY
      have := hall p hp q hq
      rw [hXa, hYb, Option.some.injEq] at this
      linarith
  have f0 := flat 0 _ _ i0 j0 fun p hp => by obtain ⟨a, b, e, -⟩ := hin p hp; exact ⟨a, e⟩
  have f1 := flat 1 _ _ i1 j1 fun p hp => by obtain ⟨a, b, -, e, -⟩ := hin p hp; exact ⟨b, e⟩
  unfold plotRange
  rw [g1, Res.bind_ok]
  dsimp only
  rw [Res.idx_of_lt (by omega), Res.bind_ok, Res.idx_of_lt (by omega), Res.bind_ok, Res.idx_of_lt (by omega), Res.bind_ok, Res.idx_of_lt (by omega), Res.bind_ok]
  refine ⟨_, rfl, ?_, ?_⟩
  · rw [← f0, ← f1]
    split_ifs with hc
    · simp [hc.1, hc.2]
    · simp only [true_iff]
      by_contra hno
      push Not at hno
      exact hc hno
  · intro x0 x1 y0 y1 hout hm p hp a b ha hb
    obtain ⟨a', b', ea, eb, ⟨h1, h2⟩, h3, h4⟩ := hin p hp
    rw [ea, Option.some.injEq] at ha
    rw [eb, Option.some.injEq] at hb
    subst ha hb
    split_ifs at hout with hc
    simp only [Option.some.injEq, Prod.mk.injEq] at hout
    obtain ⟨rfl, rfl, rfl, rfl⟩ := hout
    have := mul_nonneg hm hc.1.le
    have := mul_nonneg hm hc.2.le
    refine ⟨by linarith, by linarith, by linarith, by linarith⟩

end
end Gemlab.Draw
