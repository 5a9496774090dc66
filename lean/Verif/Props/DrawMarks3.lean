import Verif.Props.DrawMarks2

/-! # C77 (markers, boundary, range) -/
namespace Gemlab.Draw
open Gemlab Gemlab.Mesh Gemlab.Shapes Gemlab.Props.Mesh Gemlab.Props.Features Gemlab.Spec Gemlab.Scratchpad
noncomputable section

variable {m : Mesh ℝ} {extractAll : Bool} {x : Extracted ℝ} {F : Features}

theorem markerAngle_range (tol : ℝ) (un : Nat → ℝ) : -90 < markerAngle tol un ∧ markerAngle tol un ≤ 90 := by
  unfold markerAngle
  have h1 := Real.neg_pi_div_two_lt_arctan (un 1 / un 0)
  have h2 := Real.arctan_lt_pi_div_two (un 1 / un 0)
  have hp := Real.pi_pos
  split_ifs
  · norm_num
  · norm_num
  · constructor
    · rw [lt_div_iff₀ hp]; linarith
    · rw [div_le_iff₀ hp]; linarith

/-- **C77.** `edge_markers` in the plane: for the marked edges, in order, nothing if the edge is not stored (with the smaller end first); otherwise the number of the
marker half way along the normal (turned by an angle larger than -90 and up to 90 degrees), and a line along the normal. -/
theorem C77_edge_markers_2d (hF : IsNew m extractAll x F) (h : ValidMesh m) (h2 : m.ndim = 2) (mult tol : ℝ) :
    ∃ l, edgeMarkers F mult tol = .ok l.flatten ∧ List.Forall₂ (fun (e : Int × Nat × Nat) marks =>
      (F.edges.get (min e.2.1 e.2.2, max e.2.1 e.2.2) = none → marks = []) ∧
      ∀ f, F.edges.get (min e.2.1 e.2.2, max e.2.1 e.2.2) = some f → IsMarkerMarks m f (boxDiagonal 2 F.min F.max * mult) e.1 marks) m.markedEdges l := by
  have hstep : ∀ e : Int × Nat × Nat, ∃ marks, edgeMark F (boxDiagonal 2 F.min F.max * mult) tol e = .ok marks ∧
      (F.edges.get (min e.2.1 e.2.2, max e.2.1 e.2.2) = none → marks = []) ∧
      ∀ f, F.edges.get (min e.2.1 e.2.2, max e.2.1 e.2.2) = some f → IsMarkerMarks m f (boxDiagonal 2 F.min F.max * mult) e.1 marks := by
    intro e
    have hs : sort2 e.2.1 e.2.2 = (min e.2.1 e.2.2, max e.2.1 e.2.2) := by
      unfold sort2
      split
      · rw [min_eq_right (by omega), max_eq_left (by omega)]
      · rw [min_eq_left (by omega), max_eq_right (by omega)]
    unfold edgeMark
    rw [if_pos (by rw [hF.mesh]; exact h2), hs]
    cases hf : F.edges.get (min e.2.1 e.2.2, max e.2.1 e.2.2) with
    | none => exact ⟨_, rfl, fun _ => rfl, fun f hf => by cases hf⟩
    | some f =>
      obtain ⟨a1, a2, a3⟩ := stored_edge hF h h2 hf
      obtain ⟨px, un, n1, n2, n3⟩ := normalAt_ok h (.inl h2) (f := f) ⟨a1, a2, a3⟩
      have hmid : middleOf f.kind = fun _ => 0 := middleOf_edge (by omega)
      dsimp only
      rw [hF.mesh, ← hmid, n1, Res.bind_ok]
      refine ⟨_, rfl, ?_, ?_⟩
      · intro hn; simp at hn
      intro f' hf'
      rw [Option.some.injEq] at hf'
      subst hf'
      refine ⟨ahead 2 px un 0, ahead 2 px un (boxDiagonal 2 F.min F.max * mult), ahead 2 px un (1 / 2 * (boxDiagonal 2 F.min F.max * mult)), some (markerAngle tol un), rfl, ?_, ?_, ?_⟩
      · unfold IsNormalLine
        have := ahead_along (s := boxDiagonal 2 F.min F.max * mult) n2 n3
        rw [h2] at this ⊢
        exact this
      · unfold IsNormalLine
        have := ahead_along (s := 1 / 2 * (boxDiagonal 2 F.min F.max * mult)) n2 n3
        rw [h2] at this ⊢
        exact this
      · intro α hα
        cases hα
        exact markerAngle_range _ _
  choose g g1 g2 using hstep
  refine ⟨m.markedEdges.map g, ?_, ?_⟩
  · unfold edgeMarkers
    rw [diagonal_ok hF, Res.bind_ok, hF.mesh, h2, Res.mapM_eq_ok_of _ g _ fun e _ => g1 e, Res.bind_ok]
    rfl
  · rw [List.forall₂_map_right_iff, List.forall₂_same]
    exact fun e _ => g2 e

/-- **C77.** `edge_markers` in space: the number of each marker at the middle of the two points. -/
theorem C77_edge_markers_3d (hF : IsNew m extractAll x F) (h : ValidMesh m) (h3 : m.ndim = 3) (hr : ∀ e ∈ m.markedEdges, e.2.1 < m.points.length ∧ e.2.2 < m.points.length)
    (mult tol : ℝ) : edgeMarkers F mult tol = .ok (m.markedEdges.map fun e => .text ((List.range 3).map fun i =>
      1 / 2 * ((coordsOf m e.2.1).getD i 0 + (coordsOf m e.2.2).getD i 0)) none s!"{e.1}") := by
  have hstep : ∀ e ∈ m.markedEdges, edgeMark F (boxDiagonal 3 F.min F.max * mult) tol e = .ok [.text ((List.range 3).map fun i =>
      1 / 2 * ((coordsOf m e.2.1).getD i 0 + (coordsOf m e.2.2).getD i 0)) none s!"{e.1}"] := by
    intro e he
    obtain ⟨r1, r2⟩ := hr e he
    unfold edgeMark
    have hco : ∀ p (hp : p < m.points.length), ∀ i < 3, Res.idx m.points[p].coords i = .ok ((coordsOf m p).getD i 0) := by
      intro p hp i hi
      have hl : m.points[p].coords.length = 3 := by rw [h.coords _ (List.getElem_mem hp), h3]
      rw [Res.idx_of_lt (by omega)]
      unfold coordsOf
      rw [List.getElem?_eq_getElem hp]
      simp only [Option.map_some, Option.getD_some]
      rw [List.getD_eq_getElem _ _ (by omega)]
    rw [hF.mesh, if_neg (by omega), Res.idx_of_lt r1, Res.bind_ok, Res.idx_of_lt r2, Res.bind_ok, h3]
    rw [Res.mapM_eq_ok_of _ (fun i => 1 / 2 * ((coordsOf m e.2.1).getD i 0 + (coordsOf m e.2.2).getD i 0)) (List.range 3) (by
      intro i hi
      rw [hco _ r1 i (List.mem_range.1 hi), Res.bind_ok, hco _ r2 i (List.mem_range.1 hi), Res.bind_ok]
      rfl), Res.bind_ok]
    rfl
  unfold edgeMarkers
  rw [diagonal_ok hF, Res.bind_ok, hF.mesh, h3, Res.mapM_eq_ok_of _ _ _ hstep, Res.bind_ok]
  show Res.ok _ = _
  congr 1
  rw [← List.flatMap_def, ← List.map_eq_flatMap]

end
end Gemlab.Draw
