import Verif.Props.Block3
import Verif.Props.Block4
import Verif.Props.Scratchpad

/-!
# Blocks: the hypotheses of the theorems are met
-/
namespace Gemlab.Block
noncomputable section
open Classical
open Gemlab.Mesh Gemlab.Shapes

theorem exactInverse_noPanic : ∀ n a, exactInverse n a ≠ .panic := by
  intro n a
  unfold exactInverse
  split <;> simp

theorem exactInverse_total : ∀ n a, detN n a ≠ 0 → ∃ r, exactInverse n a = .ok r := by
  intro n a h
  unfold exactInverse
  split
  · rename_i h0; exact absurd h0 h
  · exact ⟨_, rfl⟩

/-- The unit square with three divisions along y of different sizes, a marked edge and a side on a circle. -/
theorem example_block : ∃ at_ b, Reached exactInverse 4 2 at_ b ∧ NotTooFine b ∧ TargetOk b .qua8 ∧ ¬ Unmappable 4 2 at_ b .qua8 ∧
    b.edgeMarkers.get 0 = some (-5) ∧ constraintOf b 1 = some ⟨0, 1, 0, 0, 1⟩ ∧ b.transformIntoRing = false ∧ ndivAt b 0 = 2 ∧ ndivAt b 1 = 3 ∧ b.ndim = 2 ∧
    (∀ s, s ≠ 1 → constraintOf b s = none) ∧ ∀ ξ, isoMap 4 2 at_ ξ = (List.range 2).map fun a => 1 * ((1 + ξ.getD a 0) / 2) := by
  obtain ⟨at_, b, h1, -, h3⟩ := (C54_square exactInverse_spec exactInverse_noPanic exactInverse_total 1).2 one_ne_zero
  obtain ⟨i1, i2, i3, i4, i5, i6, i7, i8⟩ := C54_initial h1
  have r0 : Reached exactInverse 4 2 at_ b := .new h1
  have r1 := r0.weights2d [1, 1] [1, 2, 1]
  have r2 := r1.edgeConstraint 1 (some (.circle 0 0 1))
  have r3 := r2.edgeMarker 0 (-5)
  refine ⟨at_, _, r3, ?_⟩
  obtain ⟨c1, -⟩ := C42_set_edge_constraint r1 1 (some (.circle 0 0 1))
  obtain ⟨-, c2⟩ := c1 ⟨rfl, by omega⟩
  obtain ⟨m1, -⟩ := C57_set_edge_marker r2 0 (-5)
  obtain ⟨-, m2, m3⟩ := m1 (by decide)
  have d1 : (setDivWeights2d b [1, 1] [1, 2, 1]).1.ndiv = [2, 3] ∧ (setDivWeights2d b [1, 1] [1, 2, 1]).1.deltaKsi = [[1, 1], [1/2, 1, 1/2]] ∧
      (setDivWeights2d b [1, 1] [1, 2, 1]).1.transformIntoRing = false ∧ ∀ s, constraintOf (setDivWeights2d b [1, 1] [1, 2, 1]).1 s = none := by
    have l1 := r0.wf.ndivLen
    have l2 := r0.wf.deltaLen
    rw [i2] at l1 l2
    obtain ⟨p, q, e1⟩ := List.length_eq_two.1 l1
    obtain ⟨p', q', e2⟩ := List.length_eq_two.1 l2
    unfold setDivWeights2d
    rw [if_neg (by omega), if_neg (by simp), if_neg (by simp), if_neg (by norm_num), if_neg (by norm_num)]
    refine ⟨by rw [e1]; rfl, by rw [e2]; simp [scaled]; norm_num, i7, i4⟩
  obtain ⟨d1, d2, d3, d4⟩ := d1
  have e1 : (setEdgeConstraint (setDivWeights2d b [1, 1] [1, 2, 1]).1 1 (some (.circle 0 0 1))).1 = { (setDivWeights2d b [1, 1] [1, 2, 1]).1 with edgeConstraints := (setDivWeights2d b [1, 1] [1, 2, 1]).1.edgeConstraints.insert 1 (.circle 0 0 1) } := by
    unfold setEdgeConstraint
    rw [if_neg (by have := r1.wf.ndim_eq; omega), if_neg (by omega)]
  have n3 := r3.wf.ndim_eq
  have con : ∀ s, constraintOf (setEdgeMarker (setEdgeConstraint (setDivWeights2d b [1, 1] [1, 2, 1]).1 1 (some (.circle 0 0 1))).1 0 (-5)).1 s =
      if s = 1 then some ⟨0, 1, 0, 0, 1⟩ else none := by
    intro s
    have := c2 s
    rw [d4] at this
    rw [m2]
    exact this
  have ring' : (setEdgeMarker (setEdgeConstraint (setDivWeights2d b [1, 1] [1, 2, 1]).1 1 (some (.circle 0 0 1))).1 0 (-5)).1.transformIntoRing = false := by
    rw [m2, e1]; exact d3
  have nd : (setEdgeMarker (setEdgeConstraint (setDivWeights2d b [1, 1] [1, 2, 1]).1 1 (some (.circle 0 0 1))).1 0 (-5)).1.ndiv = [2, 3] := by
    rw [m2, e1]; exact d1
  have dk : (setEdgeMarker (setEdgeConstraint (setDivWeights2d b [1, 1] [1, 2, 1]).1 1 (some (.circle 0 0 1))).1 0 (-5)).1.deltaKsi = [[1, 1], [1/2, 1, 1/2]] := by
    rw [m2, e1]; exact d2
  have mk := m3 0
  rw [if_pos rfl] at mk
  revert mk dk nd ring' con n3 r3
  generalize (setEdgeMarker (setEdgeConstraint (setDivWeights2d b [1, 1] [1, 2, 1]).1 1 (some (.circle 0 0 1))).1 0 (-5)).1 = B
  intro r3 n3 con ring' nd dk mk
  refine ⟨?_, ?_, ?_, mk, con 1, ring', ?_, ?_, n3, ?_, h3⟩
  · intro a ha i hi
    rw [n3] at ha
    unfold ndivAt at hi
    unfold del
    rw [n3, if_pos ha, nd] at hi
    rw [dk]
    rcases (by omega : a = 0 ∨ a = 1) with rfl | rfl
    · rcases (by simp at hi; omega : i = 0 ∨ i = 1) with rfl | rfl <;> simp [at'] <;> norm_num
    · rcases (by simp at hi; omega : i = 0 ∨ i = 1 ∨ i = 2) with rfl | rfl | rfl <;> simp [at'] <;> norm_num
  · unfold TargetOk; rw [n3]; rfl
  · rintro ⟨-, ξ, s, S, -, ⟨⟨-, h5, h6⟩, -⟩, h7⟩
    rw [con s] at h6
    split at h6
    · rename_i hs
      subst hs
      cases h6
      unfold OnSide at h5
      rw [n3] at h5
      simp [sideDir, sideVal] at h5
      rw [h3] at h7
      unfold Surface.dist at h7
      simp at h7
      rw [h5] at h7
      have : (1:ℝ) ≤ Real.sqrt (((1 + 1) / 2) ^ 2 + ((1 + (ξ[1]?.getD 0 : ℝ)) / 2) ^ 2) := by
        rw [Real.one_le_sqrt]
        have := sq_nonneg ((1 + (ξ[1]?.getD 0 : ℝ)) / 2)
        linarith
      have h8 := this.trans h7
      norm_num at h8
    · cases h6
  · unfold ndivAt; rw [n3, nd]; rfl
  · unfold ndivAt; rw [n3, nd]; rfl
  · intro s hs; rw [con s, if_neg hs]

/-- Its subdivision: 6 cells, a mesh with marked edges. -/
example {iterG : List (Nat × List ℝ) → List (Nat × List ℝ)} {iterC : List (Nat × Nat) → List (Nat × Nat)} (hI : IterOrder iterG) (hIC : IterOrder iterC) :
    ∃ b M, subdivide iterG iterC b .qua8 = .ok M ∧ IsSubdivision b .qua8 M ∧ M.cells.length = 6 ∧ (∃ p q, (-5, p, q) ∈ M.markedEdges) := by
  obtain ⟨at_, b, h1, h2, h3, h4, h5, h6, h7, h8, h9, h10, h11, h12⟩ := example_block
  obtain ⟨M, m1, m2⟩ := (C55_subdivide h1 h2 h3 hI hIC).2 h4
  refine ⟨b, M, m1, m2, ?_, ?_⟩
  · rw [m2.ncell]; unfold numCells; rw [h8, h9]; unfold ndivAt; rw [h10]; rfl
  · have hm := C57_marked h1 h2 h3 hI hIC m1
    have hc := h1.ctx h2 h3
    have hg : InGrid b 0 0 0 := by
      refine ⟨by omega, by omega, ?_⟩
      unfold ndivAt; rw [h10, if_neg (by omega)]; omega
    refine ⟨_, _, (hm.edges (-5) _ _).2 ⟨0, 0, 0, 0, 0, h5, hg, by decide, ?_, ?_, rfl⟩⟩
    · refine (onBlockEdge_iff hc hg (by decide) (by decide)).2 ⟨?_, by decide +kernel⟩
      rw [h10]; rfl
    · refine (onBlockEdge_iff hc hg (by decide) (by decide)).2 ⟨?_, by decide +kernel⟩
      rw [h10]; rfl

end
end Gemlab.Block
