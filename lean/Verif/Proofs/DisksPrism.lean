import Verif.Proofs.DisksGeom

/-! # Prisms above the blocks of the plane -/
namespace Gemlab.Structured
noncomputable section
open Classical
open Gemlab.Mesh Gemlab.Shapes Gemlab.Block Gemlab.Spec

variable {P Q : Piece}

theorem four_nodes {l : List (List ℝ)} (h : l.length = 4) (h2 : ∀ x ∈ l, x.length = 2) :
    ∃ x0 y0 x1 y1 x2 y2 x3 y3, l = [[x0, y0], [x1, y1], [x2, y2], [x3, y3]] := by
  match l, h with
  | [a, b, c, d], _ =>
    obtain ⟨x0, y0, rfl⟩ := List.length_eq_two.1 (h2 a (by simp))
    obtain ⟨x1, y1, rfl⟩ := List.length_eq_two.1 (h2 b (by simp))
    obtain ⟨x2, y2, rfl⟩ := List.length_eq_two.1 (h2 c (by simp))
    obtain ⟨x3, y3, rfl⟩ := List.length_eq_two.1 (h2 d (by simp))
    exact ⟨x0, y0, x1, y1, x2, y2, x3, y3, rfl⟩

theorem eight_nodes {l : List (List ℝ)} (h : l.length = 8) (h2 : ∀ x ∈ l, x.length = 2) :
    ∃ x0 y0 x1 y1 x2 y2 x3 y3 x4 y4 x5 y5 x6 y6 x7 y7, l = [[x0, y0], [x1, y1], [x2, y2], [x3, y3], [x4, y4], [x5, y5], [x6, y6], [x7, y7]] := by
  match l, h with
  | [a, b, c, d, e, f, g, h], _ =>
    obtain ⟨x0, y0, rfl⟩ := List.length_eq_two.1 (h2 a (by simp))
    obtain ⟨x1, y1, rfl⟩ := List.length_eq_two.1 (h2 b (by simp))
    obtain ⟨x2, y2, rfl⟩ := List.length_eq_two.1 (h2 c (by simp))
    obtain ⟨x3, y3, rfl⟩ := List.length_eq_two.1 (h2 d (by simp))
    obtain ⟨x4, y4, rfl⟩ := List.length_eq_two.1 (h2 e (by simp))
    obtain ⟨x5, y5, rfl⟩ := List.length_eq_two.1 (h2 f (by simp))
    obtain ⟨x6, y6, rfl⟩ := List.length_eq_two.1 (h2 g (by simp))
    obtain ⟨x7, y7, rfl⟩ := List.length_eq_two.1 (h2 h (by simp))
    exact ⟨x0, y0, x1, y1, x2, y2, x3, y3, x4, y4, x5, y5, x6, y6, x7, y7, rfl⟩

theorem hex8_iso (g f : Nat → Nat → ℝ) (ξ : List ℝ) {j : Nat} (hj : j < 2) (h0 : ∀ m < 4, g m j = f m j) (h1 : ∀ m < 4, g (m + 4) j = f m j) :
    (isoMap 8 3 g ξ).getD j 0 = (isoMap 4 2 f ξ).getD j 0 := by
  rw [iso4 _ _ _ hj]
  unfold isoMap
  rw [getD_map_range (show j < 3 by omega)]
  simp [inputKind, Shapes.calcCoords, GeoKind.nnode, Finset.sum_range_succ, calcInterp, interp, hex8Interp, PE.eval, at']
  rw [← h0 0 (by omega), ← h0 1 (by omega), ← h0 2 (by omega), ← h0 3 (by omega)]
  have e4 : g 4 j = g 0 j := by rw [h0 0 (by omega), ← h1 0 (by omega)]
  have e5 : g 5 j = g 1 j := by rw [h0 1 (by omega), ← h1 1 (by omega)]
  have e6 : g 6 j = g 2 j := by rw [h0 2 (by omega), ← h1 2 (by omega)]
  have e7 : g 7 j = g 3 j := by rw [h0 3 (by omega), ← h1 3 (by omega)]
  rw [e4, e5, e6, e7]
  ring

theorem hex8_up (g : Nat → Nat → ℝ) (z : ℝ) (ξ : List ℝ) (h0 : ∀ m < 4, g m 2 = 0) (h1 : ∀ m < 4, g (m + 4) 2 = z) :
    (isoMap 8 3 g ξ).getD 2 0 = z * ((1 + ξ.getD 2 0) / 2) := by
  unfold isoMap
  rw [getD_map_range (show 2 < 3 by omega)]
  simp [inputKind, Shapes.calcCoords, GeoKind.nnode, Finset.sum_range_succ, calcInterp, interp, hex8Interp, PE.eval, at']
  rw [h0 0 (by omega), h0 1 (by omega), h0 2 (by omega), h0 3 (by omega), show g 4 2 = z from h1 0 (by omega), show g 5 2 = z from h1 1 (by omega), show g 6 2 = z from h1 2 (by omega),
    show g 7 2 = z from h1 3 (by omega)]
  ring

theorem hex8_jac (g f : Nat → Nat → ℝ) (z : ℝ) (h0 : ∀ m < 4, ∀ j < 2, g m j = f m j) (h1 : ∀ m < 4, ∀ j < 2, g (m + 4) j = f m j) (h2 : ∀ m < 4, g m 2 = 0)
    (h3 : ∀ m < 4, g (m + 4) 2 = z) : detN 3 (centreJacobian 8 3 g) = detN 2 (centreJacobian 4 2 f) * (z / 2) := by
  rw [jac4]
  have e : ∀ j < 2, g 0 j = f 0 j ∧ g 1 j = f 1 j ∧ g 2 j = f 2 j ∧ g 3 j = f 3 j ∧ g 4 j = f 0 j ∧ g 5 j = f 1 j ∧ g 6 j = f 2 j ∧ g 7 j = f 3 j := fun j hj =>
    ⟨h0 0 (by omega) j hj, h0 1 (by omega) j hj, h0 2 (by omega) j hj, h0 3 (by omega) j hj, h1 0 (by omega) j hj, h1 1 (by omega) j hj, h1 2 (by omega) j hj, h1 3 (by omega) j hj⟩
  obtain ⟨a0, a1, a2, a3, a4, a5, a6, a7⟩ := e 0 (by omega)
  obtain ⟨b0, b1, b2, b3, b4, b5, b6, b7⟩ := e 1 (by omega)
  have c4 : g 4 2 = z := h3 0 (by omega)
  have c5 : g 5 2 = z := h3 1 (by omega)
  have c6 : g 6 2 = z := h3 2 (by omega)
  have c7 : g 7 2 = z := h3 3 (by omega)
  simp [detN, Matrix.det_fin_three, centreJacobian, inputKind, GeoKind.nnode, Finset.sum_range_succ, calcDeriv, Shapes.deriv, hex8Deriv, PE.eval]
  rw [a0, a1, a2, a3, a4, a5, a6, a7, b0, b1, b2, b3, b4, b5, b6, b7, h2 0 (by omega), h2 1 (by omega), h2 2 (by omega), h2 3 (by omega), c4, c5, c6, c7]
  ring

/-- Which node of the block in the plane is below node `m` of the prism with 20 nodes. -/
def below (m : Nat) : Nat := if m < 4 then m else if m < 12 then m - 4 else if m < 16 then m - 8 else m - 16

theorem hex20_iso (g f : Nat → Nat → ℝ) (ξ : List ℝ) {j : Nat} (hj : j < 2) (h : ∀ m < 20, g m j = f (below m) j) :
    (isoMap 20 3 g ξ).getD j 0 = (isoMap 8 2 f ξ).getD j 0 := by
  rw [iso8 _ _ _ hj]
  unfold isoMap
  rw [getD_map_range (show j < 3 by omega)]
  simp [inputKind, Shapes.calcCoords, GeoKind.nnode, Finset.sum_range_succ, calcInterp, interp, hex20Interp, PE.eval, at']
  rw [h 0 (by omega), h 1 (by omega), h 2 (by omega), h 3 (by omega), h 4 (by omega), h 5 (by omega), h 6 (by omega), h 7 (by omega), h 8 (by omega), h 9 (by omega),
    h 10 (by omega), h 11 (by omega), h 12 (by omega), h 13 (by omega), h 14 (by omega), h 15 (by omega), h 16 (by omega), h 17 (by omega), h 18 (by omega), h 19 (by omega)]
  simp only [below, Nat.reduceLT, if_true, if_false, Nat.reduceSub]
  ring

/-- The height of node `m` of the prism with 20 nodes. -/
def heightOf (z : ℝ) (m : Nat) : ℝ := if m < 4 then 0 else if m < 8 then z else if m < 12 then 0 else if m < 16 then z else z / 2

theorem hex20_up (g : Nat → Nat → ℝ) (z : ℝ) (ξ : List ℝ) (h : ∀ m < 20, g m 2 = heightOf z m) : (isoMap 20 3 g ξ).getD 2 0 = z * ((1 + ξ.getD 2 0) / 2) := by
  unfold isoMap
  rw [getD_map_range (show 2 < 3 by omega)]
  simp [inputKind, Shapes.calcCoords, GeoKind.nnode, Finset.sum_range_succ, calcInterp, interp, hex20Interp, PE.eval, at']
  rw [h 0 (by omega), h 1 (by omega), h 2 (by omega), h 3 (by omega), h 4 (by omega), h 5 (by omega), h 6 (by omega), h 7 (by omega), h 8 (by omega), h 9 (by omega),
    h 10 (by omega), h 11 (by omega), h 12 (by omega), h 13 (by omega), h 14 (by omega), h 15 (by omega), h 16 (by omega), h 17 (by omega), h 18 (by omega), h 19 (by omega)]
  simp only [heightOf, Nat.reduceLT, if_true, if_false]
  ring

theorem hex20_jac (g f : Nat → Nat → ℝ) (z : ℝ) (h : ∀ m < 20, ∀ j < 2, g m j = f (below m) j) (hz : ∀ m < 20, g m 2 = heightOf z m) :
    detN 3 (centreJacobian 20 3 g) = detN 2 (centreJacobian 8 2 f) * (z / 2) := by
  rw [jac8]
  simp [detN, Matrix.det_fin_three, centreJacobian, inputKind, GeoKind.nnode, Finset.sum_range_succ, calcDeriv, Shapes.deriv, hex20Deriv, PE.eval]
  have e : ∀ j < 2, ∀ m < 20, g m j = f (below m) j := fun j hj m hm => h m hm j hj
  have e0 := e 0 (by omega)
  have e1 := e 1 (by omega)
  rw [e0 0 (by omega), e0 1 (by omega), e0 2 (by omega), e0 3 (by omega), e0 4 (by omega), e0 5 (by omega), e0 6 (by omega), e0 7 (by omega), e0 8 (by omega), e0 9 (by omega),
    e0 10 (by omega), e0 11 (by omega), e0 12 (by omega), e0 13 (by omega), e0 14 (by omega), e0 15 (by omega), e0 16 (by omega), e0 17 (by omega), e0 18 (by omega), e0 19 (by omega),
    e1 0 (by omega), e1 1 (by omega), e1 2 (by omega), e1 3 (by omega), e1 4 (by omega), e1 5 (by omega), e1 6 (by omega), e1 7 (by omega), e1 8 (by omega), e1 9 (by omega),
    e1 10 (by omega), e1 11 (by omega), e1 12 (by omega), e1 13 (by omega), e1 14 (by omega), e1 15 (by omega), e1 16 (by omega), e1 17 (by omega), e1 18 (by omega), e1 19 (by omega),
    hz 0 (by omega), hz 1 (by omega), hz 2 (by omega), hz 3 (by omega), hz 4 (by omega), hz 5 (by omega), hz 6 (by omega), hz 7 (by omega), hz 8 (by omega), hz 9 (by omega),
    hz 10 (by omega), hz 11 (by omega), hz 12 (by omega), hz 13 (by omega), hz 14 (by omega), hz 15 (by omega), hz 16 (by omega), hz 17 (by omega), hz 18 (by omega), hz 19 (by omega)]
  simp only [below, heightOf, Nat.reduceLT, if_true, if_false, Nat.reduceSub]
  ring

/-! ### The prism of a block -/

/-- The number of nodes of the prism. -/
theorem prism_length (h : Checked P) (z : ℝ) (nz : Nat) : (prism z nz P).nodes.length = if P.nodes.length = 4 then 8 else 20 := by
  rcases h.shape with e | e
  · obtain ⟨x0, y0, x1, y1, x2, y2, x3, y3, hn⟩ := four_nodes e h.plane
    simp [prism, prismNodes, hn]
  · obtain ⟨x0, y0, x1, y1, x2, y2, x3, y3, x4, y4, x5, y5, x6, y6, x7, y7, hn⟩ := eight_nodes e h.plane
    simp [prism, prismNodes, hn]

theorem prism4 (h : Checked P) (e : P.nodes.length = 4) (z : ℝ) (nz : Nat) :
    (∀ m < 4, ∀ j < 2, (prism z nz P).at_ m j = P.at_ m j) ∧ (∀ m < 4, ∀ j < 2, (prism z nz P).at_ (m + 4) j = P.at_ m j) ∧
    (∀ m < 4, (prism z nz P).at_ m 2 = 0) ∧ (∀ m < 4, (prism z nz P).at_ (m + 4) 2 = z) := by
  obtain ⟨x0, y0, x1, y1, x2, y2, x3, y3, hn⟩ := four_nodes e h.plane
  unfold Piece.at_
  have hp : (prism z nz P).nodes = [[x0, y0, 0], [x1, y1, 0], [x2, y2, 0], [x3, y3, 0], [x0, y0, z], [x1, y1, z], [x2, y2, z], [x3, y3, z]] := by
    simp [prism, prismNodes, hn]
  rw [hp, hn]
  refine ⟨?_, ?_, ?_, ?_⟩
  · intro m hm j hj
    rcases (by omega : m = 0 ∨ m = 1 ∨ m = 2 ∨ m = 3) with rfl | rfl | rfl | rfl <;> rcases (by omega : j = 0 ∨ j = 1) with rfl | rfl <;> rfl
  · intro m hm j hj
    rcases (by omega : m = 0 ∨ m = 1 ∨ m = 2 ∨ m = 3) with rfl | rfl | rfl | rfl <;> rcases (by omega : j = 0 ∨ j = 1) with rfl | rfl <;> rfl
  · intro m hm
    rcases (by omega : m = 0 ∨ m = 1 ∨ m = 2 ∨ m = 3) with rfl | rfl | rfl | rfl <;> rfl
  · intro m hm
    rcases (by omega : m = 0 ∨ m = 1 ∨ m = 2 ∨ m = 3) with rfl | rfl | rfl | rfl <;> rfl

theorem prism8 (h : Checked P) (e : P.nodes.length = 8) (z : ℝ) (nz : Nat) :
    (∀ m < 20, ∀ j < 2, (prism z nz P).at_ m j = P.at_ (below m) j) ∧ (∀ m < 20, (prism z nz P).at_ m 2 = heightOf z m) := by
  obtain ⟨x0, y0, x1, y1, x2, y2, x3, y3, x4, y4, x5, y5, x6, y6, x7, y7, hn⟩ := eight_nodes e h.plane
  unfold Piece.at_
  have hp : (prism z nz P).nodes = [[x0, y0, 0], [x1, y1, 0], [x2, y2, 0], [x3, y3, 0], [x0, y0, z], [x1, y1, z], [x2, y2, z], [x3, y3, z],
      [x4, y4, 0], [x5, y5, 0], [x6, y6, 0], [x7, y7, 0], [x4, y4, z], [x5, y5, z], [x6, y6, z], [x7, y7, z], [x0, y0, z / 2], [x1, y1, z / 2], [x2, y2, z / 2], [x3, y3, z / 2]] := by
    simp [prism, prismNodes, hn]
  rw [hp, hn]
  have hm20 : ∀ m < 20, m = 0 ∨ m = 1 ∨ m = 2 ∨ m = 3 ∨ m = 4 ∨ m = 5 ∨ m = 6 ∨ m = 7 ∨ m = 8 ∨ m = 9 ∨ m = 10 ∨ m = 11 ∨ m = 12 ∨ m = 13 ∨ m = 14 ∨ m = 15 ∨ m = 16 ∨ m = 17 ∨
    m = 18 ∨ m = 19 := by intro m hm; omega
  constructor
  · intro m hm j hj
    rcases (by omega : j = 0 ∨ j = 1) with rfl | rfl <;>
      rcases hm20 m hm with rfl | rfl | rfl | rfl | rfl | rfl | rfl | rfl | rfl | rfl | rfl | rfl | rfl | rfl | rfl | rfl | rfl | rfl | rfl | rfl <;> rfl
  · intro m hm
    unfold heightOf
    rcases hm20 m hm with rfl | rfl | rfl | rfl | rfl | rfl | rfl | rfl | rfl | rfl | rfl | rfl | rfl | rfl | rfl | rfl | rfl | rfl | rfl | rfl <;>
      simp [at']

/-- The map of the prism is that of the block below it, together with the height. -/
theorem prism_iso (h : Checked P) (z : ℝ) (nz : Nat) (ξ : List ℝ) :
    (∀ j < 2, (isoMap (prism z nz P).nodes.length 3 (prism z nz P).at_ ξ).getD j 0 = (isoMap P.nodes.length 2 P.at_ ξ).getD j 0) ∧
    (isoMap (prism z nz P).nodes.length 3 (prism z nz P).at_ ξ).getD 2 0 = z * ((1 + ξ.getD 2 0) / 2) := by
  rw [prism_length h]
  rcases h.shape with e | e
  · rw [e, if_pos rfl]
    obtain ⟨h1, h2, h3, h4⟩ := prism4 h e z nz
    exact ⟨fun j hj => hex8_iso _ _ _ hj (fun m hm => h1 m hm j hj) (fun m hm => h2 m hm j hj), hex8_up _ z _ h3 h4⟩
  · rw [e, if_neg (by omega)]
    obtain ⟨h1, h2⟩ := prism8 h e z nz
    exact ⟨fun j hj => hex20_iso _ _ _ hj (fun m hm => h1 m hm j hj), hex20_up _ z _ h2⟩

theorem prism_jac (h : Checked P) (z : ℝ) (nz : Nat) :
    detN 3 (centreJacobian (prism z nz P).nodes.length 3 (prism z nz P).at_) = detN 2 (centreJacobian P.nodes.length 2 P.at_) * (z / 2) := by
  rw [prism_length h]
  rcases h.shape with e | e
  · rw [e, if_pos rfl]
    obtain ⟨h1, h2, h3, h4⟩ := prism4 h e z nz
    exact hex8_jac _ _ z h1 h2 h3 h4
  · rw [e, if_neg (by omega)]
    obtain ⟨h1, h2⟩ := prism8 h e z nz
    exact hex20_jac _ _ z h1 h2

theorem faceAbove_spec {s : Nat} (hs : s < 4) : faceAbove s < 4 ∧ sideDir 3 (faceAbove s) = sideDir 2 s ∧ sideVal 3 (faceAbove s) = sideVal 2 s := by
  rcases (by omega : s = 0 ∨ s = 1 ∨ s = 2 ∨ s = 3) with rfl | rfl | rfl | rfl <;> simp [faceAbove, sideDir, sideVal]

theorem faceAbove_inj {s s' : Nat} (hs : s < 4) (hs' : s' < 4) (h : faceAbove s = faceAbove s') : s = s' := by
  rcases (by omega : s = 0 ∨ s = 1 ∨ s = 2 ∨ s = 3) with rfl | rfl | rfl | rfl <;>
    rcases (by omega : s' = 0 ∨ s' = 1 ∨ s' = 2 ∨ s' = 3) with rfl | rfl | rfl | rfl <;> first | rfl | (exfalso; revert h; decide)

theorem faceAbove_surj {s : Nat} (hs : s < 6) (hd : sideDir 3 s < 2) : ∃ s' < 4, s = faceAbove s' := by
  rcases (by omega : s = 0 ∨ s = 1 ∨ s = 2 ∨ s = 3 ∨ s = 4 ∨ s = 5) with rfl | rfl | rfl | rfl | rfl | rfl
  · exact ⟨3, by decide, rfl⟩
  · exact ⟨1, by decide, rfl⟩
  · exact ⟨0, by decide, rfl⟩
  · exact ⟨2, by decide, rfl⟩
  · exact absurd hd (by decide)
  · exact absurd hd (by decide)

theorem onSide_above {s : Nat} (hs : s < 4) (ξ : List ℝ) : OnSide 3 (faceAbove s) ξ ↔ OnSide 2 s ξ := by
  unfold OnSide
  rw [(faceAbove_spec hs).2.1, (faceAbove_spec hs).2.2]

theorem prism_good (h : Checked P) {z : ℝ} (hz : 0 < z) (nz : Nat) : Good 3 (prism z nz P) where
  shape := by
    right
    refine ⟨rfl, ?_⟩
    rw [prism_length h]
    rcases h.shape with e | e <;> rw [e] <;> simp
  jac := by
    rw [prism_jac h]
    have := h.jac
    positivity
  arcs := by
    intro q hq
    obtain ⟨q', hq', rfl⟩ := List.mem_map.1 hq
    obtain ⟨h1, h2⟩ := h.arcs q' hq'
    obtain ⟨f1, f2, f3⟩ := faceAbove_spec h1
    refine ⟨by dsimp only; omega, h2, ?_⟩
    dsimp only
    rw [f2]
    rcases @sideDir_two q'.1 with e | e <;> rw [e] <;> omega
  opposite := by
    intro q hq p hp
    obtain ⟨q', hq', rfl⟩ := List.mem_map.1 hq
    obtain ⟨p', hp', rfl⟩ := List.mem_map.1 hp
    obtain ⟨o1, o2⟩ := h.opposite q' hq' p' hp'
    dsimp only
    rw [(faceAbove_spec (h.arcs _ hq').1).2.1, (faceAbove_spec (h.arcs _ hp').1).2.1]
    refine ⟨o1, fun he => ?_⟩
    rw [o2 (faceAbove_inj (h.arcs _ hq').1 (h.arcs _ hp').1 he)]
  clear := by
    intro q hq ξ hbox hon
    obtain ⟨q', hq', rfl⟩ := List.mem_map.1 hq
    dsimp only at hon ⊢
    rw [onSide_above (h.arcs _ hq').1] at hon
    have := h.good.clear q' hq' ξ (fun a ha => hbox a (by omega)) hon
    rw [dist_around] at this ⊢
    rw [(prism_iso h z nz ξ).1 0 (by omega), (prism_iso h z nz ξ).1 1 (by omega)]
    exact this
  ends := by
    intro q hq ξ hbox hon s hs hd hne hon2
    obtain ⟨q', hq', rfl⟩ := List.mem_map.1 hq
    dsimp only at hon hne ⊢
    obtain ⟨s', hs', rfl⟩ := faceAbove_surj hs hd
    rw [onSide_above (h.arcs _ hq').1] at hon
    rw [onSide_above hs'] at hon2
    rw [(faceAbove_spec hs').2.1, (faceAbove_spec (h.arcs _ hq').1).2.1] at hne
    have := h.good.ends q' hq' ξ (fun a ha => hbox a (by omega)) hon s' (by omega) (by rcases @sideDir_two s' with e | e <;> omega) hne hon2
    rw [dist_around] at this ⊢
    rw [(prism_iso h z nz ξ).1 0 (by omega), (prism_iso h z nz ξ).1 1 (by omega)]
    exact this

end
end Gemlab.Structured
