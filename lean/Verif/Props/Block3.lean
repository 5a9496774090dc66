import Verif.Props.Block2

/-! # C54: construction of blocks -/
namespace Gemlab.Block
noncomputable section
open Classical
open Gemlab.Mesh Gemlab.Shapes

variable {inv : MatInverse} {nrow ndim : Nat} {at_ : Nat → Nat → ℝ} {b : Block} {target : GeoKind}

theorem qua8_jac (X Y : Nat → Nat → ℝ) (i : Nat) {j : Nat} (hj : j < 2) (h : ∀ m < 4, X m i = Y m i)
    (hm : ∀ t ∈ middle 2, X t.1 i = (Y t.2.1 i + Y t.2.2 i) / 2) :
    ∑ m ∈ Finset.range GeoKind.qua8.nnode, X m i * calcDeriv .qua8 (fun _ => 0) m j = ∑ m ∈ Finset.range GeoKind.qua4.nnode, Y m i * calcDeriv .qua4 (fun _ => 0) m j := by
  simp [middle] at hm
  obtain ⟨m4, m5, m6, m7⟩ := hm
  have h0 := h 0 (by omega)
  have h1 := h 1 (by omega)
  have h2 := h 2 (by omega)
  have h3 := h 3 (by omega)
  simp only [GeoKind.nnode, Finset.sum_range_succ, Finset.sum_range_zero, h0, h1, h2, h3, m4, m5, m6, m7]
  interval_cases j <;> simp [calcDeriv, Shapes.deriv, qua8Deriv, qua4Deriv, PE.eval] <;> ring

theorem hex20_jac (X Y : Nat → Nat → ℝ) (i : Nat) {j : Nat} (hj : j < 3) (h : ∀ m < 8, X m i = Y m i)
    (hm : ∀ t ∈ middle 3, X t.1 i = (Y t.2.1 i + Y t.2.2 i) / 2) :
    ∑ m ∈ Finset.range GeoKind.hex20.nnode, X m i * calcDeriv .hex20 (fun _ => 0) m j = ∑ m ∈ Finset.range GeoKind.hex8.nnode, Y m i * calcDeriv .hex8 (fun _ => 0) m j := by
  simp [middle] at hm
  obtain ⟨m8, m9, m10, m11, m12, m13, m14, m15, m16, m17, m18, m19⟩ := hm
  have h0 := h 0 (by omega)
  have h1 := h 1 (by omega)
  have h2 := h 2 (by omega)
  have h3 := h 3 (by omega)
  have h4 := h 4 (by omega)
  have h5 := h 5 (by omega)
  have h6 := h 6 (by omega)
  have h7 := h 7 (by omega)
  simp only [GeoKind.nnode, Finset.sum_range_succ, Finset.sum_range_zero, h0, h1, h2, h3, h4, h5, h6, h7, m8, m9, m10, m11, m12, m13, m14, m15, m16, m17, m18, m19]
  interval_cases j <;> simp [calcDeriv, Shapes.deriv, hex20Deriv, hex8Deriv, PE.eval] <;> ring

/-- The Jacobian of a pad with the coordinates of a new block. -/
theorem jac_of_pad {pad : Scratchpad} (hs : AcceptedShape nrow ndim) (hk : pad.kind = if ndim = 2 then .qua8 else .hex20)
    (hx : ∀ m < nrow, ∀ j < ndim, pad.xxt j m = at_ m j)
    (hmid : nrow ≠ pad.kind.nnode → ∀ t ∈ middle ndim, ∀ j < ndim, pad.xxt j t.1 = (at_ t.2.1 j + at_ t.2.2 j) / 2) :
    detN ndim (pad.fillJacobian (fun _ => 0)).jacobian = detN ndim (centreJacobian nrow ndim at_) := by
  have key : ∀ i < ndim, ∀ j < ndim, (pad.fillJacobian (fun _ => 0)).jacobian i j = centreJacobian nrow ndim at_ i j := by
    intro i hi j hj
    change ∑ m ∈ Finset.range pad.kind.nnode, pad.xxt i m * calcDeriv pad.kind (fun _ => 0) m j = _
    unfold centreJacobian
    have full : nrow = pad.kind.nnode → inputKind nrow ndim = pad.kind → ∑ m ∈ Finset.range pad.kind.nnode, pad.xxt i m * calcDeriv pad.kind (fun _ => (0:ℝ)) m j =
        ∑ m ∈ Finset.range (inputKind nrow ndim).nnode, at_ m i * calcDeriv (inputKind nrow ndim) (fun _ => (0:ℝ)) m j := by
      intro h1 h2
      rw [h2]
      apply Finset.sum_congr rfl
      intro m hm'
      rw [Finset.mem_range] at hm'
      rw [hx m (by omega) i hi]
    rcases hs with ⟨rfl, rfl | rfl⟩ | ⟨rfl, rfl | rfl⟩
    · rw [if_pos rfl] at hk
      rw [hk] at hmid ⊢
      exact qua8_jac (fun m i => pad.xxt i m) at_ i hj (fun m hm => hx m hm i hi) (fun t ht => hmid (by decide) t ht i hi)
    · exact full (by rw [hk]; rfl) (by rw [hk]; rfl)
    · rw [if_neg (by decide)] at hk
      rw [hk] at hmid ⊢
      exact hex20_jac (fun m i => pad.xxt i m) at_ i hj (fun m hm => hx m hm i hi) (fun t ht => hmid (by decide) t ht i hi)
    · exact full (by rw [hk]; rfl) (by rw [hk]; rfl)
  unfold detN
  congr 1
  ext i j
  exact key i i.2 j j.2

/-- **C54 (construction).** `Block::new` accepts exactly the arrays of 4 or 8 points in 2D (8 or 20 in 3D) whose isoparametric map has a
positive Jacobian determinant at the centre; everything else is an error (never a panic). -/
theorem C54_new (hinv : InverseSpec inv) (hnp : ∀ n a, inv n a ≠ .panic) (hall : ∀ n a, detN n a ≠ 0 → ∃ r, inv n a = .ok r) :
    ((AcceptedShape nrow ndim ∧ 0 < detN ndim (centreJacobian nrow ndim at_)) → ∃ b, new inv nrow ndim at_ = .ok b) ∧
    (¬ (AcceptedShape nrow ndim ∧ 0 < detN ndim (centreJacobian nrow ndim at_)) → ∃ e, new inv nrow ndim at_ = .err e) := by
  by_cases hs : AcceptedShape nrow ndim
  · have hd : ndim = 2 ∨ ndim = 3 := by rcases hs with ⟨h, -⟩ | ⟨h, -⟩ <;> omega
    have hr : nrow = (if ndim = 2 then 4 else 8) ∨ nrow = (if ndim = 2 then 8 else 20) := by
      rcases hs with ⟨rfl, h⟩ | ⟨rfl, h⟩ <;> simpa using h
    have hnew : new inv nrow ndim at_ = (do
        let kind : GeoKind := if ndim = 2 then .qua8 else .hex20
        let pad ← Scratchpad.new ndim kind
        let pad ← (assignments nrow ndim kind.nnode at_).foldlM (fun (p : Scratchpad) a => p.setXx a.1 a.2.1 a.2.2) pad
        let r ← pad.calcJacobian inv (fun _ => 0)
        if r.1 ≤ 0 then .err "the determinant of the Jacobian is non-positive at the center of the block"
        else .ok {
          marker := 1, ndim := ndim, ndiv := List.replicate ndim 2, deltaKsi := List.replicate ndim (List.replicate 2 (2 / 2)),
          edgeConstraints := [], faceConstraints := [], edgeMarkers := [], faceMarkers := [], pad := r.2,
          argsRing := { amin := 0, amax := Real.pi / 2, rmin := 1, rmax := 2, zmin := 0, zmax := 1 }, transformIntoRing := false }) := by
      unfold new
      rw [if_neg (by omega), if_neg (by rcases hs with ⟨rfl, h⟩ | ⟨rfl, h⟩ <;> omega), if_neg (by rcases hs with ⟨rfl, h⟩ | ⟨rfl, h⟩ <;> omega)]
    obtain ⟨pad, hp⟩ : ∃ pad, Scratchpad.new ndim (if ndim = 2 then GeoKind.qua8 else .hex20) = .ok pad :=
      padNew_ok hd (by rcases hd with rfl | rfl <;> decide)
    have hpk := padNew_eq hp
    obtain ⟨pad', g1, g2, g3, g4, g5, g6⟩ := new_pad (at_ := at_) hd hr hpk.1 hpk.2
    dsimp only at hnew
    rw [hp, Res.bind_ok, ← hpk.1, g1, Res.bind_ok] at hnew
    have hj : pad'.calcJacobian inv (fun _ => 0) = (do
        let q ← inv ndim (pad'.fillJacobian (fun _ => 0)).jacobian
        .ok (q.1, { pad'.fillJacobian (fun _ => 0) with invJacobian := q.2 })) := by
      unfold Scratchpad.calcJacobian
      rw [g4]
      have hkd : (pad'.fillJacobian fun _ => 0).kind.ndim = (pad'.fillJacobian fun _ => 0).spaceNdim := by
        change pad'.kind.ndim = pad'.spaceNdim
        rw [g2, g3, hpk.1]
        rcases hd with rfl | rfl <;> rfl
      simp only [Bool.not_true, Bool.false_eq_true, if_false, if_pos hkd]
      have : (pad'.fillJacobian fun _ => 0).spaceNdim = ndim := g3
      rw [this]
    have hdet := jac_of_pad hs (g2.trans hpk.1) g5 (by rw [g2]; exact g6)
    rw [hj] at hnew
    cases hq : inv ndim (pad'.fillJacobian (fun _ => 0)).jacobian with
    | panic => exact absurd hq (hnp _ _)
    | err e =>
      rw [hq] at hnew
      refine ⟨fun h => ?_, fun _ => ⟨e, hnew⟩⟩
      obtain ⟨r, hr⟩ := hall ndim (pad'.fillJacobian (fun _ => 0)).jacobian (by rw [hdet]; exact h.2.ne')
      rw [hq] at hr; cases hr
    | ok q =>
      rw [hq, Res.bind_ok, Res.bind_ok] at hnew
      have hqd : q.1 = detN ndim (centreJacobian nrow ndim at_) := by
        rw [← hdet]
        exact (hinv ndim _ q.1 q.2 hq).1
      dsimp only at hnew
      rw [hqd] at hnew
      constructor
      · rintro ⟨-, h⟩
        rw [if_neg (not_le.2 h)] at hnew
        exact ⟨_, hnew⟩
      · intro h
        rw [if_pos (not_lt.1 fun h' => h ⟨hs, h'⟩)] at hnew
        exact ⟨_, hnew⟩
  · refine ⟨fun h => absurd h.1 hs, fun _ => ?_⟩
    unfold new
    split
    · exact ⟨_, rfl⟩
    split
    · exact ⟨_, rfl⟩
    split
    · exact ⟨_, rfl⟩
    · rename_i h1 h2 h3
      exfalso
      apply hs
      unfold AcceptedShape
      omega

/-- **C54 (initial data).** A new block has the marker 1, two equal divisions in each direction, no constraints and no markers, and is not
transformed into a ring. -/
theorem C54_initial (h : new inv nrow ndim at_ = .ok b) : b.marker = 1 ∧ b.ndim = ndim ∧ (∀ a < ndim, ndivAt b a = 2 ∧ del b a 0 = 1 ∧ del b a 1 = 1) ∧
    (∀ s, constraintOf b s = none) ∧ (∀ e, b.edgeMarkers.get e = none) ∧ (∀ f, b.faceMarkers.get f = none) ∧ b.transformIntoRing = false ∧
    NotTooFine b := by
  obtain ⟨hd, -, h1, h2, h3, h4, h5, h6, h7, h8, -, h10, -⟩ := new_ok h
  have hdel : ∀ a < ndim, ndivAt b a = 2 ∧ del b a 0 = 1 ∧ del b a 1 = 1 := by
    intro a ha
    unfold ndivAt del at'
    rw [h2, if_pos ha, h3, h4]
    simp [List.getD_eq_getElem?_getD, ha]
  refine ⟨h1, h2, hdel, ?_, ?_, ?_, h10, ?_⟩
  · intro s
    unfold constraintOf
    rw [h5, h6]
    split <;> rfl
  · intro e; rw [h7]; rfl
  · intro e; rw [h8]; rfl
  · intro a ha i hi
    rw [h2] at ha
    obtain ⟨d1, d2, d3⟩ := hdel a ha
    rw [d1] at hi
    interval_cases i
    · rw [d2]; norm_num
    · rw [d3]; norm_num

theorem square_map (l : ℝ) (ξ : List ℝ) :
    isoMap 4 2 (fun m j => at' (([[0, 0], [l, 0], [l, l], [0, l]] : List (List ℝ)).getD m []) j) ξ = (List.range 2).map fun a => l * ((1 + ξ.getD a 0) / 2) := by
  simp [isoMap, inputKind, List.range_succ, Shapes.calcCoords, GeoKind.nnode, Finset.sum_range_succ, calcInterp, Shapes.interp, qua4Interp, PE.eval, at']
  constructor <;> ring

theorem cube_map (l : ℝ) (ξ : List ℝ) :
    isoMap 8 3 (fun m j => at' (([[0, 0, 0], [l, 0, 0], [l, l, 0], [0, l, 0], [0, 0, l], [l, 0, l], [l, l, l], [0, l, l]] : List (List ℝ)).getD m []) j) ξ =
      (List.range 3).map fun a => l * ((1 + ξ.getD a 0) / 2) := by
  simp [isoMap, inputKind, List.range_succ, Shapes.calcCoords, GeoKind.nnode, Finset.sum_range_succ, calcInterp, Shapes.interp, hex8Interp, PE.eval, at']
  refine ⟨?_, ?_, ?_⟩ <;> ring

theorem square_det (l : ℝ) :
    detN 2 (centreJacobian 4 2 (fun m j => at' (([[0, 0], [l, 0], [l, l], [0, l]] : List (List ℝ)).getD m []) j)) = (l / 2) ^ 2 := by
  simp [detN, Matrix.det_fin_two, centreJacobian, inputKind, GeoKind.nnode, Finset.sum_range_succ, calcDeriv, Shapes.deriv, qua4Deriv, PE.eval, at']
  ring

theorem cube_det (l : ℝ) :
    detN 3 (centreJacobian 8 3 (fun m j => at' (([[0, 0, 0], [l, 0, 0], [l, l, 0], [0, l, 0], [0, 0, l], [l, 0, l], [l, l, l], [0, l, l]] : List (List ℝ)).getD m []) j)) = (l / 2) ^ 3 := by
  simp [detN, Matrix.det_fin_three, centreJacobian, inputKind, GeoKind.nnode, Finset.sum_range_succ, calcDeriv, Shapes.deriv, hex8Deriv, PE.eval, at']
  ring

/-- **C54 (square).** `new_square` panics exactly for `l = 0`. The map of the block is the scaling from `[-1, 1]²` to `[0, l]²`. (For a negative
length the result is a square with the corner at the other side: both directions are reversed.) -/
theorem C54_square (hinv : InverseSpec inv) (hnp : ∀ n a, inv n a ≠ .panic) (hall : ∀ n a, detN n a ≠ 0 → ∃ r, inv n a = .ok r) (l : ℝ) :
    (l = 0 → newSquare inv l = .panic) ∧
    (l ≠ 0 → ∃ at_ b, new inv 4 2 at_ = .ok b ∧ newSquare inv l = .ok b ∧ ∀ ξ, isoMap 4 2 at_ ξ = (List.range 2).map fun a => l * ((1 + ξ.getD a 0) / 2)) := by
  have hk := C54_new (nrow := 4) (ndim := 2) (at_ := fun m j => at' (([[0, 0], [l, 0], [l, l], [0, l]] : List (List ℝ)).getD m []) j) hinv hnp hall
  rw [square_det] at hk
  constructor
  · rintro rfl
    obtain ⟨e, he⟩ := hk.2 (by simp)
    unfold newSquare
    rw [he]; rfl
  · intro hl
    obtain ⟨b, hb⟩ := hk.1 ⟨.inl ⟨rfl, .inl rfl⟩, by positivity⟩
    refine ⟨_, b, hb, ?_, square_map l⟩
    unfold newSquare
    rw [hb]; rfl

/-- **C54 (cube).** `new_cube` panics exactly for `l ≤ 0`. -/
theorem C54_cube (hinv : InverseSpec inv) (hnp : ∀ n a, inv n a ≠ .panic) (hall : ∀ n a, detN n a ≠ 0 → ∃ r, inv n a = .ok r) (l : ℝ) :
    (l ≤ 0 → newCube inv l = .panic) ∧
    (0 < l → ∃ at_ b, new inv 8 3 at_ = .ok b ∧ newCube inv l = .ok b ∧ ∀ ξ, isoMap 8 3 at_ ξ = (List.range 3).map fun a => l * ((1 + ξ.getD a 0) / 2)) := by
  have hk := C54_new (nrow := 8) (ndim := 3) (at_ := fun m j => at' (([[0, 0, 0], [l, 0, 0], [l, l, 0], [0, l, 0], [0, 0, l], [l, 0, l], [l, l, l], [0, l, l]] : List (List ℝ)).getD m []) j) hinv hnp hall
  rw [cube_det] at hk
  constructor
  · intro hl
    obtain ⟨e, he⟩ := hk.2 (by
      rintro ⟨-, h⟩
      have : (l / 2) ^ 3 ≤ 0 := by
        have h1 : l / 2 ≤ 0 := by linarith
        exact Odd.pow_nonpos (by decide) h1
      linarith)
    unfold newCube
    rw [he]; rfl
  · intro hl
    obtain ⟨b, hb⟩ := hk.1 ⟨.inr ⟨rfl, .inl rfl⟩, by positivity⟩
    refine ⟨_, b, hb, ?_, cube_map l⟩
    unfold newCube
    rw [hb]; rfl

end
end Gemlab.Block
