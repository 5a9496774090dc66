import Verif.Proofs.Block7

/-! # Blocks: the map, constraints and the map of nodes -/
namespace Gemlab.Block
noncomputable section
open Classical
open Gemlab.Mesh Gemlab.Shapes

theorem qua8_eq (X Y : Nat → Nat → ℝ) (ξ : Nat → ℝ) (j : Nat) (h : ∀ m < 4, X m j = Y m j)
    (hm : ∀ t ∈ middle 2, X t.1 j = (Y t.2.1 j + Y t.2.2 j) / 2) : Shapes.calcCoords .qua8 X ξ j = Shapes.calcCoords .qua4 Y ξ j := by
  simp [middle] at hm
  obtain ⟨m4, m5, m6, m7⟩ := hm
  have h0 := h 0 (by omega)
  have h1 := h 1 (by omega)
  have h2 := h 2 (by omega)
  have h3 := h 3 (by omega)
  unfold Shapes.calcCoords
  simp only [GeoKind.nnode, Finset.sum_range_succ, Finset.sum_range_zero, h0, h1, h2, h3, m4, m5, m6, m7]
  simp [calcInterp, Shapes.interp, qua8Interp, qua4Interp, PE.eval]
  ring

theorem hex20_eq (X Y : Nat → Nat → ℝ) (ξ : Nat → ℝ) (j : Nat) (h : ∀ m < 8, X m j = Y m j)
    (hm : ∀ t ∈ middle 3, X t.1 j = (Y t.2.1 j + Y t.2.2 j) / 2) : Shapes.calcCoords .hex20 X ξ j = Shapes.calcCoords .hex8 Y ξ j := by
  simp [middle] at hm
  obtain ⟨m8, m9, m10, m11, m12, m13, m14, m15, m16, m17, m18, m19⟩ := hm
  have h0 := h 0 (by omega)
  have h1 := h 1 (by omega)
  have h2 := h 2 (by omega)
  have h3 := h 3 (by omega)
  have h4 := h 4 (by omega)
  have h5 := h 5 (by omega)
  have h6 := h 6 (by omega)
  have h7 := h 7 (by omega)
  unfold Shapes.calcCoords
  simp only [GeoKind.nnode, Finset.sum_range_succ, Finset.sum_range_zero, h0, h1, h2, h3, h4, h5, h6, h7, m8, m9, m10, m11, m12, m13, m14, m15, m16, m17, m18, m19]
  simp [calcInterp, Shapes.interp, hex20Interp, hex8Interp, PE.eval]
  ring

variable {nrow ndim : Nat} {at_ : Nat → Nat → ℝ} {b : Block} {target : GeoKind}

/-- The map of the scratchpad of the block is the isoparametric map of the given array. -/
theorem pad_map (hw : WF nrow ndim at_ b) (ξ : List ℝ) : (List.range b.ndim).map (Shapes.calcCoords b.pad.kind b.pad.X (at' ξ)) = isoMap nrow ndim at_ ξ := by
  unfold isoMap
  rw [hw.ndim_eq]
  apply List.map_congr_left
  intro j hj
  rw [List.mem_range] at hj
  have hk := hw.padKind
  have hr := hw.rowsOk
  have hc := hw.corners
  have ha := hw.all
  have hm := hw.mids
  have hd := hw.dims
  rw [hw.ndim_eq] at *
  have full : nrow = b.pad.kind.nnode → inputKind nrow ndim = b.pad.kind → Shapes.calcCoords b.pad.kind b.pad.X (at' ξ) j = Shapes.calcCoords (inputKind nrow ndim) at_ (at' ξ) j := by
    intro h1 h2
    rw [h2]
    unfold Shapes.calcCoords
    apply Finset.sum_congr rfl
    intro m hm'
    rw [Finset.mem_range] at hm'
    rw [show b.pad.X m j = at_ m j from ha h1 m (by omega) j hj]
  rcases hd with rfl | rfl
  · rw [if_pos rfl] at hk hr hc
    rcases hr with h4 | h8
    · rw [hk] at hm ⊢
      rw [show inputKind nrow 2 = .qua4 by rw [h4]; rfl]
      exact qua8_eq _ _ _ _ (fun m hm' => hc m hm' j hj) (fun t ht => hm (by rw [h4]; decide) t ht j hj)
    · exact full (by rw [hk, h8]; rfl) (by rw [hk, h8]; rfl)
  · rw [if_neg (by decide)] at hk hr hc
    rcases hr with h4 | h8
    · rw [hk] at hm ⊢
      rw [show inputKind nrow 3 = .hex8 by rw [h4]; rfl]
      exact hex20_eq _ _ _ _ (fun m hm' => hc m hm' j hj) (fun t ht => hm (by rw [h4]; decide) t ht j hj)
    · exact full (by rw [hk, h8]; rfl) (by rw [hk, h8]; rfl)

/-! ## Constraints -/

theorem Surface.dist_eq (S : Surface) (x : List ℝ) : S.dist x = Real.sqrt ((at' x S.p - S.cp) * (at' x S.p - S.cp) + (at' x S.q - S.cq) * (at' x S.q - S.cq)) := by
  unfold Surface.dist at'
  rw [sq, sq]

/-- The new value of a component. -/
theorem move_eq {x c d r : ℝ} (hd : 0 < d) : x + (r - d) * (x - c) / d = c + r / d * (x - c) := by
  field_simp
  ring

theorem applySide_spec (hd : b.ndim = 2 ∨ b.ndim = 3) (s : Nat) (x : List ℝ) (hx : x.length = b.ndim) :
    (constraintOf b s = none → applySide b s x = .ok (x, false)) ∧
    ∀ S, constraintOf b s = some S → (S.dist x ≤ 1 / 10 ^ 8 → ∃ e, applySide b s x = .err e) ∧
      (1 / 10 ^ 8 < S.dist x → S.dist x = S.r → applySide b s x = .ok (x, false)) ∧
      (1 / 10 ^ 8 < S.dist x → S.dist x ≠ S.r → applySide b s x = .ok (S.project x, true)) := by
  unfold constraintOf applySide
  have pos : ∀ {d : ℝ}, 1 / 10 ^ 8 < d → 0 < d := fun h => lt_trans (by norm_num) h
  rcases hd with hd | hd
  · rw [if_pos hd, if_pos hd]
    rw [hd] at hx
    match x, hx with
    | [x0, x1], _ =>
      cases hcs : b.edgeConstraints.get s with
      | none => exact ⟨fun _ => rfl, by simp⟩
      | some c =>
        obtain ⟨xc, yc, r⟩ := c
        refine ⟨by simp, ?_⟩
        rintro S hS
        rw [Option.map_some, Option.some.injEq] at hS
        subst hS
        have key := Surface.dist_eq (surface2d (.circle xc yc r)) [x0, x1]
        dsimp only [surface2d] at key
        dsimp only [applyConstraint2d, surface2d]
        rw [key]
        rcases moveTo_cases "cannot apply constraint because a point is at the center of the circle" (at' [x0, x1] 0 - xc) (at' [x0, x1] 1 - yc) r with
          ⟨h1, h⟩ | ⟨h1, h2, h⟩ | ⟨h1, h2, h⟩ <;> rw [h]
        · exact ⟨fun _ => ⟨_, rfl⟩, fun h' => absurd h1 (not_le.2 h'), fun h' => absurd h1 (not_le.2 h')⟩
        · refine ⟨fun h' => absurd h' (not_le.2 h1), fun _ h' => absurd h' h2, fun _ _ => ?_⟩
          rw [Res.bind_ok]
          dsimp only
          rw [move_eq (pos h1), move_eq (pos h1)]
          rw [← key]
          simp [Surface.project, List.range_succ, at']
        · exact ⟨fun h' => absurd h' (not_le.2 h1), fun _ _ => rfl, fun _ h' => absurd h2 h'⟩
  · rw [if_neg (by omega), if_neg (by omega)]
    rw [hd] at hx
    match x, hx with
    | [x0, x1, x2], _ =>
      cases hcs : b.faceConstraints.get s with
      | none => exact ⟨fun _ => rfl, by simp⟩
      | some c =>
        refine ⟨by simp, ?_⟩
        rintro S hS
        rw [Option.map_some, Option.some.injEq] at hS
        subst hS
        have key := Surface.dist_eq (surface3d c) [x0, x1, x2]
        cases c with
        | cylinderX xc yc r =>
          dsimp only [surface3d] at key
          dsimp only [applyConstraint3d, surface3d]
          rw [key]
          rcases moveTo_cases "cannot apply constraint because a point is at the center of the cylinder-x" (at' [x0, x1, x2] 1 - xc) (at' [x0, x1, x2] 2 - yc) r with
            ⟨h1, h⟩ | ⟨h1, h2, h⟩ | ⟨h1, h2, h⟩ <;> rw [h]
          · exact ⟨fun _ => ⟨_, rfl⟩, fun h' => absurd h1 (not_le.2 h'), fun h' => absurd h1 (not_le.2 h')⟩
          · refine ⟨fun h' => absurd h' (not_le.2 h1), fun _ h' => absurd h' h2, fun _ _ => ?_⟩
            rw [Res.bind_ok]
            dsimp only
            rw [move_eq (pos h1), move_eq (pos h1)]
            rw [← key]
            simp [Surface.project, List.range_succ, at']
          · exact ⟨fun h' => absurd h' (not_le.2 h1), fun _ _ => rfl, fun _ h' => absurd h2 h'⟩
        | cylinderY xc yc r =>
          dsimp only [surface3d] at key
          dsimp only [applyConstraint3d, surface3d]
          rw [key]
          rcases moveTo_cases "cannot apply constraint because a point is at the center of the cylinder-y" (at' [x0, x1, x2] 0 - xc) (at' [x0, x1, x2] 2 - yc) r with
            ⟨h1, h⟩ | ⟨h1, h2, h⟩ | ⟨h1, h2, h⟩ <;> rw [h]
          · exact ⟨fun _ => ⟨_, rfl⟩, fun h' => absurd h1 (not_le.2 h'), fun h' => absurd h1 (not_le.2 h')⟩
          · refine ⟨fun h' => absurd h' (not_le.2 h1), fun _ h' => absurd h' h2, fun _ _ => ?_⟩
            rw [Res.bind_ok]
            dsimp only
            rw [move_eq (pos h1), move_eq (pos h1)]
            rw [← key]
            simp [Surface.project, List.range_succ, at']
          · exact ⟨fun h' => absurd h' (not_le.2 h1), fun _ _ => rfl, fun _ h' => absurd h2 h'⟩
        | cylinderZ xc yc r =>
          dsimp only [surface3d] at key
          dsimp only [applyConstraint3d, surface3d]
          rw [key]
          rcases moveTo_cases "cannot apply constraint because a point is at the center of the cylinder-z" (at' [x0, x1, x2] 0 - xc) (at' [x0, x1, x2] 1 - yc) r with
            ⟨h1, h⟩ | ⟨h1, h2, h⟩ | ⟨h1, h2, h⟩ <;> rw [h]
          · exact ⟨fun _ => ⟨_, rfl⟩, fun h' => absurd h1 (not_le.2 h'), fun h' => absurd h1 (not_le.2 h')⟩
          · refine ⟨fun h' => absurd h' (not_le.2 h1), fun _ h' => absurd h' h2, fun _ _ => ?_⟩
            rw [Res.bind_ok]
            dsimp only
            rw [move_eq (pos h1), move_eq (pos h1)]
            rw [← key]
            simp [Surface.project, List.range_succ, at']
          · exact ⟨fun h' => absurd h' (not_le.2 h1), fun _ _ => rfl, fun _ h' => absurd h2 h'⟩

theorem not_hasConstraints (hw : WF nrow ndim at_ b) (h : hasConstraints b = false) (s : Nat) : constraintOf b s = none := by
  unfold hasConstraints at h
  rw [decide_eq_false_iff_not] at h
  push Not at h
  have h1 : b.edgeConstraints = [] := List.length_eq_zero_iff.1 (by omega)
  have h2 : b.faceConstraints = [] := List.length_eq_zero_iff.1 (by omega)
  unfold constraintOf
  rw [h1, h2]
  split <;> rfl

theorem sides_sorted (ndim : Nat) (pre post : List (Nat × Nat × ℝ)) (t : Nat × Nat × ℝ) (h : sides ndim = pre ++ t :: post) :
    ∀ u ∈ sides ndim, u.1 < t.1 → u ∈ pre := by
  have hp : (sides ndim).Pairwise (fun u v => u.1 < v.1) := by
    unfold sides
    split <;> simp
  intro u hu hlt
  rw [h] at hu hp
  rcases List.mem_append.1 hu with hu | hu
  · exact hu
  · exfalso
    rcases List.mem_cons.1 hu with rfl | hu
    · omega
    · have := (List.pairwise_cons.1 (List.pairwise_append.1 hp).2.1).1 u hu
      omega

/-- Coordinates of a node, in a block that is not transformed into a ring. -/
theorem realCoords_spec (hw : WF nrow ndim at_ b) (hc : Ctx b target) (hr : b.transformIntoRing = false) {ξ : List ℝ} (hn : IsNode b target ξ) :
    ((∀ s S, Active b ξ s S → ¬ S.Off (isoMap nrow ndim at_ ξ)) → realCoords b ξ = .ok (isoMap nrow ndim at_ ξ, none)) ∧
    ∀ s S, FirstOff b ξ (isoMap nrow ndim at_ ξ) s S →
      (1 / 10 ^ 8 < S.dist (isoMap nrow ndim at_ ξ) → realCoords b ξ = .ok (S.project (isoMap nrow ndim at_ ξ), some s)) ∧
      (S.dist (isoMap nrow ndim at_ ξ) ≤ 1 / 10 ^ 8 → ∃ e, realCoords b ξ = .err e) := by
  have hlen : (isoMap nrow ndim at_ ξ).length = b.ndim := by rw [hw.ndim_eq]; simp [isoMap]
  have hreal : realCoords b ξ = if hasConstraints b then handleConstraints b (isoMap nrow ndim at_ ξ) ξ else .ok (isoMap nrow ndim at_ ξ, none) := by
    unfold realCoords
    rw [hr]
    have hp := Scratchpad.calcCoords_ok hw.padOk (at' ξ)
    rw [hw.padNdim] at hp
    rw [if_neg (by simp), hp, Res.bind_ok]
    dsimp only
    rw [pad_map hw]
  generalize isoMap nrow ndim at_ ξ = x at *
  have hact : ∀ s S, Active b ξ s S → ∃ u ∈ sides b.ndim, u.1 = s ∧ Near u ξ := by
    rintro s S ⟨h1, h2, -⟩
    refine ⟨_, sides_mem hc.dims h1, rfl, ?_⟩
    rw [near_iff hc hn (sides_mem hc.dims h1)]
    exact h2
  have hof : ∀ u ∈ sides b.ndim, Near u ξ → ∀ S, constraintOf b u.1 = some S → Active b ξ u.1 S := by
    intro u hu hne S hS
    obtain ⟨-, -, -, h4, -⟩ := sides_spec hc.dims u hu
    exact ⟨h4, (near_iff hc hn hu).1 hne, hS⟩
  have hoff : ∀ s S, constraintOf b s = some S → (applySide b s x = .ok (x, false) ↔ ¬ S.Off x) := by
    intro s S hS
    obtain ⟨a1, a2, a3⟩ := (applySide_spec hc.dims s x hlen).2 S hS
    unfold Surface.Off
    push Not
    constructor
    · intro h
      refine ⟨?_, ?_⟩
      · by_contra hle
        obtain ⟨e, he⟩ := a1 (not_lt.1 hle)
        rw [h] at he; cases he
      · by_contra hne
        by_cases hle : S.dist x ≤ 1 / 10 ^ 8
        · obtain ⟨e, he⟩ := a1 hle
          rw [h] at he; cases he
        · rw [a3 (not_le.1 hle) hne] at h; simp at h
    · rintro ⟨h1, h2⟩
      exact a2 h1 h2
  by_cases hh : hasConstraints b = true
  · rw [if_pos hh] at hreal
    unfold handleConstraints at hreal
    rw [hreal]
    constructor
    · intro hall
      rcases handleLoop_cases hc.dims ξ (sides b.ndim) x hlen with ⟨pre, t, post, x', g1, g2, g3, g4, g5, g6⟩ | ⟨g1, g2⟩ | ⟨pre, t, post, e, g1, g2, g3, g4, g5⟩
      · exfalso
        have ht : t ∈ sides b.ndim := by rw [g1]; simp
        cases hS : constraintOf b t.1 with
        | none => rw [(applySide_spec hc.dims t.1 x hlen).1 hS] at g3; cases g3
        | some S =>
          rw [(hoff _ S hS).2 (hall _ S (hof t ht g2 S hS))] at g3; cases g3
      · exact g2
      · exfalso
        have ht : t ∈ sides b.ndim := by rw [g1]; simp
        cases hS : constraintOf b t.1 with
        | none => rw [(applySide_spec hc.dims t.1 x hlen).1 hS] at g3; cases g3
        | some S =>
          rw [(hoff _ S hS).2 (hall _ S (hof t ht g2 S hS))] at g3; cases g3
    · rintro s S ⟨hA, hO, hF⟩
      obtain ⟨u, hu, hus, hun⟩ := hact s S hA
      subst hus
      have huniq : ∀ pre t post, sides b.ndim = pre ++ t :: post → Near t ξ → (∀ v ∈ pre, Near v ξ → applySide b v.1 x = .ok (x, false)) →
          applySide b t.1 x ≠ .ok (x, false) → t.1 = u.1 := by
        intro pre t post g1 g2 g5 g3
        have ht : t ∈ sides b.ndim := by rw [g1]; simp
        rcases lt_trichotomy t.1 u.1 with hlt | heq | hgt
        · exfalso
          cases hS : constraintOf b t.1 with
          | none => exact g3 ((applySide_spec hc.dims t.1 x hlen).1 hS)
          | some S' => exact g3 ((hoff _ S' hS).2 (hF _ hlt S' (hof t ht g2 S' hS)))
        · exact heq
        · exfalso
          exact (hoff _ S hA.2.2).1 (g5 u (sides_sorted _ _ _ _ g1 u hu hgt) hun) hO
      obtain ⟨a1, a2, a3⟩ := (applySide_spec hc.dims u.1 x hlen).2 S hA.2.2
      rcases handleLoop_cases hc.dims ξ (sides b.ndim) x hlen with ⟨pre, t, post, x', g1, g2, g3, g4, g5, g6⟩ | ⟨g1, g2⟩ | ⟨pre, t, post, e, g1, g2, g3, g4, g5⟩
      · have e := huniq pre t post g1 g2 g5 (by rw [g3]; simp)
        rw [e] at g3 g6
        constructor
        · intro h1
          have hne : S.dist x ≠ S.r := by
            rcases hO with h | h
            · exact absurd h (not_le.2 h1)
            · exact h
          rw [a3 h1 hne] at g3
          cases g3
          exact g6
        · intro h1
          obtain ⟨e', he'⟩ := a1 h1
          rw [he'] at g3; cases g3
      · exact absurd hO ((hoff _ S hA.2.2).1 (g1 u hu hun))
      · have e' := huniq pre t post g1 g2 g4 (by rw [g3]; simp)
        rw [e'] at g3
        constructor
        · intro h1
          exfalso
          by_cases hr' : S.dist x = S.r
          · rw [a2 h1 hr'] at g3; cases g3
          · rw [a3 h1 hr'] at g3; cases g3
        · exact fun _ => ⟨e, g5⟩
  · rw [if_neg hh] at hreal
    refine ⟨fun _ => hreal, ?_⟩
    rintro s S ⟨hA, -, -⟩
    have := hA.2.2
    rw [not_hasConstraints hw (by simpa using hh) s] at this
    cases this

theorem project_length (S : Surface) (x : List ℝ) : (S.project x).length = x.length := by simp [Surface.project]

/-- The projection is on the surface. -/
theorem project_on {S : Surface} {x : List ℝ} (hp : S.p < x.length) (hq : S.q < x.length) (hpq : S.p ≠ S.q) (hd : 0 < S.dist x) : S.On (S.project x) := by
  unfold Surface.On Surface.project
  rw [getD_map_range hp, getD_map_range hq, if_pos rfl, if_neg (Ne.symm hpq), if_pos rfl]
  have h : S.dist x ^ 2 = (x.getD S.p 0 - S.cp) ^ 2 + (x.getD S.q 0 - S.cq) ^ 2 := by
    unfold Surface.dist
    rw [Real.sq_sqrt (by positivity)]
  have h2 : (S.cp + S.r / S.dist x * (x.getD S.p 0 - S.cp) - S.cp) ^ 2 + (S.cq + S.r / S.dist x * (x.getD S.q 0 - S.cq) - S.cq) ^ 2 =
      S.r ^ 2 * ((x.getD S.p 0 - S.cp) ^ 2 + (x.getD S.q 0 - S.cq) ^ 2) / S.dist x ^ 2 := by
    field_simp
    ring
  rw [h2, ← h]
  field_simp

theorem surface_comps {b : Block} (hd : b.ndim = 2 ∨ b.ndim = 3) {s : Nat} {S : Surface} (h : constraintOf b s = some S) : S.p < b.ndim ∧ S.q < b.ndim ∧ S.p ≠ S.q := by
  unfold constraintOf at h
  rcases hd with hd | hd
  · rw [if_pos hd] at h
    obtain ⟨c, -, rfl⟩ := Option.map_eq_some_iff.1 h
    cases c
    simp [surface2d, hd]
  · rw [if_neg (by omega)] at h
    obtain ⟨c, -, rfl⟩ := Option.map_eq_some_iff.1 h
    cases c <;> simp [surface3d, hd]

end
end Gemlab.Block
