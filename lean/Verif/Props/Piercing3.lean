import Verif.Props.Piercing2

/-!
# C87: the hypotheses are met

Two tetrahedra with a common face; a point in the first one, and a direction in which a ray from it passes through both.
-/
namespace Gemlab.Mesh
open Gemlab.Shapes Gemlab.Spec Gemlab.Piercing Gemlab.Props.Features
noncomputable section

/-- Two tetrahedra with a common face. -/
def exTwoTets : Mesh ℝ :=
  { ndim := 3
    points := [⟨0, 0, [0, 0, 0]⟩, ⟨1, 0, [1, 0, 0]⟩, ⟨2, 0, [0, 1, 0]⟩, ⟨3, 0, [0, 0, 1]⟩, ⟨4, 0, [1, 1, 1]⟩]
    cells := [⟨0, 1, .tet4, [0, 1, 2, 3]⟩, ⟨1, 1, .tet4, [1, 2, 3, 4]⟩], markedEdges := [], markedFaces := [] }

theorem exTwoTets_valid : ValidMesh exTwoTets := by
  refine ⟨?_, ?_, ?_, ?_, ?_⟩
  · simp [exTwoTets]
  · intro i p hp
    have hi : i < 5 := (List.getElem?_eq_some_iff.1 hp).1
    interval_cases i <;> simp [exTwoTets] at hp <;> subst hp <;> rfl
  · intro i p hp
    have hi : i < 2 := (List.getElem?_eq_some_iff.1 hp).1
    interval_cases i <;> simp [exTwoTets] at hp <;> subst hp <;> rfl
  · simp [exTwoTets, GeoKind.nnode]
  · simp [exTwoTets]

theorem exTwoTets_key (key : FaceKey) (c f : Nat) (h : HasFace exTwoTets key c f) :
    c < 2 ∧ f < 4 ∧ key.toList.Perm [faceNode .tet4 f 0 + c, faceNode .tet4 f 1 + c, faceNode .tet4 f 2 + c, usizeMax] := by
  obtain ⟨cell, p0, p1, p2, p3, hc, -, hf, h0, h1, h2, h3, -, hp⟩ := h
  have hl : c < 2 := (List.getElem?_eq_some_iff.1 hc).1
  have hcell : cell = ⟨c, 1, .tet4, [0 + c, 1 + c, 2 + c, 3 + c]⟩ := by
    interval_cases c <;> simp [exTwoTets] at hc <;> subst hc <;> rfl
  subst hcell
  change f < 4 at hf
  refine ⟨hl, hf, ?_⟩
  have hid : ∀ n < 4, ([0 + c, 1 + c, 2 + c, 3 + c] : List Nat)[n]? = some (n + c) := by
    intro n hn; interval_cases n <;> rfl
  have hlt : ∀ f < 4, ∀ i < 3, faceNode .tet4 f i < 4 := by decide
  dsimp only at h0 h1 h2
  rw [hid _ (hlt f hf 0 (by omega)), Option.some.injEq] at h0
  rw [hid _ (hlt f hf 1 (by omega)), Option.some.injEq] at h1
  rw [hid _ (hlt f hf 2 (by omega)), Option.some.injEq] at h2
  rw [if_neg (show ¬ GeoKind.tet4.faceNnode > 3 by decide)] at h3
  rw [h0, h1, h2, ← h3]
  exact hp

theorem exTwoTets_same (key : FaceKey) (c f c' f' : Nat) (h1 : HasFace exTwoTets key c f) (h2 : HasFace exTwoTets key c' f') :
    (c = c' ∧ f = f') ∨ (c = 0 ∧ f = 3 ∧ c' = 1 ∧ f' = 2) ∨ (c = 1 ∧ f = 2 ∧ c' = 0 ∧ f' = 3) := by
  obtain ⟨a1, a2, a3⟩ := exTwoTets_key _ _ _ h1
  obtain ⟨b1, b2, b3⟩ := exTwoTets_key _ _ _ h2
  have := a3.symm.trans b3
  clear a3 b3 h1 h2
  revert this
  interval_cases c <;> interval_cases c' <;> interval_cases f <;> interval_cases f' <;> decide

theorem exTwoTets_oriented : OrientedFaces exTwoTets := by
  refine ⟨fun key c e c' e' c'' e'' h1 h2 h3 => ?_, fun key c f c' f' h1 h2 hne cell cell' hc hc' => ?_⟩
  · have a := exTwoTets_same _ _ _ _ _ h1 h2
    have b := exTwoTets_same _ _ _ _ _ h1 h3
    omega
  · rcases exTwoTets_same _ _ _ _ _ h1 h2 with h | ⟨rfl, rfl, rfl, rfl⟩ | ⟨rfl, rfl, rfl, rfl⟩
    · exact absurd h hne
    all_goals
      simp only [exTwoTets, List.getElem?_cons_zero, List.getElem?_cons_succ, Option.some.injEq] at hc hc'
      subst hc; subst hc'
      decide

theorem exTwoTets_one {key : FaceKey} {c f : Nat} (h : HasFace exTwoTets key c f) (hs : ¬ (c = 0 ∧ f = 3)) (ht : ¬ (c = 1 ∧ f = 2)) :
    ExactlyOne (HasFace exTwoTets key) := by
  refine ⟨c, f, h, fun c' f' h' => ?_⟩
  have := exTwoTets_same _ _ _ _ _ h h'
  omega

/-- `Features::new` finds the boundary of the two tetrahedra. -/
theorem exTwoTets_features (o : Orders) (ho : o.Valid) : ∃ x F, Features.new o exTwoTets false = .ok F ∧ IsNew exTwoTets false x F := by
  obtain ⟨x, hx, h1, _⟩ := C47_new exTwoTets exTwoTets_valid (Or.inr rfl) (by
    have hb : (1 : ℝ) ≤ f64Max := one_le_f64Max
    have : ∀ p ∈ exTwoTets.points, ∀ v ∈ p.coords, (0 : ℝ) ≤ v ∧ v ≤ 1 := by simp [exTwoTets]
    intro p hp v hv
    have := this p hp v hv
    constructor <;> linarith) o ho false
  obtain ⟨h2, _⟩ | ⟨_, hx3⟩ := id hx
  · simp [exTwoTets] at h2
  have hM : exTwoTets.points.length ≤ usizeMax := by decide
  have pts : ∀ key, ExactlyOne (HasFace exTwoTets key) → key.1 ∈ x.points ∧ key.2.1 ∈ x.points ∧ key.2.2.1 ∈ x.points := by
    intro key hone
    obtain ⟨c, k, hck, _⟩ := id hone
    obtain ⟨f, hf⟩ := Option.isSome_iff_exists.1 ((hx3.accepted key).2 ⟨⟨c, k, hck⟩, Or.inr hone⟩)
    obtain ⟨_, a1, _, a2, _, a3, _, _, a4⟩ := face_key_points exTwoTets_valid hM hx hf
    exact ⟨a4 _ a1, a4 _ a2, a4 _ a3⟩
  have f1 : HasFace exTwoTets (0, 1, 2, usizeMax) 0 2 := ⟨_, 0, 2, 1, usizeMax, rfl, rfl, by decide, rfl, rfl, rfl, rfl, by decide, by decide⟩
  have f2 : HasFace exTwoTets (0, 1, 3, usizeMax) 0 1 := ⟨_, 0, 1, 3, usizeMax, rfl, rfl, by decide, rfl, rfl, rfl, rfl, by decide, by decide⟩
  have hA := pts _ (exTwoTets_one f1 (by decide) (by decide))
  have hB := pts _ (exTwoTets_one f2 (by decide) (by decide))
  obtain ⟨F, hF, hN⟩ := h1 (by
    intro i hi
    change i < 3 at hi
    interval_cases i
    · exact ⟨0, 1, Or.inl hA.1, Or.inl hA.2.1, by simp [coordsOf, exTwoTets]⟩
    · exact ⟨0, 2, Or.inl hA.1, Or.inl hA.2.2, by simp [coordsOf, exTwoTets]⟩
    · exact ⟨0, 3, Or.inl hA.1, Or.inl hB.2.2, by simp [coordsOf, exTwoTets]⟩)
  exact ⟨x, F, hF, hN⟩

theorem exTwoTets_cells {P : Cell → Prop} (h0 : P ⟨0, 1, .tet4, [0, 1, 2, 3]⟩) (h1 : P ⟨1, 1, .tet4, [1, 2, 3, 4]⟩) : ∀ cell ∈ exTwoTets.cells, P cell := by
  intro cell hc
  simp only [exTwoTets, List.mem_cons, List.not_mem_nil, or_false] at hc
  rcases hc with rfl | rfl
  · exact h0
  · exact h1

/-- The two tetrahedra meet the hypotheses of `C87_enclosed` at the point (0.1, 0.2, 0.3) and in the direction (5, 6, 4): the ray passes through both
cells, and the boundary is pierced once, because the point is in one cell. -/
theorem C87_example (o : Orders) (ho : o.Valid) : ∃ x F, Features.new o exTwoTets false = .ok F ∧ IsNew exTwoTets false x F ∧
    boundaryPiercing exTwoTets F (0.1, 0.2, 0.3) (5, 6, 4) = 1 := by
  classical
  obtain ⟨x, F, h1, h2⟩ := exTwoTets_features o ho
  refine ⟨x, F, h1, h2, ?_⟩
  rw [C87_enclosed h2 exTwoTets_valid rfl exTwoTets_oriented]
  · have a : InsideCell exTwoTets (0.1, 0.2, 0.3) ⟨0, 1, .tet4, [0, 1, 2, 3]⟩ := by
      refine ⟨0.4, 0.1, 0.2, 0.3, by norm_num, by norm_num, by norm_num, by norm_num, ?_⟩
      simp [IsMean, nodeAt, spacePoint, coordsOf, exTwoTets]
      norm_num
    have b : ¬ InsideCell exTwoTets (0.1, 0.2, 0.3) ⟨1, 1, .tet4, [1, 2, 3, 4]⟩ := by
      rintro ⟨α, β, γ, δ, h1, h2, h3, h4, h⟩
      simp [IsMean, nodeAt, spacePoint, coordsOf, exTwoTets] at h
      norm_num at h
      linarith
    have e : exTwoTets.cells = [⟨0, 1, .tet4, [0, 1, 2, 3]⟩, ⟨1, 1, .tet4, [1, 2, 3, 4]⟩] := rfl
    rw [e, List.countP_cons, List.countP_cons, List.countP_nil]
    simp [a, b, GeoKind.ndim]
  · exact exTwoTets_cells (fun _ => rfl) (fun _ => rfl)
  · apply exTwoTets_cells <;> intro _ <;> simp [PositiveCell, Positive, det3, sub, nodeAt, spacePoint, coordsOf, exTwoTets] <;> norm_num
  · apply exTwoTets_cells <;> intro _ i j hi hj <;> interval_cases j <;> interval_cases i <;>
      simp [PassesBy, det3, sub, nodeAt, spacePoint, coordsOf, exTwoTets] <;> norm_num
  · apply exTwoTets_cells <;> rintro _ ⟨i, j, k, hi, hj, hk, α, β, γ, ha, hb, hc, h⟩ <;> interval_cases k <;> interval_cases j <;> interval_cases i <;>
      simp [IsMean, nodeAt, spacePoint, coordsOf, exTwoTets] at h <;> norm_num at h <;> linarith

end
end Gemlab.Mesh
