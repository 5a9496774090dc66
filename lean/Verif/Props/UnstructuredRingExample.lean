import Verif.Props.UnstructuredRing3
import Verif.Props.UnstructuredExample

/-! # C71: the hypotheses are met -/
namespace Gemlab.Unstructured
open Gemlab.Mesh Gemlab.Shapes Gemlab.Props.Mesh Gemlab.Props.Features

/-- As `recorder2d`, but the points of the triangles have the marker -6 (the outer circle), or -5 (the inner circle, the first point). -/
noncomputable def recorderRing : Trigen TriInput where
  __ := recorder2d
  outPoint _ i d := ([[1 / 2, 0], [2, 0], [0, 2], [0, 1]].getD i []).getD d 0
  outPointMarker _ i := [-5, -6, 0, 0].getD i 0

theorem recorderRing_contract : recorderRing.Contract id := ⟨recorder2d_contract.1, recorder2d_contract.2, recorder2d_contract.3, recorder2d_contract.4, recorder2d_contract.5, recorder2d_contract.6⟩

theorem recorderRing_good (t : TriInput) : recorderRing.GoodOutput t false := ⟨(recorder2d_good t).1, (recorder2d_good t).2, (recorder2d_good t).3, (recorder2d_good t).4⟩

/-- Non-vacuity (2D): the first point, with the marker -5, is moved from 1/2 to the inner radius 1. -/
theorem C71_example_2d (o : Orders) (ho : o.Valid) (nr na : Nat) (hnr : 1 ≤ nr) (hna : 1 ≤ na) :
    ∃ v m, IsRing2d 1 2 nr na v ∧ quarterRing2d recorderRing o 1 2 nr na .tri3 none false = .ok m ∧ IsConstrained 1 2 (triMesh recorderRing v .tri3) m ∧
      m.points[0]? = some ⟨0, -5, [1, 0]⟩ := by
  rcases C71_quarter_ring_2d recorderRing_contract o ho 1 2 (by norm_num) (by norm_num) nr na hnr hna .tri3 (Or.inl rfl) none false with ⟨e, h, _⟩ | ⟨t, h1, _, _, h2⟩
  · cases h
  · obtain ⟨m1, hc, he, _⟩ := h2 t rfl (recorderRing_good t) (by
      intro p hp hm
      simp only [triMesh, List.mem_map, List.mem_range, if_true] at hp
      obtain ⟨i, hi, rfl⟩ := hp
      change i < 4 at hi
      unfold axisDist
      rw [Real.sqrt_ne_zero']
      interval_cases i <;> simp [recorderRing] at hm ⊢)
    simp only [if_true] at hc
    refine ⟨t, m1, h1, he (Or.inl rfl), hc, ?_⟩
    have h0 : (triMesh recorderRing t .tri3).points[0]? = some ⟨0, -5, [1 / 2, 0]⟩ := rfl
    have hlen := hc.points.length_eq
    have hl4 : (triMesh recorderRing t .tri3).points.length = 4 := by simp [triMesh, recorderRing, recorder2d]
    have hp := (List.forall₂_iff_get.1 hc.points).2 0 (by omega) (by omega)
    simp only [List.get_eq_getElem] at hp
    have hg : (triMesh recorderRing t .tri3).points[0] = ⟨0, -5, [1 / 2, 0]⟩ := rfl
    rw [hg] at hp
    obtain ⟨hid, hmk, hln, _, hcase⟩ := hp.1 rfl
    have hd : axisDist ⟨0, -5, [1 / 2, 0]⟩ = 1 / 2 := by
      unfold axisDist
      rw [show ([1 / 2, (0 : ℝ)] : List ℝ).getD 0 0 = 1 / 2 from rfl, show ([1 / 2, (0 : ℝ)] : List ℝ).getD 1 0 = 0 from rfl]
      rw [show ((1 : ℝ) / 2) ^ 2 + 0 ^ 2 = (1 / 2) ^ 2 by norm_num]
      exact Real.sqrt_sq (by norm_num)
    rw [List.getElem?_eq_getElem (by omega)]
    rcases hcase with ⟨_, h⟩ | ⟨_, hx, hy⟩
    · rw [hd] at h; norm_num [abs_of_pos] at h
    · rw [hd] at hx hy
      generalize m1.points[0] = q at *
      obtain ⟨i, k, c⟩ := q
      match c, hln with
      | [x, y], _ =>
        simp at hid hmk hx hy
        subst hid hmk
        rw [hx, hy]

/-- As `recorder3d`, with two marked faces: the inner one (marker -5) and the outer one (marker -6). -/
noncomputable def recorderRing3 : Tetgen TetInput where
  __ := recorder3d
  outPoint _ i d := ([[1, 0, 0], [0, 1, 0], [2, 0, 0], [1, 0, 1]].getD i []).getD d 0
  outPointMarker _ _ := 1
  outMarkedFace _ i buf := if i = 0 then (-5, [0, 2, 1] ++ buf.drop 3) else (-6, [1, 2, 3] ++ buf.drop 3)

theorem recorderRing3_contract : recorderRing3.Contract id :=
  ⟨recorder3d_contract.1, recorder3d_contract.2, recorder3d_contract.3, recorder3d_contract.4, recorder3d_contract.5, recorder3d_contract.6, recorder3d_contract.7⟩

theorem recorderRing3_good (t : TetInput) : recorderRing3.GoodOutput t false := by
  refine ⟨(by decide : 2 ≤ 4), (by decide : 1 ≤ 1), rfl, ?_, ?_, ?_, ?_⟩
  · intro i hi m hm
    exact hm
  · intro i _ buf hb
    show (if i = 0 then ((-5 : Int), [0, 2, 1] ++ buf.drop 3) else (-6, [1, 2, 3] ++ buf.drop 3)).2.length = 6
    split <;> simp [hb]
  · intro i _ buf hb m hm q hq
    change (if i = 0 then ((-5 : Int), [0, 2, 1] ++ buf.drop 3) else (-6, [1, 2, 3] ++ buf.drop 3)).2[m]? = some q at hq
    show q < 4
    simp only [Bool.false_eq_true, if_false] at hm
    split at hq <;> interval_cases m <;> simp at hq <;> omega
  · intro i _ buf buf' _ _
    show (if i = 0 then ((-5 : Int), [0, 2, 1] ++ buf.drop 3) else (-6, [1, 2, 3] ++ buf.drop 3)).1 = (if i = 0 then ((-5 : Int), [0, 2, 1] ++ buf'.drop 3) else (-6, [1, 2, 3] ++ buf'.drop 3)).1 ∧
      ∀ m < (if false = true then 6 else 3), (if i = 0 then ((-5 : Int), [0, 2, 1] ++ buf.drop 3) else (-6, [1, 2, 3] ++ buf.drop 3)).2[m]? = (if i = 0 then ((-5 : Int), [0, 2, 1] ++ buf'.drop 3) else (-6, [1, 2, 3] ++ buf'.drop 3)).2[m]?
    split
    · refine ⟨rfl, fun m hm => ?_⟩
      simp only [Bool.false_eq_true, if_false] at hm
      interval_cases m <;> rfl
    · refine ⟨rfl, fun m hm => ?_⟩
      simp only [Bool.false_eq_true, if_false] at hm
      interval_cases m <;> rfl

/-- Non-vacuity (3D): the point 2 belongs to both marked faces and gets the greater marker. -/
theorem C71_example_3d (nr na : Nat) (hnr : 1 ≤ nr) (hna : 1 ≤ na) :
    ∃ v m, IsRing3d 1 2 1 nr na v ∧ quarterRing3d recorderRing3 1 2 1 nr na .tet4 none false = .ok m ∧
      (m.points[2]?.map fun p => p.marker) = some (-5) ∧ (m.points[3]?.map fun p => p.marker) = some (-6) ∧ (∀ p ∈ m.points, p.marker = -6 → |axisDist p - 2| ≤ 1 / 10 ^ 15) := by
  rcases C71_quarter_ring_3d recorderRing3_contract 1 2 1 (by norm_num) (by norm_num) (by norm_num) nr na hnr hna .tet4 (Or.inl rfl) none false
    with ⟨e, h, _⟩ | ⟨t, h1, _, _, h2⟩
  · cases h
  · obtain ⟨m1, hr, h3⟩ := h2 t rfl (recorderRing3_good t) (by
      intro i hi
      change (if i = 0 then ((-5 : Int), [0, 2, 1] ++ (List.replicate 6 0).drop 3) else (-6, [1, 2, 3] ++ (List.replicate 6 0).drop 3)).1 ≠ 0
      split <;> decide)
    have hl4 : (tetMesh recorderRing3 t .tet4).points.length = 4 := by simp [tetMesh, recorderRing3, recorder3d]
    have hl : m1.points.length = 4 := by rw [hr.length, hl4]
    have hface : ∀ i, outFace recorderRing3 t i = if i = 0 then ((-5 : Int), [0, 2, 1, 0, 0, 0]) else (-6, [1, 2, 3, 0, 0, 0]) := fun i => rfl
    have hax : OffAxis m1 := by
      intro p hp _
      obtain ⟨q, hq⟩ := List.mem_iff_getElem?.1 hp
      have hq4 : q < 4 := by rw [← hl]; exact (List.getElem?_eq_some_iff.1 hq).1
      obtain ⟨p0, hp0⟩ : ∃ p0, (tetMesh recorderRing3 t .tet4).points[q]? = some p0 := ⟨_, List.getElem?_eq_getElem (by omega)⟩
      obtain ⟨f, hf, _⟩ := hr.points q p0 hp0
      rw [hq] at hf
      cases hf
      unfold axisDist
      rw [Real.sqrt_ne_zero']
      interval_cases q <;> (simp [tetMesh, recorderRing3, recorder3d, List.range_succ] at hp0; subst hp0; simp)
    obtain ⟨m2, hc, he⟩ := h3 hax
    have mk : ∀ (q : Nat) (f : Int), q < 4 → (∀ p, m1.points[q]? = some p → p.marker = f) → (m2.points[q]?.map fun p => p.marker) = some f := by
      intro q f hq hf
      have hlen := hc.points.length_eq
      have hp := (List.forall₂_iff_get.1 hc.points).2 q (by omega) (by omega)
      simp only [List.get_eq_getElem] at hp
      have hfm := hf _ (List.getElem?_eq_getElem (by omega))
      rw [List.getElem?_eq_getElem (by omega), Option.map_some]
      by_cases h5 : m1.points[q].marker = -5
      · rw [(hp.1 h5).2.1, hfm]
      · by_cases h6 : m1.points[q].marker = -6
        · rw [(hp.2.1 h6).2.1, hfm]
        · rw [hp.2.2 h5 h6, hfm]
    refine ⟨t, m2, h1, he, mk 2 (-5) (by omega) ?_, mk 3 (-6) (by omega) ?_, ?_⟩
    · intro p hp
      obtain ⟨f, hf, -, hg⟩ := hr.points 2 ⟨2, 0, [2, 0, 0]⟩ rfl
      rw [hp] at hf; cases hf
      have h5 : ∃ i < 2, FaceHas recorderRing3 t 3 i 2 ∧ (-5 : Int) = (outFace recorderRing3 t i).1 := ⟨0, (by decide : 0 < 2), ⟨1, (by decide : 1 < 3), rfl⟩, rfl⟩
      obtain ⟨hg1, hg2⟩ := hg ⟨-5, h5⟩
      have hge := hg2 (Or.inl h5)
      rcases hg1 with ⟨i, _, _, h⟩ | ⟨_, h⟩
      · rw [hface] at h
        split at h <;> simp at h hge <;> omega
      · exact absurd rfl h
    · intro p hp
      obtain ⟨f, hf, -, hg⟩ := hr.points 3 ⟨3, 0, [1, 0, 1]⟩ rfl
      rw [hp] at hf; cases hf
      obtain ⟨hg1, -⟩ := hg ⟨-6, 1, (by decide : 1 < 2), ⟨2, (by decide : 2 < 3), rfl⟩, rfl⟩
      rcases hg1 with ⟨i, _, ⟨m, hm, hh⟩, h⟩ | ⟨_, h⟩
      · rw [hface] at h hh
        by_cases hi : i = 0
        · rw [if_pos hi] at hh
          change m < 3 at hm
          interval_cases m <;> simp at hh
        · rw [if_neg hi] at h; exact h
      · exact absurd rfl h
    · intro p hp h6
      exact (C71_on_circles hc p hp).2 h6

end Gemlab.Unstructured
