import Verif.Props.UnstructuredPlc
import Verif.Props.FeaturesQueries

/-! # C70: the hypotheses are met -/
namespace Gemlab.Unstructured
open Gemlab.Mesh Gemlab.Shapes Gemlab.Props.Mesh Gemlab.Props.Features

/-- A generator that writes down its input and always answers with the same two triangles. -/
noncomputable def recorder2d : Trigen TriInput where
  new n s r h := .ok ⟨List.replicate n none, List.replicate (s.getD 0) none, List.replicate (r.getD 0) none, List.replicate (h.getD 0) none⟩
  setPoint t i mk x y := if i < t.points.length then .ok { t with points := t.points.set i (some (mk, x, y)) } else .err "index"
  setSegment t i mk a b := if i < t.segments.length ∧ a < t.points.length ∧ b < t.points.length then
    .ok { t with segments := t.segments.set i (some (mk, a, b)) } else .err "index"
  setRegion t i mk x y w := if i < t.regions.length then .ok { t with regions := t.regions.set i (some (mk, x, y, w)) } else .err "index"
  setHole t i x y := if i < t.holes.length then .ok { t with holes := t.holes.set i (some (x, y)) } else .err "index"
  generate t _ _ _ _ _ := .ok t
  outNpoint _ := 4
  outNcell _ := 2
  outCellNpoint _ := 3
  outPoint _ i d := ([[0, 0], [1, 0], [1, 1], [0, 1]].getD i []).getD d 0
  outPointMarker _ _ := 0
  outCellPoint _ i m := ([[0, 1, 2], [0, 2, 3]].getD i []).getD m 0
  outCellMarker _ _ := 1
  outNsegment _ := 1
  outSegmentPoint _ _ m := m
  outSegmentMarker _ _ := -7

theorem recorder2d_contract : recorder2d.Contract id := by
  refine ⟨?_, ?_, ?_, ?_, ?_, ?_⟩
  · intro n s r h hh; cases hh
  · intro n s r h t ht; cases ht; rfl
  · intro t i mk x y hi; exact ⟨_, if_pos hi, rfl⟩
  · intro t i mk a b hi ha hb; exact ⟨_, if_pos ⟨hi, ha, hb⟩, rfl⟩
  · intro t i mk x y w hi; exact ⟨_, if_pos hi, rfl⟩
  · intro t i x y hi; exact ⟨_, if_pos hi, rfl⟩

theorem recorder2d_good (t : TriInput) : recorder2d.GoodOutput t false := by
  refine ⟨(by decide : 2 ≤ 4), (by decide : 1 ≤ 2), rfl, ?_⟩
  intro i hi m hm
  change i < 2 at hi
  change m < 3 at hm
  change ([[0, 1, 2], [0, 2, 3]].getD i []).getD m 0 < 4
  interval_cases i <;> interval_cases m <;> decide

theorem square_bounded : ∀ p ∈ square.points, ∀ v ∈ p.coords, -f64Max ≤ v ∧ v ≤ f64Max := by
  have hb : (1 : ℝ) ≤ f64Max := one_le_f64Max
  intro p hp v hv
  simp [square] at hp
  rcases hp with rfl | rfl | rfl | rfl <;> simp at hv
  · subst hv; constructor <;> linarith
  · rcases hv with rfl | rfl <;> constructor <;> linarith
  · subst hv; constructor <;> linarith
  · rcases hv with rfl | rfl <;> constructor <;> linarith

theorem square_spread : EdgesSpread square := by
  have he01 : HasEdge square (0, 1) 0 0 := ⟨_, 1, 0, rfl, rfl, by decide, rfl, rfl, by decide, by decide⟩
  have he12 : HasEdge square (1, 2) 0 1 := ⟨_, 2, 1, rfl, rfl, by decide, rfl, rfl, by decide, by decide⟩
  intro i hi
  interval_cases i
  · exact ⟨0, 1, ⟨_, _, _, he01, Or.inl rfl⟩, ⟨_, _, _, he01, Or.inr rfl⟩, by simp [coordsOf, square]⟩
  · exact ⟨1, 2, ⟨_, _, _, he12, Or.inl rfl⟩, ⟨_, _, _, he12, Or.inr rfl⟩, by simp [coordsOf, square]⟩

/-- Non-vacuity: for the unit square (a `qua4` cell) the generator is given its four points and its four edges, the bottom one with the marker -7,
and the two triangles of the generator come back as the mesh. -/
theorem C70_example_2d (o : Orders) (ho : o.Valid) (keyOrder : List EdgeKey → List EdgeKey) (hk : IterOrder keyOrder) :
    ∃ v, IsPslg square [(2, 2)] none v ∧ callTrigen recorder2d o keyOrder square [(2, 2)] false none none none false = .ok (triMesh recorder2d v .tri3) ∧
      (triMesh recorder2d v .tri3).markedEdges = [(-7, 0, 1)] ∧ (triMesh recorder2d v .tri3).cells = [⟨0, 1, .tri3, [0, 1, 2]⟩, ⟨1, 1, .tri3, [0, 2, 3]⟩] := by
  rcases C70_call_trigen recorder2d_contract ho hk square_valid rfl square_bounded square_spread [(2, 2)] false none none none false (by
    intro key c e cell hfirst hc
    right
    have hm := List.mem_of_getElem? hc
    simp [square] at hm
    rw [hm]) with ⟨n, e, _, h, _⟩ | ⟨t, h1, _, h2, _⟩
  · cases h
  · refine ⟨t, h1, ?_, ?_, ?_⟩
    · exact h2 t rfl (recorder2d_good t)
    · simp [triMesh, recorder2d, List.range_succ]
    · have h3 : List.range 3 = [0, 1, 2] := by decide
      simp [triMesh, recorder2d, List.range_succ, h3, GeoKind.nnode]

/-! ## 3D -/

/-- A generator that writes down its input and always answers with the same tetrahedron, with two marked faces. -/
noncomputable def recorder3d : Tetgen TetInput where
  new n s r h := .ok ⟨List.replicate n none, (s.getD []).map fun k => (none, List.replicate k none), List.replicate (r.getD 0) none, List.replicate (h.getD 0) none⟩
  setPoint t i mk x y z := if i < t.points.length then .ok { t with points := t.points.set i (some (mk, x, y, z)) } else .err "index"
  setFacetMarker t i mk := if i < t.facets.length then .ok { t with facets := t.facets.modify i fun f => (some mk, f.2) } else .err "index"
  setFacetPoint t i m p := if (∃ f, t.facets[i]? = some f ∧ m < f.2.length) ∧ p < t.points.length then
    .ok { t with facets := t.facets.modify i fun f => (f.1, f.2.set m (some p)) } else .err "index"
  setRegion t i mk x y z w := if i < t.regions.length then .ok { t with regions := t.regions.set i (some (mk, x, y, z, w)) } else .err "index"
  setHole t i x y z := if i < t.holes.length then .ok { t with holes := t.holes.set i (some (x, y, z)) } else .err "index"
  generate t _ _ _ _ := .ok t
  outNpoint _ := 4
  outNcell _ := 1
  outCellNpoint _ := 4
  outPoint _ i d := ([[0, 0, 0], [1, 0, 0], [0, 1, 0], [0, 0, 1]].getD i []).getD d 0
  outPointMarker _ i := if i = 0 then 1 else -1
  outCellPoint _ _ m := m
  outCellMarker _ _ := 1
  outNMarkedFace _ := 2
  outMarkedFace _ i buf := if i = 0 then (-10, [0, 2, 1] ++ buf.drop 3) else (0, [1, 2, 3] ++ buf.drop 3)

theorem recorder3d_contract : recorder3d.Contract id := by
  refine ⟨?_, ?_, ?_, ?_, ?_, ?_, ?_⟩
  · intro n s r h hh; cases hh
  · intro n s r h t ht; cases ht; rfl
  · intro t i mk x y z hi; exact ⟨_, if_pos hi, rfl⟩
  · intro t i mk hi; exact ⟨_, if_pos hi, rfl⟩
  · intro t i m p hf hp; exact ⟨_, if_pos ⟨hf, hp⟩, rfl⟩
  · intro t i mk x y z w hi; exact ⟨_, if_pos hi, rfl⟩
  · intro t i x y z hi; exact ⟨_, if_pos hi, rfl⟩

theorem recorder3d_good (t : TetInput) : recorder3d.GoodOutput t false := by
  refine ⟨(by decide : 2 ≤ 4), (by decide : 1 ≤ 1), rfl, ?_, ?_, ?_, ?_⟩
  · intro i hi m hm
    exact hm
  · intro i _ buf hb
    show (if i = 0 then ((-10 : Int), [0, 2, 1] ++ buf.drop 3) else (0, [1, 2, 3] ++ buf.drop 3)).2.length = 6
    split <;> simp [hb]
  · intro i _ buf hb m hm q hq
    change (if i = 0 then ((-10 : Int), [0, 2, 1] ++ buf.drop 3) else (0, [1, 2, 3] ++ buf.drop 3)).2[m]? = some q at hq
    show q < 4
    simp only [Bool.false_eq_true, if_false] at hm
    split at hq <;> interval_cases m <;> simp at hq <;> omega
  · intro i _ buf buf' _ _
    show (if i = 0 then ((-10 : Int), [0, 2, 1] ++ buf.drop 3) else (0, [1, 2, 3] ++ buf.drop 3)).1 = (if i = 0 then ((-10 : Int), [0, 2, 1] ++ buf'.drop 3) else (0, [1, 2, 3] ++ buf'.drop 3)).1 ∧
      ∀ m < (if false = true then 6 else 3), (if i = 0 then ((-10 : Int), [0, 2, 1] ++ buf.drop 3) else (0, [1, 2, 3] ++ buf.drop 3)).2[m]? = (if i = 0 then ((-10 : Int), [0, 2, 1] ++ buf'.drop 3) else (0, [1, 2, 3] ++ buf'.drop 3)).2[m]?
    split
    · refine ⟨rfl, fun m hm => ?_⟩
      simp only [Bool.false_eq_true, if_false] at hm
      interval_cases m <;> rfl
    · refine ⟨rfl, fun m hm => ?_⟩
      simp only [Bool.false_eq_true, if_false] at hm
      interval_cases m <;> rfl

/-- A tetrahedron with an additional shell. -/
def tetra : Mesh ℝ where
  ndim := 3
  points := [⟨0, 0, [0, 0, 0]⟩, ⟨1, 0, [1, 0, 0]⟩, ⟨2, 0, [0, 1, 0]⟩, ⟨3, 0, [0, 0, 1]⟩, ⟨4, 0, [1, 1, 0]⟩]
  cells := [⟨0, 1, .tet4, [0, 1, 2, 3]⟩, ⟨1, 5, .tri3, [1, 4, 2]⟩]
  markedEdges := []
  markedFaces := [(-10, 2, 1, 0, usizeMax)]

theorem tetra_valid : ValidMesh tetra := by
  refine ⟨?_, ?_, ?_, ?_, ?_⟩
  · intro p hp; simp [tetra] at hp; rcases hp with rfl | rfl | rfl | rfl | rfl <;> rfl
  · intro i p hp
    have : i < 5 := by by_contra hc; rw [List.getElem?_eq_none (by simp [tetra]; omega)] at hp; simp at hp
    interval_cases i <;> simp [tetra] at hp <;> subst hp <;> rfl
  · intro i c hc
    have : i < 2 := by by_contra hc'; rw [List.getElem?_eq_none (by simp [tetra]; omega)] at hc; simp at hc
    interval_cases i <;> simp [tetra] at hc <;> subst hc <;> rfl
  · intro c hc; simp [tetra] at hc; rcases hc with rfl | rfl <;> rfl
  · intro c hc; simp [tetra] at hc; rcases hc with rfl | rfl <;> decide

theorem tetra_bounded : ∀ p ∈ tetra.points, ∀ v ∈ p.coords, -f64Max ≤ v ∧ v ≤ f64Max := by
  have hb : (1 : ℝ) ≤ f64Max := one_le_f64Max
  have key : ∀ p ∈ tetra.points, ∀ v ∈ p.coords, v = 0 ∨ v = 1 := by
    intro p hp v hv
    simp [tetra] at hp
    rcases hp with rfl | rfl | rfl | rfl | rfl <;> simp at hv <;> tauto
  intro p hp v hv
  rcases key p hp v hv with rfl | rfl <;> constructor <;> linarith

theorem tetra_spread : FacetsSpread tetra := by
  have f0 : ∀ i < 3, ∀ q, ([0, 1, 2, 3] : List Nat)[faceNode .tet4 0 i]? = some q → FacetPoint tetra q :=
    fun i hi q hq => Or.inr ⟨⟨0, 1, .tet4, [0, 1, 2, 3]⟩, by simp [tetra], rfl, 0, by decide, i, hi, hq⟩
  have f3 : ∀ i < 3, ∀ q, ([0, 1, 2, 3] : List Nat)[faceNode .tet4 3 i]? = some q → FacetPoint tetra q :=
    fun i hi q hq => Or.inr ⟨⟨0, 1, .tet4, [0, 1, 2, 3]⟩, by simp [tetra], rfl, 3, by decide, i, hi, hq⟩
  have p1 : FacetPoint tetra 1 := f3 0 (by decide) 1 (by decide)
  have p2 : FacetPoint tetra 2 := f3 1 (by decide) 2 (by decide)
  have p3 : FacetPoint tetra 3 := f3 2 (by decide) 3 (by decide)
  intro i hi
  interval_cases i
  · exact ⟨2, 1, p2, p1, by simp [coordsOf, tetra]⟩
  · exact ⟨1, 2, p1, p2, by simp [coordsOf, tetra]⟩
  · exact ⟨1, 3, p1, p3, by simp [coordsOf, tetra]⟩

/-- Non-vacuity: a tetrahedron and a shell give five facets; the answer of the generator comes back as the mesh, without the marker 1 of the
point 0, and with the marked face only. -/
theorem C70_example_3d (o : Orders) (ho : o.Valid) (keyOrder : List FaceKey → List FaceKey) (hk : IterOrder keyOrder) :
    ∃ v, IsPlc tetra [(1, 1 / 8, 1 / 8, 1 / 8)] [] none v ∧
      callTetgen recorder3d o keyOrder tetra [(1, 1 / 8, 1 / 8, 1 / 8)] [] false none none none false = .ok (tetMesh recorder3d v .tet4) ∧
      v.facets[0]? = some (some 5, [some 1, some 4, some 2]) ∧ (tetMesh recorder3d v .tet4).markedFaces = [(-10, 0, 2, 1, usizeMax)] ∧
      (tetMesh recorder3d v .tet4).points.map (·.marker) = [0, -1, -1, -1] := by
  rcases C70_call_tetgen recorder3d_contract ho hk tetra_valid rfl tetra_bounded (by decide +kernel) tetra_spread [(1, 1 / 8, 1 / 8, 1 / 8)] [] false none none none false
    with ⟨n, e, _, h, _⟩ | ⟨t, h1, _, h2, _⟩
  · cases h
  · refine ⟨t, h1, ?_, ?_, ?_, ?_⟩
    · exact h2 t rfl (recorder3d_good t)
    · obtain ⟨shells, keys, hsh, _, _, _, hf, _⟩ := h1.facets
      exact hf 0 ⟨1, 5, .tri3, [1, 4, 2]⟩ (by rw [hsh]; rfl)
    · have h2 : List.range 2 = [0, 1] := by decide
      simp [tetMesh, recorder3d, outFace, h2]
    · have h4 : List.range 4 = [0, 1, 2, 3] := by decide
      simp [tetMesh, recorder3d, h4, tetMarker]

end Gemlab.Unstructured
