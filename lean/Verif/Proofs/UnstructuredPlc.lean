import Verif.Proofs.UnstructuredPslg

/-! # Proofs about `call_tetgen` and the output of the 3D generator -/
namespace Gemlab.Unstructured
open Gemlab.Mesh Gemlab.Shapes Gemlab.Props.Mesh Gemlab.Props.Features

variable {T : Type}

/-! ## Output arrays -/

theorem faces_loop (lib : Tetgen T) (t : T) (o2 : Bool) (h : lib.GoodOutput t o2) :
    ∃ buf, buf.length = 6 ∧ (List.range (lib.outNMarkedFace t)).foldlM (tetgenFace lib t) (List.replicate 6 0, []) =
      .ok (buf, ((List.range (lib.outNMarkedFace t)).filter fun i => (outFace lib t i).1 ≠ 0).map fun i =>
        ((outFace lib t i).1, (outFace lib t i).2.getD 0 0, (outFace lib t i).2.getD 1 0, (outFace lib t i).2.getD 2 0, usizeMax)) := by
  have h3 : 3 ≤ (if o2 = true then 6 else 3) := by split <;> omega
  obtain ⟨s, e, h6, hs⟩ := Res.foldlM_range (tetgenFace lib t) (lib.outNMarkedFace t) (List.replicate 6 0, [])
    (fun k s => s.1.length = 6 ∧ s.2 = ((List.range k).filter fun i => (outFace lib t i).1 ≠ 0).map fun i =>
        ((outFace lib t i).1, (outFace lib t i).2.getD 0 0, (outFace lib t i).2.getD 1 0, (outFace lib t i).2.getD 2 0, usizeMax))
    (by simp) (by
      rintro i ⟨buf, fs⟩ hi ⟨h6, hfs⟩
      simp only at h6 hfs
      have g6 := h.face i hi buf h6
      have gb := h.faceBuffer i hi buf (List.replicate 6 0) h6 (by simp)
      have gm : (lib.outMarkedFace t i buf).1 = (outFace lib t i).1 := gb.1
      have gp : ∀ m < 3, (lib.outMarkedFace t i buf).2[m]? = some ((outFace lib t i).2.getD m 0) := by
        intro m hm
        rw [gb.2 m (by omega)]
        exact getElem?_getD 0 (by have := h.face i hi (List.replicate 6 0) (by simp); omega)
      unfold tetgenFace
      simp only
      rw [gm]
      by_cases hz : (outFace lib t i).1 = 0
      · refine ⟨(_, fs), by rw [if_neg (by simp [hz])]; rfl, g6, ?_⟩
        simp only [hfs, List.range_succ, List.filter_append]
        simp [hz]
      · refine ⟨(_, fs ++ [((outFace lib t i).1, (outFace lib t i).2.getD 0 0, (outFace lib t i).2.getD 1 0, (outFace lib t i).2.getD 2 0, usizeMax)]),
          ?_, g6, ?_⟩
        · rw [if_pos (by simp [hz]), Res.idx_eq_ok.2 (gp 0 (by omega)), Res.bind_ok, Res.idx_eq_ok.2 (gp 1 (by omega)), Res.bind_ok,
            Res.idx_eq_ok.2 (gp 2 (by omega)), Res.bind_ok]
          rfl
        · simp only [hfs, List.range_succ, List.filter_append]
          simp [hz])
  exact ⟨s.1, h6, by rw [e, ← hs]⟩

theorem fromTetgen_ok (lib : Tetgen T) (t : T) (o2 : Bool) (h : lib.GoodOutput t o2) :
    fromTetgen lib t = .ok (tetMesh lib t (if o2 then .tet10 else .tet4)) := by
  have hk : (if lib.outCellNpoint t = 10 then GeoKind.tet10 else GeoKind.tet4) = (if o2 then .tet10 else .tet4) := by
    rw [h.nnode]; cases o2 <;> simp
  have hnn : lib.outCellNpoint t = (if o2 then GeoKind.tet10 else GeoKind.tet4).nnode := by rw [h.nnode]; cases o2 <;> decide
  have hkd : (if o2 then GeoKind.tet10 else GeoKind.tet4).ndim = 3 := by cases o2 <;> decide
  unfold fromTetgen
  simp only [hk]
  generalize (if o2 = true then GeoKind.tet10 else GeoKind.tet4) = kind at hnn hkd ⊢
  have hz : newZeroHomogeneous (K := ℝ) 3 (lib.outNpoint t) (lib.outNcell t) kind = .ok {
      ndim := 3
      points := (List.range (lib.outNpoint t)).map fun i => { id := i, marker := 0, coords := List.replicate 3 0 }
      cells := (List.range (lib.outNcell t)).map fun i => { id := i, marker := 1, kind := kind, points := List.replicate kind.nnode 0 }
      markedEdges := []
      markedFaces := [] } := by
    unfold newZeroHomogeneous
    rw [if_neg (by simp), if_neg (by have := h.npoint; omega), if_neg (by have := h.ncell; omega), if_neg (by omega)]
  rw [hz]
  simp only [Mesh.unwrapRes, Res.bind_ok]
  have hp : (List.range (lib.outNpoint t)).foldlM (tetgenPoint lib t)
      ((List.range (lib.outNpoint t)).map fun i => ({ id := i, marker := 0, coords := List.replicate 3 0 } : Point ℝ)) =
      .ok ((List.range (lib.outNpoint t)).map fun i =>
        ⟨i, tetMarker (lib.outPointMarker t i), [lib.outPoint t i 0, lib.outPoint t i 1, lib.outPoint t i 2]⟩) := by
    apply foldlM_write
    intro i hi l hl ho
    unfold tetgenPoint
    rw [Res.idx_eq_ok.2 ho, Res.bind_ok]
    simp only [List.replicate, Res.setIdx]
    simp [hl, hi, tetMarker]
  have hc : (List.range (lib.outNcell t)).foldlM (tetgenCell lib t)
      ((List.range (lib.outNcell t)).map fun i => ({ id := i, marker := 1, kind := kind, points := List.replicate kind.nnode 0 } : Cell)) =
      .ok ((List.range (lib.outNcell t)).map fun i => ⟨i, lib.outCellMarker t i, kind, (List.range kind.nnode).map (lib.outCellPoint t i)⟩) := by
    apply foldlM_write
    intro i hi l hl ho
    unfold tetgenCell
    rw [Res.idx_eq_ok.2 ho, Res.bind_ok]
    dsimp only
    rw [nodes_write (lib.outCellPoint t i) _ hnn, Res.bind_ok, setIdx_of_lt _ (by omega)]
  obtain ⟨buf, _, hf⟩ := faces_loop lib t o2 h
  rw [hp, Res.bind_ok, hc, Res.bind_ok, hf, Res.bind_ok]
  rfl

theorem fromTetgen_panic (lib : Tetgen T) (t : T) (h : lib.outNpoint t < 2 ∨ lib.outNcell t < 1) : fromTetgen lib t = .panic := by
  unfold fromTetgen
  have : ∃ e, newZeroHomogeneous (K := ℝ) 3 (lib.outNpoint t) (lib.outNcell t)
      (if lib.outCellNpoint t = 10 then GeoKind.tet10 else GeoKind.tet4) = .err e := by
    unfold newZeroHomogeneous
    rw [if_neg (by simp)]
    by_cases h2 : lib.outNpoint t < 2
    · exact ⟨_, by rw [if_pos h2]⟩
    · exact ⟨_, by rw [if_neg h2, if_pos (by omega)]⟩
  obtain ⟨e, he⟩ := this
  simp only [he, Mesh.unwrapRes]
  rfl

theorem tetMesh_valid (lib : Tetgen T) (t : T) (o2 : Bool) (h : lib.GoodOutput t o2) : ValidMesh (tetMesh lib t (if o2 then .tet10 else .tet4)) := by
  have hnn : lib.outCellNpoint t = (if o2 then GeoKind.tet10 else GeoKind.tet4).nnode := by rw [h.nnode]; cases o2 <;> decide
  generalize (if o2 = true then GeoKind.tet10 else GeoKind.tet4) = kind at hnn ⊢
  unfold tetMesh
  refine ⟨?_, ?_, ?_, ?_, ?_⟩
  · intro p hp
    simp only [List.mem_map] at hp
    obtain ⟨i, _, rfl⟩ := hp
    rfl
  · intro i p hp
    simp only [List.getElem?_map, Option.map_eq_some_iff] at hp
    obtain ⟨j, hj, rfl⟩ := hp
    have := List.getElem?_eq_some_iff.1 hj
    simp at this
    exact this.2.symm
  · intro i p hp
    simp only [List.getElem?_map, Option.map_eq_some_iff] at hp
    obtain ⟨j, hj, rfl⟩ := hp
    have := List.getElem?_eq_some_iff.1 hj
    simp at this
    exact this.2.symm
  · intro c hc
    simp only [List.mem_map] at hc
    obtain ⟨i, _, rfl⟩ := hc
    simp
  · intro c hc p hp
    simp only [List.mem_map, List.mem_range] at hc
    obtain ⟨i, hi, rfl⟩ := hc
    simp only [List.mem_map, List.mem_range] at hp
    obtain ⟨m, hm, rfl⟩ := hp
    simp only [List.length_map, List.length_range]
    exact h.range i hi m (by omega)

/-! ## Facets -/

/-- A finished facet and an empty one. -/
def facetDone (d : Int × List Nat) : Option Int × List (Option Nat) := (some d.1, d.2.map some)
def facetEmpty (d : Int × List Nat) : Option Int × List (Option Nat) := (none, List.replicate d.2.length none)

/-- The first `k` facets are finished. -/
def facetsDone (F : List (Int × List Nat)) (k : Nat) : List (Option Int × List (Option Nat)) :=
  (List.range F.length).map fun j => if j < k then facetDone (F.getD j (0, [])) else facetEmpty (F.getD j (0, []))

theorem facetsDone_length (F : List (Int × List Nat)) (k : Nat) : (facetsDone F k).length = F.length := by simp [facetsDone]

theorem facetsDone_get (F : List (Int × List Nat)) (k i : Nat) (hi : i < F.length) :
    (facetsDone F k)[i]? = some (if i < k then facetDone (F.getD i (0, [])) else facetEmpty (F.getD i (0, []))) := by
  unfold facetsDone
  simp only [List.getElem?_map, List.getElem?_range hi, Option.map_some]

theorem facetsDone_zero (F : List (Int × List Nat)) : facetsDone F 0 = F.map facetEmpty := by
  unfold facetsDone
  simp only [Nat.not_lt_zero, if_false]
  exact map_range_getD F (0, []) facetEmpty

theorem facetsDone_all (F : List (Int × List Nat)) : facetsDone F F.length = F.map facetDone := by
  unfold facetsDone
  rw [← map_range_getD F (0, []) facetDone]
  apply List.map_congr_left
  intro j hj
  rw [if_pos (List.mem_range.1 hj)]

theorem facetsDone_modify (F : List (Int × List Nat)) (k : Nat) (g : Option Int × List (Option Nat) → Option Int × List (Option Nat))
    (hg : g (facetEmpty (F.getD k (0, []))) = facetDone (F.getD k (0, []))) : (facetsDone F k).modify k g = facetsDone F (k + 1) := by
  apply List.ext_getElem?
  intro i
  by_cases hi : i < F.length
  · rw [List.getElem?_modify, facetsDone_get F _ i hi, facetsDone_get F _ i hi]
    simp only [Option.map_eq_map, Option.map_some, Option.some.injEq]
    by_cases h : k = i
    · subst h
      rw [if_pos rfl, if_neg (by omega), if_pos (by omega), hg]
    · rw [if_neg h]
      by_cases h3 : i < k
      · rw [if_pos h3, if_pos (by omega)]
      · rw [if_neg h3, if_neg (by omega)]
  · rw [List.getElem?_eq_none (by rw [List.length_modify, facetsDone_length]; omega), List.getElem?_eq_none (by rw [facetsDone_length]; omega)]

/-- Writing the points of one facet, in any order of the places. -/
theorem facet_fill {lib : Tetgen T} {view : T → TetInput} (hl : lib.Contract view) (F : List (Int × List Nat)) (k : Nat) (hk : k < F.length)
    (t0 : T) (h0 : (view t0).facets = facetsDone F k)
    (L : List Nat) (body : T → Nat → Res T) (cover : List Nat → Nat → Prop) [∀ pre m, Decidable (cover pre m)]
    (hc0 : ∀ m, ¬ cover [] m) (hcL : ∀ m < (F.getD k (0, [])).2.length, cover L m)
    (hbody : ∀ pre a t, a ∈ L → (∃ suf, L = pre ++ a :: suf) →
      view t = { view t0 with facets := (facetsDone F k).modify k fun _ => (some (F.getD k (0, [])).1,
        (List.range (F.getD k (0, [])).2.length).map fun m => if cover pre m then some ((F.getD k (0, [])).2.getD m 0) else none) } →
      ∃ t', body t a = .ok t' ∧
        view t' = { view t0 with facets := (facetsDone F k).modify k fun _ => (some (F.getD k (0, [])).1,
          (List.range (F.getD k (0, [])).2.length).map fun m => if cover (pre ++ [a]) m then some ((F.getD k (0, [])).2.getD m 0) else none) }) :
    ∃ t1, (lib.setFacetMarker t0 k (F.getD k (0, [])).1 >>= fun t => L.foldlM body t) = .ok t1 ∧
      view t1 = { view t0 with facets := facetsDone F (k + 1) } := by
  obtain ⟨t, e, hv⟩ := hl.setFacetMarker t0 k (F.getD k (0, [])).1 (by rw [h0, facetsDone_length]; exact hk)
  rw [e, Res.bind_ok]
  have hfk : (facetsDone F k)[k]? = some (facetEmpty (F.getD k (0, []))) := by
    rw [facetsDone_get F k k hk, if_neg (by omega)]
  obtain ⟨t1, e1, hv1⟩ := Res.foldlM_list body L t
    (fun pre t => view t = { view t0 with facets := (facetsDone F k).modify k fun _ => (some (F.getD k (0, [])).1,
        (List.range (F.getD k (0, [])).2.length).map fun m => if cover pre m then some ((F.getD k (0, [])).2.getD m 0) else none) })
    (by
      rw [hv, h0]
      dsimp only
      congr 1
      apply List.ext_getElem
      · simp
      · intro i h1 h2
        rw [List.getElem_modify, List.getElem_modify]
        by_cases hi : k = i
        · subst hi
          rw [if_pos rfl, if_pos rfl]
          rw [(List.getElem?_eq_some_iff.1 hfk).2]
          unfold facetEmpty
          simp only [Prod.mk.injEq, true_and]
          apply List.ext_getElem
          · simp
          · intro j h3 h4
            simp [hc0]
        · rw [if_neg hi, if_neg hi])
    hbody
  refine ⟨t1, e1, ?_⟩
  rw [hv1]
  dsimp only
  congr 1
  apply facetsDone_modify
  unfold facetDone
  simp only [Prod.mk.injEq, true_and]
  apply List.ext_getElem
  · simp
  · intro j h3 h4
    simp only [List.length_map, List.length_range] at h3
    simp only [List.getElem_map, List.getElem_range]
    rw [if_pos (hcL j h3), List.getD_eq_getElem _ _ h3]

/-- Writing one place of the facet `k`. -/
theorem facet_put {lib : Tetgen T} {view : T → TetInput} (hl : lib.Contract view) (F : List (Int × List Nat)) (k : Nat) (hk : k < F.length)
    (v0 : TetInput) (t : T) (P P' : Nat → Prop) [DecidablePred P] [DecidablePred P'] (m p : Nat) (hm : m < (F.getD k (0, [])).2.length)
    (hp : p = (F.getD k (0, [])).2.getD m 0) (hpl : p < v0.points.length) (hP : ∀ j, P' j ↔ P j ∨ j = m)
    (hv : view t = { v0 with facets := (facetsDone F k).modify k fun _ => (some (F.getD k (0, [])).1,
        (List.range (F.getD k (0, [])).2.length).map fun m => if P m then some ((F.getD k (0, [])).2.getD m 0) else none) }) :
    ∃ t', lib.setFacetPoint t k m p = .ok t' ∧ view t' = { v0 with facets := (facetsDone F k).modify k fun _ => (some (F.getD k (0, [])).1,
        (List.range (F.getD k (0, [])).2.length).map fun m => if P' m then some ((F.getD k (0, [])).2.getD m 0) else none) } := by
  have hlen : k < (facetsDone F k).length := by rw [facetsDone_length]; exact hk
  obtain ⟨t', e, hv'⟩ := hl.setFacetPoint t k m p ⟨_, by rw [hv]; dsimp only; rw [List.getElem?_modify, List.getElem?_eq_getElem hlen]; simp only [Option.map_eq_map, Option.map_some, if_pos]; rfl,
    by simpa using hm⟩ (by rw [hv]; exact hpl)
  refine ⟨t', e, ?_⟩
  rw [hv', hv]
  dsimp only
  congr 1
  apply List.ext_getElem
  · simp
  · intro i h1 h2
    simp only [List.getElem_modify]
    by_cases hi : k = i
    · simp only [if_pos hi, Prod.mk.injEq, true_and]
      apply List.ext_getElem
      · simp
      · intro j h3 h4
        rw [List.getElem_set]
        simp only [List.getElem_map, List.getElem_range]
        by_cases hj : m = j
        · rw [if_pos hj, if_pos ((hP j).2 (Or.inr hj.symm)), hp, hj]
        · rw [if_neg hj]
          by_cases hPj : P j
          · rw [if_pos hPj, if_pos ((hP j).2 (Or.inl hPj))]
          · rw [if_neg hPj, if_neg]
            rw [hP j]
            rintro (h | h)
            · exact hPj h
            · exact hj h.symm
    · simp only [if_neg hi]

/-- One facet given by its list of points. -/
theorem plcFacet_ok {lib : Tetgen T} {view : T → TetInput} (hl : lib.Contract view) (F : List (Int × List Nat)) (k : Nat) (hk : k < F.length)
    (t0 : T) (h0 : (view t0).facets = facetsDone F k) (hr : ∀ q ∈ (F.getD k (0, [])).2, q < (view t0).points.length) :
    ∃ t1, plcFacet lib t0 k (F.getD k (0, [])).1 (F.getD k (0, [])).2 = .ok t1 ∧ view t1 = { view t0 with facets := facetsDone F (k + 1) } := by
  unfold plcFacet
  apply facet_fill hl F k hk t0 h0 (List.range (F.getD k (0, [])).2.length) _ (fun pre m => m < pre.length)
  · intro m; simp
  · intro m hm; simpa using hm
  · rintro pre a t ha ⟨suf, hsuf⟩ hv
    have hpa : pre.length = a := by
      have : (List.range (F.getD k (0, [])).2.length)[pre.length]? = some a := by rw [hsuf]; simp
      have := List.getElem?_eq_some_iff.1 this
      simpa using this.2
    have hal : a < (F.getD k (0, [])).2.length := List.mem_range.1 ha
    have hget := getElem?_getD 0 hal
    rw [Res.idx_eq_ok.2 hget, Res.bind_ok]
    refine facet_put hl F k hk (view t0) t (fun m => m < pre.length) (fun m => m < (pre ++ [a]).length) a _ hal rfl
      (hr _ (List.mem_of_getElem? hget)) ?_ hv
    intro j
    rw [List.length_append, List.length_singleton, hpa]
    omega

/-! ## The loops of `call_tetgen` -/

/-- Marker and coordinates of a point. -/
noncomputable def ptData3 (m : Mesh ℝ) (j : Nat) : Int × ℝ × ℝ × ℝ :=
  ((m.points.getD j ⟨0, 0, []⟩).marker, (m.points.getD j ⟨0, 0, []⟩).coords.getD 0 0, (m.points.getD j ⟨0, 0, []⟩).coords.getD 1 0,
    (m.points.getD j ⟨0, 0, []⟩).coords.getD 2 0)

theorem points_loop3 {lib : Tetgen T} {view : T → TetInput} (hl : lib.Contract view) {m : Mesh ℝ} (h : ValidMesh m) (h3 : m.ndim = 3) (t0 : T)
    (h0 : (view t0).points = List.replicate m.points.length none) :
    ∃ t1, (List.range m.points.length).foldlM (plcPoint lib m) t0 = .ok t1 ∧
      view t1 = { view t0 with points := filled (ptData3 m) m.points.length m.points.length } := by
  apply Res.foldlM_range (plcPoint lib m) m.points.length t0
    (fun k t => view t = { view t0 with points := filled (ptData3 m) m.points.length k })
  · rw [filled_zero, ← h0]
  · intro i t hi ht
    have hg : m.points[i]? = some (m.points.getD i ⟨0, 0, []⟩) := getElem?_getD _ hi
    have hlen := h.coords _ (List.mem_of_getElem? hg)
    rw [h3] at hlen
    unfold plcPoint
    rw [Res.idx_eq_ok.2 hg, Res.bind_ok]
    have hc : ∀ d < 3, (m.points.getD i ⟨0, 0, []⟩).coords[d]? = some ((m.points.getD i ⟨0, 0, []⟩).coords.getD d 0) := by
      intro d hd
      exact getElem?_getD _ (by omega)
    rw [Res.idx_eq_ok.2 (hc 0 (by omega)), Res.bind_ok, Res.idx_eq_ok.2 (hc 1 (by omega)), Res.bind_ok, Res.idx_eq_ok.2 (hc 2 (by omega)), Res.bind_ok]
    obtain ⟨t', e, hv⟩ := hl.setPoint t i (m.points.getD i ⟨0, 0, []⟩).marker ((m.points.getD i ⟨0, 0, []⟩).coords.getD 0 0)
      ((m.points.getD i ⟨0, 0, []⟩).coords.getD 1 0) ((m.points.getD i ⟨0, 0, []⟩).coords.getD 2 0) (by rw [ht]; dsimp only; rw [filled_length]; exact hi)
    refine ⟨t', e, ?_⟩
    rw [hv, ht]
    dsimp only
    rw [filled_set]
    rfl

theorem regions_loop3 {lib : Tetgen T} {view : T → TetInput} (hl : lib.Contract view) (regions : List (Int × ℝ × ℝ × ℝ)) (maxs : Option (HMap Int ℝ)) (t0 : T)
    (h0 : (view t0).regions = List.replicate regions.length none) :
    ∃ t1, (List.range regions.length).foldlM (plcRegion lib regions maxs) t0 = .ok t1 ∧
      view t1 = { view t0 with regions := regions.map fun r => some (r.1, r.2.1, r.2.2.1, r.2.2.2, maxs.bind fun ma => ma.get r.1) } := by
  obtain ⟨t1, e, hv⟩ := Res.foldlM_range (plcRegion lib regions maxs) regions.length t0
    (fun k t => view t = { view t0 with regions := filled (fun j => ((regions.getD j (0, 0, 0, 0)).1, (regions.getD j (0, 0, 0, 0)).2.1,
      (regions.getD j (0, 0, 0, 0)).2.2.1, (regions.getD j (0, 0, 0, 0)).2.2.2, maxs.bind fun ma => ma.get (regions.getD j (0, 0, 0, 0)).1)) regions.length k })
    (by rw [filled_zero, ← h0]) (by
      intro i t hi ht
      unfold plcRegion
      rw [Res.idx_eq_ok.2 (getElem?_getD (0, 0, 0, 0) hi), Res.bind_ok]
      obtain ⟨t', e, hv⟩ := hl.setRegion t i (regions.getD i (0, 0, 0, 0)).1 (regions.getD i (0, 0, 0, 0)).2.1 (regions.getD i (0, 0, 0, 0)).2.2.1
        (regions.getD i (0, 0, 0, 0)).2.2.2 (maxs.bind fun ma => ma.get (regions.getD i (0, 0, 0, 0)).1) (by rw [ht]; dsimp only; rw [filled_length]; exact hi)
      refine ⟨t', e, ?_⟩
      rw [hv, ht]
      dsimp only
      rw [filled_set]
      rfl)
  refine ⟨t1, e, ?_⟩
  rw [hv, filled_all, map_range_getD regions (0, 0, 0, 0) (fun r => some (r.1, r.2.1, r.2.2.1, r.2.2.2, maxs.bind fun ma => ma.get r.1))]

theorem holes_loop3 {lib : Tetgen T} {view : T → TetInput} (hl : lib.Contract view) (holes : List (ℝ × ℝ × ℝ)) (t0 : T)
    (h0 : (view t0).holes = List.replicate holes.length none) :
    ∃ t1, (List.range holes.length).foldlM (plcHole lib holes) t0 = .ok t1 ∧ view t1 = { view t0 with holes := holes.map some } := by
  obtain ⟨t1, e, hv⟩ := Res.foldlM_range (plcHole lib holes) holes.length t0
    (fun k t => view t = { view t0 with holes := filled (fun j => holes.getD j (0, 0, 0)) holes.length k })
    (by rw [filled_zero, ← h0]) (by
      intro i t hi ht
      unfold plcHole
      rw [Res.idx_eq_ok.2 (getElem?_getD (0, 0, 0) hi), Res.bind_ok]
      obtain ⟨t', e, hv⟩ := hl.setHole t i (holes.getD i (0, 0, 0)).1 (holes.getD i (0, 0, 0)).2.1 (holes.getD i (0, 0, 0)).2.2
        (by rw [ht]; dsimp only; rw [filled_length]; exact hi)
      refine ⟨t', e, ?_⟩
      rw [hv, ht]
      dsimp only
      rw [filled_set]
      rfl)
  refine ⟨t1, e, ?_⟩
  rw [hv, filled_all, map_range_getD _ _ some]

/-! ## Features of a 3D mesh -/

theorem three_le_face (k : GeoKind) (hd : k.ndim = 3) : 3 ≤ k.faceNnode ∧ (k.faceKind.map (·.nnode)) = some k.faceNnode := by
  cases k <;> first | exact absurd hd (by decide) | decide

theorem features_ok3 {m : Mesh ℝ} (h : ValidMesh m) (h3 : m.ndim = 3) (hb : ∀ p ∈ m.points, ∀ v ∈ p.coords, -f64Max ≤ v ∧ v ≤ f64Max)
    (hM : m.points.length ≤ usizeMax) {o : Orders} (ho : o.Valid) (hs : FacetsSpread m) :
    ∃ x F, Features.new o m true = .ok F ∧ F.faces = x.faces ∧ IsFeatures3d m true x ∧
      F.shells = m.cells.filterMap fun c => if c.kind.ndim = 2 then some c.id else none := by
  obtain ⟨x, hx, h1, _⟩ := C47_new m h (Or.inr h3) hb o ho true
  have hx3 : IsFeatures3d m true x := by
    rcases hx with ⟨h2, _⟩ | ⟨_, hx⟩
    · omega
    · exact hx
  have hend : ∀ p, FacetPoint m p → FeaturePoint m x p := by
    rintro p (⟨cell, hc, hd, hp⟩ | ⟨cell, hc, hd, f, hf, i, hi, hp⟩)
    · exact Or.inr ⟨cell, hc, by unfold IsRodOrShell; omega, hp⟩
    · obtain ⟨ci, hci⟩ := List.mem_iff_getElem?.1 hc
      obtain ⟨p0, p1, p2, p3, e0, e1, e2, e3, _⟩ := localFaceKey_ok cell.kind cell.points f (h.nnode cell hc) hf
      have hkey : HasFace m (sort4 p0 p1 p2 p3) ci f := by
        have hs4 := (sort4_eq_iff p0 p1 p2 p3 _).1 rfl
        exact ⟨cell, p0, p1, p2, p3, hci, hd, hf, e0, e1, e2, e3, hs4.1, hs4.2⟩
      have hpk : p ∈ (sort4 p0 p1 p2 p3).toList := by
        have hs4 := (sort4_eq_iff p0 p1 p2 p3 _).1 rfl
        rw [hs4.2.mem_iff]
        have : i = 0 ∨ i = 1 ∨ i = 2 := by omega
        rcases this with rfl | rfl | rfl
        · rw [e0] at hp; cases hp; simp
        · rw [e1] at hp; cases hp; simp
        · rw [e2] at hp; cases hp; simp
      have hplt : p < m.points.length := h.inRange cell hc p (List.mem_of_getElem? hp)
      have hsome := (hx3.accepted _).2 ⟨⟨ci, f, hkey⟩, Or.inl rfl⟩
      obtain ⟨ft, hft⟩ := Option.isSome_iff_exists.1 hsome
      refine Or.inl ((hx3.points p).2 ⟨_, ft, hft, ?_⟩)
      obtain ⟨c', k', hfirst, ⟨cell', hc', hfk, hlen, hpts⟩, _⟩ := hx3.data _ ft hft
      obtain ⟨cell2, q0, q1, q2, q3, hc2, hd2, _, g0, g1, g2, g3, _, hperm⟩ := hfirst.1
      rw [hc'] at hc2
      cases hc2
      obtain ⟨n3, nk⟩ := three_le_face cell'.kind hd2
      rw [hfk, Option.map_some, Option.some.injEq] at nk
      have a0 := hpts 0 (by omega)
      have a1 := hpts 1 (by omega)
      have a2 := hpts 2 (by omega)
      rw [g0] at a0
      rw [g1] at a1
      rw [g2] at a2
      have := (hperm.mem_iff (a := p)).1 hpk
      simp only [List.mem_cons, List.not_mem_nil, or_false] at this
      rcases this with rfl | rfl | rfl | rfl
      · exact List.mem_of_getElem? a0
      · exact List.mem_of_getElem? a1
      · exact List.mem_of_getElem? a2
      · by_cases h4 : cell'.kind.faceNnode > 3
        · rw [if_pos h4] at g3
          have a3 := hpts 3 (by omega)
          rw [g3] at a3
          exact List.mem_of_getElem? a3
        · rw [if_neg h4] at g3
          omega
  obtain ⟨F, hF, hN⟩ := h1 (by
    intro i hi
    obtain ⟨p, q, hp, hq, hlt⟩ := hs i (by omega)
    exact ⟨p, q, hend p hp, hend q hq, hlt⟩)
  refine ⟨x, F, hF, hN.faces, hx3, ?_⟩
  unfold Features.new at hF
  obtain ⟨a, _, hF⟩ := Res.bind_eq_ok.1 hF
  obtain ⟨b, _, hF⟩ := Res.bind_eq_ok.1 hF
  obtain ⟨c, _, hF⟩ := Res.bind_eq_ok.1 hF
  obtain ⟨d, _, hF⟩ := Res.bind_eq_ok.1 hF
  simp only [Res.pure_eq, Res.ok.injEq] at hF
  rw [← hF]
  simp only [h3, if_true]

/-- The strict order of the keys of faces. -/
def faceKeyLt (k k' : FaceKey) : Prop := k.1 < k'.1 ∨ k.1 = k'.1 ∧ (k.2.1 < k'.2.1 ∨ k.2.1 = k'.2.1 ∧ (k.2.2.1 < k'.2.2.1 ∨
      k.2.2.1 = k'.2.2.1 ∧ k.2.2.2 < k'.2.2.2))

instance : Std.Total faceKeyLe := ⟨fun a b => by unfold faceKeyLe; omega⟩
instance : IsTrans FaceKey faceKeyLe := ⟨fun a b c => by unfold faceKeyLe; omega⟩

theorem sorted_faceKeys {α : Type} (faces : HMap FaceKey α) (hw : (faces.map (·.1)).Nodup) {keyOrder : List FaceKey → List FaceKey} (hk : IterOrder keyOrder) :
    let keys := (keyOrder (faces.map (·.1))).insertionSort faceKeyLe
    keys.Pairwise faceKeyLt ∧ (∀ key, key ∈ keys ↔ (faces.get key).isSome) ∧ keys.length = faces.length := by
  intro keys
  have hp : keys.Perm (faces.map (·.1)) := (List.perm_insertionSort _ _).trans (hk _)
  refine ⟨?_, ?_, ?_⟩
  · have h1 : keys.Pairwise faceKeyLe := List.pairwise_insertionSort _ _
    have h2 : keys.Nodup := hp.nodup_iff.2 hw
    have := List.Pairwise.and h1 h2
    refine this.imp ?_
    rintro ⟨a, b, c, d⟩ ⟨a', b', c', d'⟩ ⟨h, hne⟩
    unfold faceKeyLe at h
    unfold faceKeyLt
    simp only [ne_eq, Prod.mk.injEq, not_and] at h hne ⊢
    rcases lt_trichotomy a a' with q | q | q
    · omega
    · rcases lt_trichotomy b b' with q2 | q2 | q2
      · omega
      · rcases lt_trichotomy c c' with q3 | q3 | q3
        · omega
        · have := hne q q2 q3
          omega
        · omega
      · omega
    · omega
  · intro key
    rw [hp.mem_iff]
    by_cases h : (faces.get key).isSome
    · simp only [h, iff_true]
      obtain ⟨v, hv⟩ := Option.isSome_iff_exists.1 h
      exact List.mem_map.2 ⟨(key, v), HMap.mem_of_get hv, rfl⟩
    · simp only [h, iff_false]
      rw [Option.not_isSome_iff_eq_none, HMap.get_eq_none_iff] at h
      simpa using h
  · rw [hp.length_eq, List.length_map]

/-- The facets given to the generator: marker and points. -/
def plcData (m : Mesh ℝ) (faces : HMap FaceKey Feature) (keys : List FaceKey) : List (Int × List Nat) :=
  ((m.cells.filter fun c => c.kind.ndim = 2).map fun c => (c.marker, c.points)) ++
  keys.map fun k => (((faces.get k).getD ⟨.lin2, [], 0⟩).marker, ((faces.get k).getD ⟨.lin2, [], 0⟩).points)

theorem shells_eq {m : Mesh ℝ} (h : ValidMesh m) :
    (m.cells.filterMap fun c => if c.kind.ndim = 2 then some c.id else none) = (m.cells.filter fun c => c.kind.ndim = 2).map (·.id) := by
  rw [← List.filterMap_eq_filter, List.map_filterMap]
  apply List.filterMap_congr
  intro c _
  by_cases hc : c.kind.ndim = 2 <;> simp [hc, Option.guard]

theorem shell_cell {m : Mesh ℝ} (h : ValidMesh m) (i : Nat) (c : Cell) (hi : (m.cells.filter fun c => c.kind.ndim = 2)[i]? = some c) : m.cells[c.id]? = some c := by
  have hm : c ∈ m.cells := (List.mem_filter.1 (List.mem_of_getElem? hi)).1
  obtain ⟨j, hj⟩ := List.mem_iff_getElem?.1 hm
  rw [h.cellIds j c hj]
  exact hj

theorem shellCounts_ok {m : Mesh ℝ} (h : ValidMesh m) :
    shellCounts m ((m.cells.filter fun c => c.kind.ndim = 2).map (·.id)) = .ok ((m.cells.filter fun c => c.kind.ndim = 2).map fun c => c.points.length) := by
  unfold shellCounts
  rw [Res.mapM_ok_iff]
  rw [List.forall₂_map_left_iff, List.forall₂_map_right_iff, List.forall₂_same]
  intro c hc
  obtain ⟨j, hj⟩ := List.mem_iff_getElem?.1 hc
  rw [Res.idx_eq_ok.2 (shell_cell h j c hj)]
  rfl

theorem faceCounts_ok (faces : HMap FaceKey Feature) (keys : List FaceKey) (hk : ∀ key ∈ keys, (faces.get key).isSome) :
    faceCounts faces keys = .ok (keys.map fun k => ((faces.get k).getD ⟨.lin2, [], 0⟩).points.length) := by
  unfold faceCounts
  apply Res.mapM_eq_ok_of
  intro k hkm
  obtain ⟨f, hf⟩ := Option.isSome_iff_exists.1 (hk k hkm)
  rw [hf]
  rfl

theorem plcData_counts (m : Mesh ℝ) (faces : HMap FaceKey Feature) (keys : List FaceKey) :
    ((m.cells.filter fun c => c.kind.ndim = 2).map fun c => c.points.length) ++ (keys.map fun k => ((faces.get k).getD ⟨.lin2, [], 0⟩).points.length) =
      (plcData m faces keys).map fun d => d.2.length := by
  unfold plcData
  simp [List.map_append, Function.comp_def]

theorem shells_loop {lib : Tetgen T} {view : T → TetInput} (hl : lib.Contract view) {m : Mesh ℝ} (h : ValidMesh m) (F : List (Int × List Nat))
    (rest : List (Int × List Nat)) (hF : F = ((m.cells.filter fun c => c.kind.ndim = 2).map fun c => (c.marker, c.points)) ++ rest)
    (t0 : T) (h0 : (view t0).facets = facetsDone F 0) (hn : (view t0).points.length = m.points.length) :
    ∃ t1, (List.range ((m.cells.filter fun c => c.kind.ndim = 2).map (·.id)).length).foldlM
        (plcShell lib m ((m.cells.filter fun c => c.kind.ndim = 2).map (·.id))) t0 = .ok t1 ∧
      view t1 = { view t0 with facets := facetsDone F ((m.cells.filter fun c => c.kind.ndim = 2).map (·.id)).length } := by
  apply Res.foldlM_range _ _ t0 (fun k t => view t = { view t0 with facets := facetsDone F k })
  · rw [← h0]
  · intro i t hi ht
    rw [List.length_map] at hi
    have hg := getElem?_getD (⟨0, 0, .lin2, []⟩ : Cell) hi
    generalize hcdef : (m.cells.filter fun c => c.kind.ndim = 2).getD i ⟨0, 0, .lin2, []⟩ = c at hg
    have hid : ((m.cells.filter fun c => c.kind.ndim = 2).map (·.id))[i]? = some c.id := by rw [List.getElem?_map, hg]; rfl
    have hFi : F.getD i (0, []) = (c.marker, c.points) := by
      rw [hF, List.getD_append _ _ _ _ (by rw [List.length_map]; exact hi), List.getD_eq_getElem?_getD, List.getElem?_map, hg]
      rfl
    have hil : i < F.length := by rw [hF, List.length_append, List.length_map]; omega
    obtain ⟨t', e, hv⟩ := plcFacet_ok hl F i hil t (by rw [ht]) (by
      rw [hFi, ht]
      dsimp only
      rw [hn]
      exact h.inRange c (List.mem_filter.1 (List.mem_of_getElem? hg)).1)
    refine ⟨t', ?_, ?_⟩
    · unfold plcShell
      rw [Res.idx_eq_ok.2 hid, Res.bind_ok, Res.idx_eq_ok.2 (shell_cell h i c hg), Res.bind_ok]
      rw [hFi] at e
      exact e
    · rw [hv, ht]

theorem faces_fill {lib : Tetgen T} {view : T → TetInput} (hl : lib.Contract view) (faces : HMap FaceKey Feature) (keys : List FaceKey)
    (first F : List (Int × List Nat)) (hF : F = first ++ keys.map fun k => (((faces.get k).getD ⟨.lin2, [], 0⟩).marker, ((faces.get k).getD ⟨.lin2, [], 0⟩).points))
    (hk : ∀ key ∈ keys, ∃ f, faces.get key = some f ∧ ∀ q ∈ f.points, q < n)
    (t0 : T) (h0 : (view t0).facets = facetsDone F first.length) (hn : (view t0).points.length = n) :
    ∃ t1, (List.range keys.length).foldlM (plcFace lib faces keys first.length) t0 = .ok t1 ∧
      view t1 = { view t0 with facets := facetsDone F (first.length + keys.length) } := by
  apply Res.foldlM_range _ _ t0 (fun k t => view t = { view t0 with facets := facetsDone F (first.length + k) })
  · rw [Nat.add_zero, ← h0]
  · intro i t hi ht
    have hg := getElem?_getD ((0, 0, 0, 0) : FaceKey) hi
    generalize keys.getD i (0, 0, 0, 0) = key at hg
    obtain ⟨f, hf, hr⟩ := hk key (List.mem_of_getElem? hg)
    have hFi : F.getD (first.length + i) (0, []) = (f.marker, f.points) := by
      rw [hF, List.getD_append_right _ _ _ _ (by omega), Nat.add_sub_cancel_left, List.getD_eq_getElem?_getD, List.getElem?_map, hg]
      simp [hf]
    have hil : first.length + i < F.length := by rw [hF, List.length_append, List.length_map]; omega
    obtain ⟨t', e, hv⟩ := plcFacet_ok hl F (first.length + i) hil t (by rw [ht]) (by
      rw [hFi, ht]
      dsimp only
      rw [hn]
      exact hr)
    refine ⟨t', ?_, ?_⟩
    · unfold plcFace
      rw [Res.idx_eq_ok.2 hg, Res.bind_ok, hf]
      rw [hFi] at e
      exact e
    · rw [hv, ht]
      rfl

end Gemlab.Unstructured
