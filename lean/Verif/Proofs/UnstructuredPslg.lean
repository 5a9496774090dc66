import Verif.Proofs.Unstructured

/-! # Proofs about `call_trigen` -/
namespace Gemlab.Unstructured
open Gemlab.Mesh Gemlab.Shapes Gemlab.Props.Mesh Gemlab.Props.Features

variable {T : Type}

theorem getElem?_getD {α : Type} {l : List α} {i : Nat} (d : α) (h : i < l.length) : l[i]? = some (l.getD i d) := by
  rw [List.getElem?_eq_getElem h, List.getD_eq_getElem _ _ h]

/-- A loop in which a step may fail with a fixed error. -/
theorem foldlM_range_err {σ : Type} (f : σ → Nat → Res σ) (n : Nat) (s : σ) (P : Nat → σ → Prop) (Q : Nat → Prop) (e : String) (h0 : P 0 s)
    (hstep : ∀ i s, i < n → P i s → (Q i → ∃ s', f s i = .ok s' ∧ P (i + 1) s') ∧ (¬ Q i → f s i = .err e)) (hbad : ∃ i < n, ¬ Q i) :
    (List.range n).foldlM f s = .err e := by
  have key : ∀ k ≤ n, (∃ s', (List.range k).foldlM f s = .ok s' ∧ P k s' ∧ ∀ i < k, Q i) ∨ (List.range k).foldlM f s = .err e := by
    intro k
    induction k with
    | zero => intro _; exact Or.inl ⟨s, rfl, h0, by simp⟩
    | succ k ih =>
      intro hk
      rw [List.range_succ, List.foldlM_append]
      rcases ih (by omega) with ⟨s', e1, hP, hQ⟩ | e1
      · rw [e1]
        by_cases hq : Q k
        · obtain ⟨s2, e2, hP2⟩ := (hstep k s' (by omega) hP).1 hq
          left
          refine ⟨s2, ?_, hP2, ?_⟩
          · simp only [Res.bind_ok, List.foldlM_cons, e2, List.foldlM_nil]; rfl
          · intro i hi
            rcases Nat.lt_succ_iff_lt_or_eq.1 hi with h | h
            · exact hQ i h
            · rw [h]; exact hq
        · right
          simp only [Res.bind_ok, List.foldlM_cons, (hstep k s' (by omega) hP).2 hq]
          rfl
      · right
        rw [e1]; rfl
  rcases key n le_rfl with ⟨s', _, _, hQ⟩ | h
  · obtain ⟨i, hi, hq⟩ := hbad
    exact absurd (hQ i hi) hq
  · exact h

/-! ## Features of a 2D mesh -/

theorem two_le_edge (k f : GeoKind) (hd : k.ndim = 2) (he : k.edgeKind = some f) : 2 ≤ f.nnode := by
  cases k <;> first | exact absurd hd (by decide) | (cases he; decide)

theorem features_ok {m : Mesh ℝ} (h : ValidMesh m) (h2 : m.ndim = 2) (hb : ∀ p ∈ m.points, ∀ v ∈ p.coords, -f64Max ≤ v ∧ v ≤ f64Max)
    {o : Orders} (ho : o.Valid) (hs : EdgesSpread m) : ∃ x F, Features.new o m true = .ok F ∧ F.edges = x.edges ∧ IsFeatures2d m true x := by
  obtain ⟨x, hx, h1, _⟩ := C47_new m h (Or.inl h2) hb o ho true
  have hx2 : IsFeatures2d m true x := by
    rcases hx with ⟨_, hx⟩ | ⟨h3, _⟩
    · exact hx
    · omega
  have hend : ∀ p, EdgeEnd m p → FeaturePoint m x p := by
    rintro p ⟨key, c, e, he, hp⟩
    have hsome := (hx2.accepted key).2 ⟨⟨c, e, he⟩, Or.inl rfl⟩
    obtain ⟨f, hf⟩ := Option.isSome_iff_exists.1 hsome
    refine Or.inl ((hx2.points p).2 ⟨key, f, hf, ?_⟩)
    obtain ⟨c', e', hfirst, ⟨cell, hc, hek, hlen, hpts⟩, _⟩ := hx2.data key f hf
    obtain ⟨cell2, a, b, hc2, hd2, hne, ha, hb', _, hkey⟩ := hfirst.1
    rw [hc] at hc2
    simp only [Option.some.injEq] at hc2
    subst hc2
    have hn2 : 2 ≤ f.kind.nnode := by
      exact two_le_edge _ _ hd2 hek
    have p0 := hpts 0 (by omega)
    have p1 := hpts 1 (by omega)
    rw [ha] at p0
    rw [hb'] at p1
    have m0 := List.mem_of_getElem? p0
    have m1 := List.mem_of_getElem? p1
    rcases hkey with rfl | rfl <;> rcases hp with rfl | rfl <;> assumption
  obtain ⟨F, hF, hN⟩ := h1 (by
    intro i hi
    obtain ⟨p, q, hp, hq, hlt⟩ := hs i (by omega)
    exact ⟨p, q, hend p hp, hend q hq, hlt⟩)
  exact ⟨x, F, hF, hN.edges, hx2⟩

theorem edgeKeyLe_total (a b : EdgeKey) : edgeKeyLe a b ∨ edgeKeyLe b a := by unfold edgeKeyLe; omega

instance : Std.Total edgeKeyLe := ⟨edgeKeyLe_total⟩
instance : IsTrans EdgeKey edgeKeyLe := ⟨fun a b c => by unfold edgeKeyLe; omega⟩

/-- The keys in increasing order. -/
theorem sorted_keys {α : Type} (edges : HMap EdgeKey α) (hw : (edges.map (·.1)).Nodup) {keyOrder : List EdgeKey → List EdgeKey} (hk : IterOrder keyOrder) :
    let keys := (keyOrder (edges.map (·.1))).insertionSort edgeKeyLe
    keys.Pairwise (fun k k' => k.1 < k'.1 ∨ k.1 = k'.1 ∧ k.2 < k'.2) ∧ (∀ key, key ∈ keys ↔ (edges.get key).isSome) ∧ keys.length = edges.length := by
  intro keys
  have hp : keys.Perm (edges.map (·.1)) := (List.perm_insertionSort _ _).trans (hk _)
  refine ⟨?_, ?_, ?_⟩
  · have h1 : keys.Pairwise edgeKeyLe := List.pairwise_insertionSort _ _
    have h2 : keys.Nodup := hp.nodup_iff.2 hw
    have := List.Pairwise.and h1 h2
    refine this.imp ?_
    rintro ⟨a, b⟩ ⟨c, d⟩ ⟨h, hne⟩
    unfold edgeKeyLe at h
    simp only [ne_eq, Prod.mk.injEq, not_and] at h hne ⊢
    rcases h with h | ⟨h, h'⟩
    · exact Or.inl h
    · exact Or.inr ⟨h, lt_of_le_of_ne h' (hne h)⟩
  · intro key
    rw [hp.mem_iff]
    by_cases h : (edges.get key).isSome
    · simp only [h, iff_true]
      obtain ⟨v, hv⟩ := Option.isSome_iff_exists.1 h
      exact List.mem_map.2 ⟨(key, v), HMap.mem_of_get hv, rfl⟩
    · simp only [h, iff_false]
      rw [Option.not_isSome_iff_eq_none, HMap.get_eq_none_iff] at h
      simpa using h
  · rw [hp.length_eq, List.length_map]

/-! ## The loops -/

/-- Marker and coordinates of a point. -/
noncomputable def ptData (m : Mesh ℝ) (j : Nat) : Int × ℝ × ℝ :=
  ((m.points.getD j ⟨0, 0, []⟩).marker, (m.points.getD j ⟨0, 0, []⟩).coords.getD 0 0, (m.points.getD j ⟨0, 0, []⟩).coords.getD 1 0)

theorem points_loop {lib : Trigen T} {view : T → TriInput} (hl : lib.Contract view) {m : Mesh ℝ} (h : ValidMesh m) (h2 : m.ndim = 2) (t0 : T)
    (h0 : (view t0).points = List.replicate m.points.length none) :
    ∃ t1, (List.range m.points.length).foldlM (pslgPoint lib m) t0 = .ok t1 ∧
      view t1 = { view t0 with points := filled (ptData m) m.points.length m.points.length } := by
  apply Res.foldlM_range (pslgPoint lib m) m.points.length t0
    (fun k t => view t = { view t0 with points := filled (ptData m) m.points.length k })
  · rw [filled_zero, ← h0]
  · intro i t hi ht
    have hg : m.points[i]? = some (m.points.getD i ⟨0, 0, []⟩) := by
      rw [List.getD_eq_getElem _ _ hi, List.getElem?_eq_getElem hi]
    have hlen := h.coords _ (List.mem_of_getElem? hg)
    rw [h2] at hlen
    unfold pslgPoint
    rw [Res.idx_eq_ok.2 hg, Res.bind_ok]
    have hc : ∀ d < 2, (m.points.getD i ⟨0, 0, []⟩).coords[d]? = some ((m.points.getD i ⟨0, 0, []⟩).coords.getD d 0) := by
      intro d hd
      exact getElem?_getD _ (by omega)
    rw [Res.idx_eq_ok.2 (hc 0 (by omega)), Res.bind_ok, Res.idx_eq_ok.2 (hc 1 (by omega)), Res.bind_ok]
    obtain ⟨t', e, hv⟩ := hl.setPoint t i (m.points.getD i ⟨0, 0, []⟩).marker ((m.points.getD i ⟨0, 0, []⟩).coords.getD 0 0)
      ((m.points.getD i ⟨0, 0, []⟩).coords.getD 1 0) (by rw [ht]; dsimp only; rw [filled_length]; exact hi)
    refine ⟨t', e, ?_⟩
    rw [hv, ht]
    dsimp only
    rw [filled_set]
    rfl

/-- Marker and end points of the edge with the `i`-th key. -/
def segData (edges : HMap EdgeKey Feature) (keys : List EdgeKey) (i : Nat) : Int × Nat × Nat :=
  (((edges.get (keys.getD i (0, 0))).getD ⟨.lin2, [], 0⟩).marker, ((edges.get (keys.getD i (0, 0))).getD ⟨.lin2, [], 0⟩).points.getD 0 0,
    ((edges.get (keys.getD i (0, 0))).getD ⟨.lin2, [], 0⟩).points.getD 1 0)

theorem segments_step {lib : Trigen T} {view : T → TriInput} (hl : lib.Contract view) (edges : HMap EdgeKey Feature) (keys : List EdgeKey)
    (t0 : T) (n : Nat) (hn : (view t0).points.length = n) (i : Nat) (t : T) (hi : i < keys.length)
    (ht : view t = { view t0 with segments := filled (segData edges keys) keys.length i }) (f : Feature)
    (hf : edges.get (keys.getD i (0, 0)) = some f) (hr : ∀ q ∈ f.points, q < n) :
    (f.points.length = 2 → ∃ t', pslgSegment lib edges keys t i = .ok t' ∧
      view t' = { view t0 with segments := filled (segData edges keys) keys.length (i + 1) }) ∧
    (¬ f.points.length = 2 → pslgSegment lib edges keys t i = .err "edges must have 2 points") := by
  have hg : keys[i]? = some (keys.getD i (0, 0)) := by rw [List.getD_eq_getElem _ _ hi, List.getElem?_eq_getElem hi]
  unfold pslgSegment
  rw [Res.idx_eq_ok.2 hg, Res.bind_ok, hf]
  simp only [unwrap, Res.bind_ok]
  constructor
  · intro h2
    rw [if_neg (by simp [h2])]
    have hc : ∀ d < 2, f.points[d]? = some (f.points.getD d 0) := by
      intro d hd
      exact getElem?_getD _ (by omega)
    rw [Res.idx_eq_ok.2 (hc 0 (by omega)), Res.bind_ok, Res.idx_eq_ok.2 (hc 1 (by omega)), Res.bind_ok]
    obtain ⟨t', e, hv⟩ := hl.setSegment t i f.marker (f.points.getD 0 0) (f.points.getD 1 0) (by rw [ht]; dsimp only; rw [filled_length]; exact hi)
      (by rw [ht]; dsimp only; rw [hn]; exact hr _ (List.mem_of_getElem? (hc 0 (by omega))))
      (by rw [ht]; dsimp only; rw [hn]; exact hr _ (List.mem_of_getElem? (hc 1 (by omega))))
    refine ⟨t', e, ?_⟩
    rw [hv, ht]
    dsimp only
    rw [filled_set]
    unfold segData
    rw [hf]
    rfl
  · intro h2
    rw [if_pos h2]

theorem cen_loop {m : Mesh ℝ} (h : ValidMesh m) (h2 : m.ndim = 2) (ps : List Nat) (hr : ∀ p ∈ ps, p < m.points.length) (s : ℝ × ℝ) :
    ps.foldlM (cenStep m) s = .ok (s.1 + (ps.map fun p => (coordsOf m p).getD 0 0).sum, s.2 + (ps.map fun p => (coordsOf m p).getD 1 0).sum) := by
  induction ps generalizing s with
  | nil => simp
  | cons p ps ih =>
    have hp := hr p (by simp)
    obtain ⟨q, hq⟩ : ∃ q, m.points[p]? = some q := ⟨_, List.getElem?_eq_getElem hp⟩
    have hlen := h.coords q (List.mem_of_getElem? hq)
    rw [h2] at hlen
    have hc : ∀ d < 2, q.coords[d]? = some (q.coords.getD d 0) := by
      intro d hd
      exact getElem?_getD _ (by omega)
    have hco : coordsOf m p = q.coords := by unfold coordsOf; rw [hq]; rfl
    have : cenStep m s p = .ok (s.1 + q.coords.getD 0 0, s.2 + q.coords.getD 1 0) := by
      unfold cenStep
      rw [Res.idx_eq_ok.2 hq, Res.bind_ok, Res.idx_eq_ok.2 (hc 0 (by omega)), Res.bind_ok, Res.idx_eq_ok.2 (hc 1 (by omega)), Res.bind_ok]
      rfl
    rw [List.foldlM_cons, this, Res.bind_ok, ih (fun p hp => hr p (by simp [hp]))]
    simp only [List.map_cons, List.sum_cons, hco]
    congr 1
    rw [add_assoc, add_assoc]

/-- The region of the `i`-th cell. -/
noncomputable def regData (m : Mesh ℝ) (maxAreas : Option (HMap Int ℝ)) (c : Cell) : Int × ℝ × ℝ × Option ℝ :=
  (c.marker, meanCoord m c.points 0, meanCoord m c.points 1, maxAreas.bind fun ma => ma.get c.marker)

theorem regions_loop {lib : Trigen T} {view : T → TriInput} (hl : lib.Contract view) {m : Mesh ℝ} (h : ValidMesh m) (h2 : m.ndim = 2)
    (maxAreas : Option (HMap Int ℝ)) (t0 : T) (h0 : (view t0).regions = List.replicate m.cells.length none) :
    ∃ t1, m.cells.foldlM (pslgRegion lib m maxAreas) t0 = .ok t1 ∧
      view t1 = { view t0 with regions := m.cells.map fun c => some (regData m maxAreas c) } := by
  obtain ⟨t1, e, hv⟩ := Res.foldlM_list (pslgRegion lib m maxAreas) m.cells t0
    (fun pre t => view t = { view t0 with regions := filled (fun j => regData m maxAreas (m.cells.getD j ⟨0, 0, .lin2, []⟩)) m.cells.length pre.length })
    (by rw [List.length_nil, filled_zero, ← h0]) (by
      rintro pre c t hc ⟨suf, hsuf⟩ ht
      have hget : m.cells[pre.length]? = some c := by rw [hsuf]; simp
      have hlt : pre.length < m.cells.length := (List.getElem?_eq_some_iff.1 hget).1
      have hid := h.cellIds _ _ hget
      have hD : m.cells.getD pre.length ⟨0, 0, .lin2, []⟩ = c := by
        rw [List.getD_eq_getElem _ _ hlt]; exact (List.getElem?_eq_some_iff.1 hget).2
      obtain ⟨t', e, hv⟩ := hl.setRegion t c.id c.marker (meanCoord m c.points 0) (meanCoord m c.points 1) (maxAreas.bind fun ma => ma.get c.marker)
        (by rw [ht]; dsimp only; rw [filled_length, hid]; exact hlt)
      refine ⟨t', ?_, ?_⟩
      · unfold pslgRegion
        rw [cen_loop h h2 c.points (h.inRange c hc), Res.bind_ok]
        simp only [zero_add]
        exact e
      · rw [hv, ht]
        dsimp only
        rw [hid, List.length_append, List.length_singleton, filled_set]
        rw [hD]; rfl)
  refine ⟨t1, e, ?_⟩
  rw [hv, filled_all, map_range_getD _ _ (fun c => some (regData m maxAreas c))]

theorem holes_loop {lib : Trigen T} {view : T → TriInput} (hl : lib.Contract view) (holes : List (ℝ × ℝ)) (t0 : T)
    (h0 : (view t0).holes = List.replicate holes.length none) :
    ∃ t1, (List.range holes.length).foldlM (pslgHole lib holes) t0 = .ok t1 ∧ view t1 = { view t0 with holes := holes.map some } := by
  obtain ⟨t1, e, hv⟩ := Res.foldlM_range (pslgHole lib holes) holes.length t0
    (fun k t => view t = { view t0 with holes := filled (fun j => holes.getD j (0, 0)) holes.length k })
    (by rw [filled_zero, ← h0]) (by
      intro i t hi ht
      have hg : holes[i]? = some (holes.getD i (0, 0)) := by rw [List.getD_eq_getElem _ _ hi, List.getElem?_eq_getElem hi]
      unfold pslgHole
      rw [Res.idx_eq_ok.2 hg, Res.bind_ok]
      obtain ⟨t', e, hv⟩ := hl.setHole t i (holes.getD i (0, 0)).1 (holes.getD i (0, 0)).2 (by rw [ht]; dsimp only; rw [filled_length]; exact hi)
      refine ⟨t', e, ?_⟩
      rw [hv, ht]
      dsimp only
      rw [filled_set]
      rfl)
  refine ⟨t1, e, ?_⟩
  rw [hv, filled_all, map_range_getD _ _ some]

end Gemlab.Unstructured
