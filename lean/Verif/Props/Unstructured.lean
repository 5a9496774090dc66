import Verif.Proofs.UnstructuredPslg

/-! # C70: meshes of triangles and tetrahedra from a planar straight line graph or a piecewise linear complex -/
namespace Gemlab.Unstructured
open Gemlab.Mesh Gemlab.Shapes Gemlab.Props.Mesh Gemlab.Props.Features

variable {T : Type}

/-- **C70.** A mesh that is not 2D is rejected by `call_trigen`, a mesh that is not 3D by `call_tetgen`. -/
theorem C70_wrong_dimension (lib : Trigen T) (lib' : Tetgen T) (o : Orders) (keyOrder : List EdgeKey → List EdgeKey) (keyOrder' : List FaceKey → List FaceKey)
    (m : Mesh ℝ) (holes : List (ℝ × ℝ)) (regions : List (Int × ℝ × ℝ × ℝ)) (holes' : List (ℝ × ℝ × ℝ)) (o2 renumber : Bool)
    (maxs : Option (HMap Int ℝ)) (gmax gang : Option ℝ) :
    (m.ndim ≠ 2 → callTrigen lib o keyOrder m holes o2 maxs gmax gang renumber = .err "the PSLG mesh must be 2D") ∧
    (m.ndim ≠ 3 → callTetgen lib' o keyOrder' m regions holes' o2 maxs gmax gang renumber = .err "the PLC mesh must be 3D") := by
  constructor
  · intro h; unfold callTrigen; rw [if_pos h]
  · intro h; unfold callTetgen; rw [if_pos h]

theorem two_lt_edge (k f : GeoKind) (hd : k.ndim = 2) (he : k.edgeKind = some f) (h3 : k ≠ .tri3) (h4 : k ≠ .qua4) : f.nnode ≠ 2 := by
  cases k <;> first | exact absurd hd (by decide) | exact absurd rfl h3 | exact absurd rfl h4 | (cases he; decide)

section Trigen
variable {lib : Trigen T} {view : T → TriInput} (hl : lib.Contract view) {o : Orders} (ho : o.Valid)
  {keyOrder : List EdgeKey → List EdgeKey} (hk : IterOrder keyOrder) {m : Mesh ℝ} (h : ValidMesh m) (h2 : m.ndim = 2)
  (hb : ∀ p ∈ m.points, ∀ v ∈ p.coords, -f64Max ≤ v ∧ v ≤ f64Max) (hs : EdgesSpread m)
  (holes : List (ℝ × ℝ)) (o2 : Bool) (maxAreas : Option (HMap Int ℝ)) (gmax gang : Option ℝ) (renumber : Bool)

/-- The number of distinct edges of the 2D cells. -/
def IsEdgeCount (m : Mesh ℝ) (n : Nat) : Prop :=
  ∃ keys : List (Nat × Nat), keys.Nodup ∧ (∀ key, key ∈ keys ↔ ∃ c e, HasEdge m key c e) ∧ keys.length = n

include hl ho hk h h2 hb hs

theorem run_trigen : ∃ (edges : HMap EdgeKey Feature) (keys : List EdgeKey) (x : Extracted ℝ), IsFeatures2d m true x ∧ edges = x.edges ∧
    keys.Pairwise (fun k k' => k.1 < k'.1 ∨ k.1 = k'.1 ∧ k.2 < k'.2) ∧ (∀ key, key ∈ keys ↔ ∃ c e, HasEdge m key c e) ∧
    ((∃ e, lib.new m.points.length (some keys.length) (some m.cells.length) (some holes.length) = .err e ∧
        callTrigen lib o keyOrder m holes o2 maxAreas gmax gang renumber = .err e) ∨
      ∃ t1, view t1 = ⟨filled (ptData m) m.points.length m.points.length, List.replicate keys.length none, List.replicate m.cells.length none,
          List.replicate holes.length none⟩ ∧
        callTrigen lib o keyOrder m holes o2 maxAreas gmax gang renumber = (do
          let t2 ← (List.range keys.length).foldlM (pslgSegment lib edges keys) t1
          let t3 ← m.cells.foldlM (pslgRegion lib m maxAreas) t2
          let t4 ← (List.range holes.length).foldlM (pslgHole lib holes) t3
          let t5 ← lib.generate t4 false o2 true gmax gang
          let mesh ← fromTrigen lib t5
          finish renumber mesh)) := by
  obtain ⟨x, F, hF, he, hx⟩ := features_ok h h2 hb ho hs
  obtain ⟨k1, k2, k3⟩ := sorted_keys x.edges hx.keysNodup hk
  refine ⟨x.edges, (keyOrder (x.edges.map (·.1))).insertionSort edgeKeyLe, x, hx, rfl, k1, ?_, ?_⟩
  · intro key
    rw [k2, hx.accepted]
    simp
  · rw [k3]
    unfold callTrigen
    rw [if_neg (by simp [h2]), hF, Res.bind_ok, he]
    cases hn : lib.new m.points.length (some x.edges.length) (some m.cells.length) (some holes.length) with
    | panic => exact absurd hn (hl.newNoPanic _ _ _ _)
    | err e => left; exact ⟨e, rfl, rfl⟩
    | ok t0 =>
      right
      have hv0 := hl.new _ _ _ _ _ hn
      obtain ⟨t1, e1, hv1⟩ := points_loop hl h h2 t0 (by rw [hv0])
      refine ⟨t1, ?_, ?_⟩
      · rw [hv1, hv0]; rfl
      · rw [Res.bind_ok, e1, Res.bind_ok]
        dsimp only
        rw [k3]

omit hl ho hk h2 hb hs in
theorem edge_points {x : Extracted ℝ} (hx : IsFeatures2d m true x) {keys : List EdgeKey}
    (hkeys : ∀ key, key ∈ keys ↔ ∃ c e, HasEdge m key c e) (i : Nat) (hi : i < keys.length) :
    ∃ f c e, x.edges.get (keys.getD i (0, 0)) = some f ∧ (∀ q ∈ f.points, q < m.points.length) ∧
      IsFirst (HasEdge m (keys.getD i (0, 0))) c e ∧ EdgeOf m c e f ∧ f.marker = edgeMarker m (keys.getD i (0, 0)) := by
  have hmem : keys.getD i (0, 0) ∈ keys := List.mem_of_getElem? (getElem?_getD _ hi)
  have hsome := (hx.accepted (keys.getD i (0, 0))).2 ⟨(hkeys _).1 hmem, Or.inl rfl⟩
  obtain ⟨f, hf⟩ := Option.isSome_iff_exists.1 hsome
  obtain ⟨c, e, hfirst, hE, hmk⟩ := hx.data _ f hf
  refine ⟨f, c, e, hf, ?_, hfirst, hE, hmk⟩
  obtain ⟨cell, hc, _, hlen, hpts⟩ := hE
  intro q hq
  obtain ⟨d, hd⟩ := List.mem_iff_getElem?.1 hq
  have hdlt : d < f.kind.nnode := by
    have := (List.getElem?_eq_some_iff.1 hd).1
    omega
  have := hpts d hdlt
  rw [hd] at this
  exact h.inRange cell (List.mem_of_getElem? hc) q (List.mem_of_getElem? this.symm)

/-- **C70.** `call_trigen` with a mesh in which the edges belong to `tri3` and `qua4` cells (more precisely, the first cell of each edge is of one
of these kinds): unless the generator rejects the sizes, it is given exactly the
planar straight line graph of the mesh (every point, every edge once with its marker, one region per cell, the holes); then an error
of the generator is returned, and otherwise the mesh of its output arrays (renumbered if requested). -/
theorem C70_call_trigen (hcells : ∀ key c e cell, IsFirst (HasEdge m key) c e → m.cells[c]? = some cell → cell.kind = .tri3 ∨ cell.kind = .qua4) :
    (∃ n e, IsEdgeCount m n ∧ lib.new m.points.length (some n) (some m.cells.length) (some holes.length) = .err e ∧
      callTrigen lib o keyOrder m holes o2 maxAreas gmax gang renumber = .err e) ∨
    ∃ t, IsPslg m holes maxAreas (view t) ∧
      (∀ e, lib.generate t false o2 true gmax gang = .err e → callTrigen lib o keyOrder m holes o2 maxAreas gmax gang renumber = .err e) ∧
      (∀ t', lib.generate t false o2 true gmax gang = .ok t' → lib.GoodOutput t' o2 →
        Ends renumber (triMesh lib t' (if o2 then .tri6 else .tri3)) (callTrigen lib o keyOrder m holes o2 maxAreas gmax gang renumber)) ∧
      (∀ t', lib.generate t false o2 true gmax gang = .ok t' → lib.outNpoint t' < 2 ∨ lib.outNcell t' < 1 →
        callTrigen lib o keyOrder m holes o2 maxAreas gmax gang renumber = .panic) := by
  obtain ⟨edges, keys, x, hx, rfl, k1, k2, hrun⟩ := run_trigen hl ho hk h h2 hb hs holes o2 maxAreas gmax gang renumber
  have hnd : keys.Nodup := k1.imp (by rintro ⟨a, b⟩ ⟨c, d⟩ hh; simp only [ne_eq, Prod.mk.injEq, not_and] at hh ⊢; omega)
  rcases hrun with ⟨e, e1, e2⟩ | ⟨t1, hv1, hrun⟩
  · exact Or.inl ⟨keys.length, e, ⟨keys, hnd, k2, rfl⟩, e1, e2⟩
  · right
    have hlin : ∀ key f c e, IsFirst (HasEdge m key) c e → EdgeOf m c e f → f.points.length = 2 := by
      intro key f c e hfirst hE
      obtain ⟨cell, hc, hek, hlen, _⟩ := hE
      obtain ⟨cell2, _, _, hc2, hd2, _⟩ := hfirst.1
      rw [hc] at hc2
      simp only [Option.some.injEq] at hc2
      subst hc2
      rw [hlen]
      rcases hcells key c e cell hfirst hc with hk | hk <;> rw [hk] at hek <;> rw [← Option.some.inj hek] <;> rfl
    obtain ⟨t2, e2, hv2⟩ := Res.foldlM_range (pslgSegment lib x.edges keys) keys.length t1
      (fun i t => view t = { view t1 with segments := filled (segData x.edges keys) keys.length i })
      (by rw [filled_zero, hv1]) (by
        intro i t hi ht
        obtain ⟨f, c, e, hf, hr, hfirst, hE, _⟩ := edge_points h hx k2 i hi
        exact (segments_step hl x.edges keys t1 m.points.length (by rw [hv1]; simp [filled_length]) i t hi ht f hf hr).1 (hlin _ _ _ _ hfirst hE))
    rw [filled_all] at hv2
    obtain ⟨t3, e3, hv3⟩ := regions_loop hl h h2 maxAreas t2 (by rw [hv2, hv1])
    obtain ⟨t4, e4, hv4⟩ := holes_loop hl holes t3 (by rw [hv3, hv2, hv1])
    rw [e2, Res.bind_ok, e3, Res.bind_ok, e4, Res.bind_ok] at hrun
    rw [hv3, hv2, hv1] at hv4
    rw [hrun]
    refine ⟨t4, ?_, ?_, ?_, ?_⟩
    · rw [hv4]
      refine ⟨?_, ⟨keys, k1, k2, ?_, ?_⟩, rfl, rfl⟩
      · dsimp only
        rw [filled_all]
        exact map_range_getD m.points ⟨0, 0, []⟩ (fun p => some (p.marker, p.coords.getD 0 0, p.coords.getD 1 0))
      · simp
      · intro i key hkey
        have hi : i < keys.length := (List.getElem?_eq_some_iff.1 hkey).1
        obtain ⟨f, c, e, hf, hr, hfirst, hE, hmk⟩ := edge_points h hx k2 i hi
        have hD : keys.getD i (0, 0) = key := by
          rw [getElem?_getD (0, 0) hi] at hkey
          exact Option.some.inj hkey
        have hlen2 := hlin _ _ _ _ hfirst hE
        obtain ⟨cell, hc, hek, hlen, hpts⟩ := hE
        have p0 := hpts 0 (by omega)
        have p1 := hpts 1 (by omega)
        rw [getElem?_getD 0 (by omega)] at p0 p1
        rw [hD] at hfirst
        refine ⟨c, e, cell, _, _, hfirst, hc, p0.symm, p1.symm, ?_⟩
        simp only [List.getElem?_map, List.getElem?_range hi, Option.map_some]
        unfold segData
        rw [hf, Option.getD_some, hmk, hD]
    · intro e he
      rw [he]; rfl
    · intro t' ht' hgood
      rw [ht', Res.bind_ok, fromTrigen_ok lib t' o2 hgood, Res.bind_ok]
      apply finish_ends _ _ (triMesh_valid lib t' o2 hgood)
      have := hgood.npoint
      simp only [triMesh, List.length_map, List.length_range]
      omega
    · intro t' ht' hbad
      rw [ht', Res.bind_ok, fromTrigen_panic lib t' hbad]; rfl

/-- **C70.** A mesh with an edge whose first cell is of another kind (with more than two points on an edge) is rejected. -/
theorem C70_edges_with_two_points (key : Nat × Nat) (c e : Nat) (cell : Cell) (hfirst : IsFirst (HasEdge m key) c e) (hc : m.cells[c]? = some cell)
    (h3 : cell.kind ≠ .tri3) (h4 : cell.kind ≠ .qua4) :
    (∃ n e, IsEdgeCount m n ∧ lib.new m.points.length (some n) (some m.cells.length) (some holes.length) = .err e ∧
      callTrigen lib o keyOrder m holes o2 maxAreas gmax gang renumber = .err e) ∨
    callTrigen lib o keyOrder m holes o2 maxAreas gmax gang renumber = .err "edges must have 2 points" := by
  obtain ⟨edges, keys, x, hx, rfl, k1, k2, hrun⟩ := run_trigen hl ho hk h h2 hb hs holes o2 maxAreas gmax gang renumber
  have hnd : keys.Nodup := k1.imp (by rintro ⟨a, b⟩ ⟨c, d⟩ hh; simp only [ne_eq, Prod.mk.injEq, not_and] at hh ⊢; omega)
  rcases hrun with ⟨e, e1, e2⟩ | ⟨t1, hv1, hrun⟩
  · exact Or.inl ⟨keys.length, e, ⟨keys, hnd, k2, rfl⟩, e1, e2⟩
  · right
    have hmem : key ∈ keys := (k2 key).2 ⟨c, e, hfirst.1⟩
    obtain ⟨i, hi⟩ := List.mem_iff_getElem?.1 hmem
    have hil : i < keys.length := (List.getElem?_eq_some_iff.1 hi).1
    have hiD : keys.getD i (0, 0) = key := by
      rw [getElem?_getD (0, 0) hil] at hi
      exact Option.some.inj hi
    have hfold := foldlM_range_err (pslgSegment lib x.edges keys) keys.length t1
      (fun i t => view t = { view t1 with segments := filled (segData x.edges keys) keys.length i })
      (fun i => ∀ f, x.edges.get (keys.getD i (0, 0)) = some f → f.points.length = 2) "edges must have 2 points"
      (by rw [filled_zero, hv1]) (by
        intro i t hi ht
        obtain ⟨f, c, e, hf, hr, hfirst, hE, _⟩ := edge_points h hx k2 i hi
        have := segments_step hl x.edges keys t1 m.points.length (by rw [hv1]; simp [filled_length]) i t hi ht f hf hr
        constructor
        · intro hq
          exact this.1 (hq f hf)
        · intro hq
          refine this.2 fun h2 => hq fun f' hf' => ?_
          rw [hf] at hf'
          cases hf'
          exact h2) ⟨i, hil, by
        intro hall
        obtain ⟨f, c', e', hf, _, hfirst', hE, _⟩ := edge_points h hx k2 i hil
        rw [hiD] at hfirst'
        have hcc : c' = c := by
          rcases hfirst.2 _ _ hfirst'.1 with h | ⟨h, _⟩ <;> rcases hfirst'.2 _ _ hfirst.1 with h' | ⟨h', _⟩ <;> omega
        subst hcc
        obtain ⟨cell', hc', hek, hlen, _⟩ := hE
        rw [hc] at hc'
        cases hc'
        obtain ⟨cell2, _, _, hc2, hd2, _⟩ := hfirst.1
        rw [hc] at hc2
        cases hc2
        have h2 := hall f hf
        rw [hlen] at h2
        exact two_lt_edge _ _ hd2 hek h3 h4 h2⟩
    rw [hrun, hfold]
    rfl

omit hl holes o2 maxAreas gmax gang renumber in
/-- **C70.** The result does not depend on the iteration orders of the hash maps (whatever the generator does). -/
theorem C70_deterministic_2d {o' : Orders} (ho' : o'.Valid) {keyOrder' : List EdgeKey → List EdgeKey} (hk' : IterOrder keyOrder')
    (holes : List (ℝ × ℝ)) (o2 : Bool) (maxAreas : Option (HMap Int ℝ)) (gmax gang : Option ℝ) (renumber : Bool) :
    callTrigen lib o keyOrder m holes o2 maxAreas gmax gang renumber = callTrigen lib o' keyOrder' m holes o2 maxAreas gmax gang renumber := by
  obtain ⟨x, F, hF, he, hx⟩ := features_ok h h2 hb ho hs
  obtain ⟨x', F', hF', he', hx'⟩ := features_ok h h2 hb ho' hs
  obtain ⟨k1, k2, k3⟩ := sorted_keys x.edges hx.keysNodup hk
  obtain ⟨k1', k2', k3'⟩ := sorted_keys x'.edges hx'.keysNodup hk'
  have hget : ∀ key, x.edges.get key = x'.edges.get key := by
    intro key
    have ha := hx.accepted key
    have ha' := hx'.accepted key
    cases hf : x.edges.get key with
    | none =>
      cases hf' : x'.edges.get key with
      | none => rfl
      | some f' =>
        rw [hf] at ha; rw [hf'] at ha'
        exact absurd (ha.2 (ha'.1 rfl)) (by simp)
    | some f =>
      cases hf' : x'.edges.get key with
      | none =>
        rw [hf] at ha; rw [hf'] at ha'
        exact absurd (ha'.2 (ha.1 rfl)) (by simp)
      | some f' =>
        obtain ⟨c, e, g1, ⟨cell, g2, g3, g4, g5⟩, g6⟩ := hx.data key f hf
        obtain ⟨c', e', g1', ⟨cell', g2', g3', g4', g5'⟩, g6'⟩ := hx'.data key f' hf'
        have hce : c' = c ∧ e' = e := by
          rcases g1.2 _ _ g1'.1 with h | ⟨h, h3⟩ <;> rcases g1'.2 _ _ g1.1 with h' | ⟨h', h3'⟩ <;> omega
        obtain ⟨rfl, rfl⟩ := hce
        rw [g2] at g2'
        cases g2'
        rw [g3] at g3'
        have hkind : f.kind = f'.kind := Option.some.inj g3'
        have hpts : f.points = f'.points := by
          apply List.ext_getElem?
          intro i
          by_cases hi : i < f.kind.nnode
          · rw [g5 i hi, g5' i (by rw [← hkind]; exact hi)]
          · rw [List.getElem?_eq_none (by omega), List.getElem?_eq_none (by rw [g4', ← hkind]; omega)]
        have hmk : f.marker = f'.marker := by rw [g6, g6']
        cases f; cases f'
        simp only at hkind hpts hmk
        subst hkind hpts hmk
        rfl
  have hkeys : (keyOrder (x.edges.map (·.1))).insertionSort edgeKeyLe = (keyOrder' (x'.edges.map (·.1))).insertionSort edgeKeyLe := by
    refine List.Perm.eq_of_pairwise ?_ k1 k1' ?_
    · rintro ⟨a, b⟩ ⟨c, d⟩ _ _ h h'
      simp only at h h'
      exact absurd h (by omega)
    · apply List.perm_of_nodup_nodup_toFinset_eq
      · exact k1.imp (by rintro ⟨a, b⟩ ⟨c, d⟩ hh; simp only [ne_eq, Prod.mk.injEq, not_and] at hh ⊢; omega)
      · exact k1'.imp (by rintro ⟨a, b⟩ ⟨c, d⟩ hh; simp only [ne_eq, Prod.mk.injEq, not_and] at hh ⊢; omega)
      · ext key
        rw [List.mem_toFinset, List.mem_toFinset, k2, k2', hget]
  have hseg : ∀ keys : List EdgeKey, pslgSegment lib x.edges keys = pslgSegment lib x'.edges keys := by
    intro keys
    funext t i
    unfold pslgSegment
    congr 1
    funext key
    rw [hget]
  unfold callTrigen
  rw [if_neg (by simp [h2]), if_neg (by simp [h2]), hF, hF', Res.bind_ok, Res.bind_ok, he, he', hkeys]
  dsimp only
  rw [hseg]
  rw [hkeys] at k3
  rw [← k3, ← k3']

end Trigen

end Gemlab.Unstructured
