import Verif.Props.TriSurface

/-!
# C60: `Features::triangulate_3d_boundary`
-/
namespace Gemlab.Mesh
noncomputable section
open Gemlab.Shapes Gemlab.Spec Gemlab.Props.Shapes Gemlab.Props.Features Gemlab.Props.Mesh

variable {m : Mesh ℝ} {extractAll : Bool} {x : Extracted ℝ} {F : Features}

theorem ntriangle_le (k : GeoKind) (k' : GeoKind) (h : k.faceKind = some k') : k'.triangulateNtriangle ≤ 18 := by
  revert h; cases k <;> simp only [GeoKind.faceKind, reduceCtorEq, Option.some.injEq, false_imp_iff] <;> rintro rfl <;> decide

/-- The faces that are triangulated: those of the mesh that belong to exactly one cell, each once. -/
theorem boundaryFaces_ok (hF : IsNew m extractAll x F) (h : ValidMesh m) (h3 : m.ndim = 3)
    (iter : List (FaceKey × Feature) → List (FaceKey × Feature)) (hi : IterOrder iter) :
    ∃ faces, F.boundaryFaces iter = .ok faces ∧ (faces.map (·.1)).Nodup ∧ faces.length ≤ F.faces.length ∧
      (∀ key f, (key, f) ∈ faces ↔ F.faces.get key = some f ∧ ExactlyOne (HasFace m key)) := by
  obtain ⟨all, e1, hg⟩ := extractAllFaces_spec h h3
  have := hF.all3d h3
  rw [e1, Res.ok.injEq] at this
  obtain ⟨h2, _⟩ | ⟨_, hx⟩ := hF.extracted
  · omega
  have hw : F.faces.WF := hF.faces ▸ hx.keysNodup.1
  unfold Features.boundaryFaces
  rw [← this]
  have hperm := hi F.faces
  obtain ⟨s, s1, s2, s3⟩ := Res.foldlM_list (σ := List (FaceKey × Feature)) (fun acc (e : FaceKey × Feature) => do
    let cells ← unwrap (all.get e.1)
    pure (if cells.length = 1 then acc ++ [e] else acc)) (iter F.faces) []
    (fun pre s => s.Sublist pre ∧ ∀ e, e ∈ s ↔ e ∈ pre ∧ ExactlyOne (HasFace m e.1))
    (by simp) (by
      rintro pre ⟨fkey, face⟩ s he _ ⟨hsub, hs⟩
      have hget : x.faces.get fkey = some face := by rw [← hF.faces]; exact HMap.get_of_mem hw (hperm.mem_iff.1 he)
      obtain ⟨c, k, hfirst, _, _⟩ := hx.data fkey face hget
      cases hall : all.get fkey with
      | none => exact absurd hfirst.1 ((hg.none fkey).1 hall _ _)
      | some sh =>
        obtain ⟨_, _, _, _, hone⟩ := hg.head hall
        dsimp only [unwrap]
        rw [Res.bind_ok]
        refine ⟨_, rfl, ?_, ?_⟩
        · split
          · exact List.Sublist.append hsub (List.Sublist.refl _)
          · exact hsub.trans (List.sublist_append_left _ _)
        · intro e
          split
          · rename_i hlen
            rw [List.mem_append, List.mem_append, hs]
            constructor
            · rintro (⟨a, b⟩ | a)
              · exact ⟨Or.inl a, b⟩
              · simp only [List.mem_singleton] at a
                subst a
                exact ⟨Or.inr (by simp), hone.1 hlen⟩
            · rintro ⟨a | a, b⟩
              · exact Or.inl ⟨a, b⟩
              · exact Or.inr a
          · rename_i hlen
            rw [List.mem_append, hs]
            constructor
            · rintro ⟨a, b⟩; exact ⟨Or.inl a, b⟩
            · rintro ⟨a | a, b⟩
              · exact ⟨a, b⟩
              · simp only [List.mem_singleton] at a
                subst a
                exact absurd (hone.2 b) hlen)
  refine ⟨s, s1, ?_, ?_, ?_⟩
  · exact List.Nodup.sublist (s2.map _) ((hperm.map _).nodup_iff.2 hw)
  · rw [← hperm.length_eq]; exact s2.length_le
  · intro key f
    rw [s3, hperm.mem_iff]
    constructor
    · rintro ⟨a, b⟩; exact ⟨HMap.get_of_mem hw a, b⟩
    · rintro ⟨a, b⟩; exact ⟨HMap.mem_of_get a, b⟩

/-- The local face determines the key. -/
theorem HasFace.key_unique {key key' : FaceKey} {c k : Nat} (h : HasFace m key c k) (h' : HasFace m key' c k) : key = key' := by
  obtain ⟨cell, p0, p1, p2, p3, hc, _, _, a0, a1, a2, a3, as, ap⟩ := h
  obtain ⟨cell', q0, q1, q2, q3, hc', _, _, b0, b1, b2, b3, bs, bp⟩ := h'
  rw [hc, Option.some.injEq] at hc'
  subst hc'
  rw [a0, Option.some.injEq] at b0
  rw [a1, Option.some.injEq] at b1
  rw [a2, Option.some.injEq] at b2
  have h3 : p3 = q3 := by
    split at a3
    · rename_i h; rw [if_pos h, a3, Option.some.injEq] at b3; exact b3
    · rename_i h; rw [if_neg h] at b3; rw [a3, b3]
  subst b0; subst b1; subst b2; subst h3
  rw [← (sort4_eq_iff p0 p1 p2 p3 key).2 ⟨as, ap⟩, ← (sort4_eq_iff p0 p1 p2 p3 key').2 ⟨bs, bp⟩]

/-- There are at most six boundary faces per cell. -/
theorem keys_le {keys : List FaceKey} (hn : keys.Nodup) (h : ∀ key ∈ keys, ∃ c k, HasFace m key c k) :
    keys.length ≤ 6 * m.cells.length := by
  choose! c k hck using h
  have hinj : (keys.map fun key => (c key, k key)).Nodup := by
    refine List.Nodup.map_on ?_ hn
    intro a ha b hb hab
    simp only [Prod.mk.injEq] at hab
    have h1 := hck a ha
    have h2 := hck b hb
    rw [← hab.1, ← hab.2] at h2
    exact HasFace.key_unique h1 h2
  have hsub : (keys.map fun key => (c key, k key)) ⊆ List.range m.cells.length ×ˢ List.range 6 := by
    intro e he
    obtain ⟨key, hkey, rfl⟩ := List.mem_map.1 he
    obtain ⟨cell, _, _, _, _, hc, _, hf, _⟩ := hck key hkey
    have h6 : ∀ k : GeoKind, k.nface ≤ 6 := by intro k; cases k <;> decide
    have := h6 cell.kind
    exact List.pair_mem_product.2 ⟨List.mem_range.2 (List.getElem?_eq_some_iff.1 hc).1, List.mem_range.2 (by omega)⟩
  have := (List.subperm_of_subset hinj hsub).length_le
  rw [List.length_map, List.length_product, List.length_range, List.length_range] at this
  omega

/-- **C60.** `triangulate_3d_boundary` of the features of a valid mesh in space always succeeds, whatever the iteration order of the maps
and whether all faces or only those at the boundary were extracted: it triangulates exactly the faces that belong to one cell only,
each once, all of them triangles or quadrilaterals with the points of a face of that cell. -/
theorem C60_boundary (hF : IsNew m extractAll x F) (h : ValidMesh m) (h3 : m.ndim = 3)
    (iter : List (FaceKey × Feature) → List (FaceKey × Feature)) (hi : IterOrder iter) (hsmall : 324 * m.cells.length < usizeMax) :
    ∃ (faces : List (FaceKey × Feature)) (tr : TriState) (label : List Vertex), F.triangulate3dBoundary iter = .ok tr ∧
      IsTriangulation m (faces.map fun e => (e.2.kind, e.2.points)) label tr.xx tr.yy tr.zz tr.triangles ∧
      (faces.map (·.1)).Nodup ∧ (∀ key, key ∈ faces.map (·.1) ↔ ExactlyOne (HasFace m key)) ∧
      (∀ key f, (key, f) ∈ faces → ∃ c k, HasFace m key c k ∧ FaceOf m c k f ∧ f.kind.ndim = 2) := by
  obtain ⟨faces, e1, hnd, hlen, hmem⟩ := boundaryFaces_ok hF h h3 iter hi
  obtain ⟨h2, _⟩ | ⟨_, hx⟩ := hF.extracted
  · omega
  have hdata : ∀ key f, (key, f) ∈ faces → ∃ c k, HasFace m key c k ∧ FaceOf m c k f ∧ f.kind.ndim = 2 ∧ f.kind.triangulateNtriangle ≤ 18 := by
    intro key f hkf
    obtain ⟨hget, _⟩ := (hmem key f).1 hkf
    rw [hF.faces] at hget
    obtain ⟨c, k, hfirst, hof, _⟩ := hx.data key f hget
    obtain ⟨cell, hc, hk, hl, hp⟩ := hof
    refine ⟨c, k, hfirst.1, ⟨cell, hc, hk, hl, hp⟩, ?_, ntriangle_le _ _ hk⟩
    obtain ⟨cell', _, _, _, _, hc', _, hkn, _⟩ := hfirst.1
    rw [hc, Option.some.injEq] at hc'
    subst hc'
    obtain ⟨_, fk, hfk, _, hfd, _⟩ := face_facts cell.kind (by omega)
    rw [hk, Option.some.injEq] at hfk
    rw [hfk]; exact hfd
  have hvs : ValidSurface m (faces.map fun e => (e.2.kind, e.2.points)) := by
    refine ⟨Or.inr h3, h.coords, ?_, ?_, ?_⟩
    · intro cell hcell
      obtain ⟨⟨key, f⟩, he, rfl⟩ := List.mem_map.1 hcell
      obtain ⟨c, k, _, ⟨_, _, _, hl, _⟩, _⟩ := hdata key f he
      exact hl
    · intro cell hcell q hq
      obtain ⟨⟨key, f⟩, he, rfl⟩ := List.mem_map.1 hcell
      obtain ⟨c, k, _, ⟨cell, hc, hk, hl, hp⟩, _⟩ := hdata key f he
      obtain ⟨i, hi⟩ := List.mem_iff_getElem?.1 hq
      have hil : i < f.kind.nnode := by rw [← hl]; exact (List.getElem?_eq_some_iff.1 hi).1
      have := hp i hil
      dsimp only at hi
      rw [hi] at this
      exact h.inRange cell (List.mem_of_getElem? hc) q (List.mem_of_getElem? this.symm)
    · rw [surfaceTriangles_length, List.map_map]
      have : (faces.map ((fun cell : GeoKind × List Nat => cell.1.triangulateNtriangle) ∘ fun e => (e.2.kind, e.2.points))).sum ≤ faces.length * 18 := by
        have := List.sum_le_card_nsmul (faces.map ((fun cell : GeoKind × List Nat => cell.1.triangulateNtriangle) ∘ fun e => (e.2.kind, e.2.points))) 18 (by
          intro n hn
          obtain ⟨⟨key, f⟩, he, rfl⟩ := List.mem_map.1 hn
          obtain ⟨c, k, _, _, _, h18⟩ := hdata key f he
          exact h18)
        simpa using this
      have h6 := keys_le (m := m) hnd (by
        intro key hk
        obtain ⟨⟨key', f⟩, he, rfl⟩ := List.mem_map.1 hk
        obtain ⟨c, k, hck, _⟩ := hdata key' f he
        exact ⟨c, k, hck⟩)
      rw [List.length_map] at h6
      omega
  obtain ⟨tr, label, e2, ht⟩ := C59_from_surface m _ hvs
  refine ⟨faces, tr, label, ?_, ht, hnd, ?_, ?_⟩
  · unfold Features.triangulate3dBoundary
    rw [hF.mesh, if_neg (by omega), e1, Res.bind_ok, e2]
  · intro key
    constructor
    · intro hk
      obtain ⟨⟨key', f⟩, he, rfl⟩ := List.mem_map.1 hk
      exact ((hmem _ _).1 he).2
    · intro hone
      obtain ⟨c, k, hck, _⟩ := id hone
      have := (hx.accepted key).2 ⟨⟨c, k, hck⟩, Or.inr hone⟩
      obtain ⟨f, hf⟩ := Option.isSome_iff_exists.1 this
      exact List.mem_map.2 ⟨(key, f), (hmem key f).2 ⟨by rw [hF.faces]; exact hf, hone⟩, rfl⟩
  · intro key f he
    obtain ⟨c, k, a, b, d, _⟩ := hdata key f he
    exact ⟨c, k, a, b, d⟩

/-- **C60.** In a planar mesh it panics. -/
theorem C60_planar_panics (iter : List (FaceKey × Feature) → List (FaceKey × Feature)) (h : F.mesh.ndim ≠ 3) :
    F.triangulate3dBoundary iter = .panic := by
  unfold Features.triangulate3dBoundary
  rw [if_pos h]

/-! ## Concrete cases -/

/-- Points of a quadrilateral with 8 nodes and of a triangle next to it. -/
def exSurf : Mesh ℝ :=
  { ndim := 2
    points := [⟨0, 0, [0, 0]⟩, ⟨1, 0, [1, 0]⟩, ⟨2, 0, [1, 1]⟩, ⟨3, 0, [0, 1]⟩, ⟨4, 0, [1/2, 0]⟩, ⟨5, 0, [1, 1/2]⟩, ⟨6, 0, [1/2, 1]⟩, ⟨7, 0, [0, 1/2]⟩, ⟨8, 0, [2, 0]⟩]
    cells := [], markedEdges := [], markedFaces := [] }

/-- A surface with a `Qua8` (which has an extra node), a `Lin2` (ignored) and a `Tri3`. -/
def exCells : List (GeoKind × List Nat) := [(.qua8, [0, 1, 2, 3, 4, 5, 6, 7]), (.lin2, [0, 1]), (.tri3, [1, 8, 2])]

theorem exCells_valid : ValidSurface exSurf exCells := by
  refine ⟨Or.inl rfl, ?_, ?_, ?_, by decide +kernel⟩
  · simp [exSurf]
  · simp [exCells, GeoKind.nnode]
  · simp [exCells, exSurf]

/-- The hypotheses of the theorems of C59 are met: the triangulation exists and has 8 + 1 triangles; the `Tri3` and the `Qua8` share
the points 1 and 2; the extra node of the `Qua8` is at its centre. -/
theorem C59_example : ∃ tr label, fromSurface exSurf exCells = .ok tr ∧ IsTriangulation exSurf exCells label tr.xx tr.yy tr.zz tr.triangles ∧
    tr.triangles.length = 9 ∧ tr.zz = [] ∧
    (∃ t < 8, ∃ i < 3, cornerPoint exCells tr.triangles 2 0 0 = cornerPoint exCells tr.triangles 0 t i) ∧
    (∃ t < 8, ∃ i < 3, outCoord tr.xx tr.yy tr.zz (cornerPoint exCells tr.triangles 0 t i) 0 = 1 / 2 ∧
      outCoord tr.xx tr.yy tr.zz (cornerPoint exCells tr.triangles 0 t i) 1 = 1 / 2) := by
  obtain ⟨tr, label, e, h⟩ := C59_from_surface exSurf exCells exCells_valid
  refine ⟨tr, label, e, h, (C59_sizes h).1, h.z, ?_, ?_⟩
  · have : ∃ t < 8, ∃ i < 3, triangulateNode .qua8 t i = 1 := by decide +kernel
    obtain ⟨t, ht, i, hi, hn⟩ := this
    refine ⟨t, ht, i, hi, (C59_sharing h (s := 2) (s' := 0) (cell := (.tri3, [1, 8, 2])) (cell' := (.qua8, [0, 1, 2, 3, 4, 5, 6, 7]))
      rfl rfl (by decide) ht (by decide) hi).2 (Or.inl ⟨by decide, ?_, ?_⟩)⟩
    · change triangulateNode .qua8 t i < _
      rw [hn]; decide
    · change _ = ([0, 1, 2, 3, 4, 5, 6, 7] : List Nat).getD (triangulateNode .qua8 t i) 0
      rw [hn]; decide
  · have : ∃ t < 8, ∃ i < 3, triangulateNode .qua8 t i = 8 := by decide +kernel
    obtain ⟨t, ht, i, hi, hn⟩ := this
    have hc : (corner .qua8 t i : ℝ × ℝ) = (0, 0) := by
      unfold corner triangleCorner
      rw [hn]
      have : triangulationNode .qua8 8 = (0, 0) := by decide +kernel
      rw [this]; simp
    have key : ∀ j < 2, outCoord tr.xx tr.yy tr.zz (cornerPoint exCells tr.triangles 0 t i) j = 1 / 2 := by
      intro j hj
      rw [C59_coordinates h (s := 0) (cell := (.qua8, [0, 1, 2, 3, 4, 5, 6, 7])) rfl ht hi j hj (Or.inl rfl)]
      have := C28_calc_coords_affine (K := ℝ) .qua8 (fun n _ => (coordsOf exSurf (([0, 1, 2, 3, 4, 5, 6, 7] : List Nat).getD n 0)).getD j 0)
        (fun _ => 1 / 2) (fun _ a => if a = j then 1 / 2 else 0) (by
          intro n hn _
          have hn' : n < 8 := hn
          rw [show (GeoKind.qua8).ndim = 2 from rfl, Finset.sum_range_succ, Finset.sum_range_succ, Finset.sum_range_zero]
          interval_cases n <;> interval_cases j <;> simp [coordsOf, exSurf, refCoord, refCoordQ, GeoKind.referenceCoords] <;> norm_num)
        (vec2 0 0) 0
      change isoPosition exSurf _ (vec2 (corner .qua8 t i : ℝ × ℝ).1 (corner .qua8 t i).2) j = _
      rw [hc]
      refine this.trans ?_
      rw [show (GeoKind.qua8).ndim = 2 from rfl, Finset.sum_range_succ, Finset.sum_range_succ, Finset.sum_range_zero]
      simp [vec2]
    exact ⟨t, ht, i, hi, key 0 (by norm_num), key 1 (by norm_num)⟩

/-- A tetrahedron. -/
def exTet : Mesh ℝ :=
  { ndim := 3
    points := [⟨0, 0, [0, 0, 0]⟩, ⟨1, 0, [1, 0, 0]⟩, ⟨2, 0, [0, 1, 0]⟩, ⟨3, 0, [0, 0, 1]⟩]
    cells := [⟨0, 1, .tet4, [0, 1, 2, 3]⟩], markedEdges := [], markedFaces := [] }

theorem exTet_valid : ValidMesh exTet := by
  refine ⟨?_, ?_, ?_, ?_, ?_⟩
  · simp [exTet]
  · intro i p hp
    have hi : i < 4 := (List.getElem?_eq_some_iff.1 hp).1
    interval_cases i <;> simp [exTet] at hp <;> subst hp <;> rfl
  · intro i p hp
    have hi : i < 1 := (List.getElem?_eq_some_iff.1 hp).1
    interval_cases i; simp [exTet] at hp; subst hp; rfl
  · simp [exTet, GeoKind.nnode]
  · simp [exTet]

theorem exTet_face : ExactlyOne (HasFace exTet (0, 1, 2, usizeMax)) := by
  refine ⟨0, 2, ⟨_, 0, 2, 1, usizeMax, rfl, rfl, by decide, rfl, rfl, rfl, rfl, by decide, by decide⟩, ?_⟩
  rintro c f ⟨cell, p0, p1, p2, p3, hc, _, hf, h0, h1, h2, h3, _, hp⟩
  have hc0 : c < 1 := (List.getElem?_eq_some_iff.1 hc).1
  interval_cases c
  simp only [exTet, List.getElem?_cons_zero, Option.some.injEq] at hc
  subst hc
  refine ⟨rfl, ?_⟩
  have hf4 : f < 4 := hf
  have h3' : p3 = usizeMax := h3
  subst h3'
  have hmem : 3 ∉ [0, 1, 2, usizeMax] := by decide
  rw [hp.mem_iff] at hmem
  interval_cases f
  · simp [faceNode, GeoKind.faceNodeIds] at h0 h1 h2
    rw [← h0, ← h1, ← h2] at hmem; exact absurd (by decide) hmem
  · simp [faceNode, GeoKind.faceNodeIds] at h0 h1 h2
    rw [← h0, ← h1, ← h2] at hmem; exact absurd (by decide) hmem
  · rfl
  · simp [faceNode, GeoKind.faceNodeIds] at h0 h1 h2
    rw [← h0, ← h1, ← h2] at hmem; exact absurd (by decide) hmem

theorem exTet_face' : ExactlyOne (HasFace exTet (0, 1, 3, usizeMax)) := by
  refine ⟨0, 1, ⟨_, 0, 1, 3, usizeMax, rfl, rfl, by decide, rfl, rfl, rfl, rfl, by decide, by decide⟩, ?_⟩
  rintro c f ⟨cell, p0, p1, p2, p3, hc, _, hf, h0, h1, h2, h3, _, hp⟩
  have hc0 : c < 1 := (List.getElem?_eq_some_iff.1 hc).1
  interval_cases c
  simp only [exTet, List.getElem?_cons_zero, Option.some.injEq] at hc
  subst hc
  refine ⟨rfl, ?_⟩
  have hf4 : f < 4 := hf
  have h3' : p3 = usizeMax := h3
  subst h3'
  have hmem : 2 ∉ [0, 1, 3, usizeMax] := by decide
  rw [hp.mem_iff] at hmem
  interval_cases f
  · simp [faceNode, GeoKind.faceNodeIds] at h0 h1 h2
    rw [← h0, ← h1, ← h2] at hmem; exact absurd (by decide) hmem
  · rfl
  · simp [faceNode, GeoKind.faceNodeIds] at h0 h1 h2
    rw [← h0, ← h1, ← h2] at hmem; exact absurd (by decide) hmem
  · simp [faceNode, GeoKind.faceNodeIds] at h0 h1 h2
    rw [← h0, ← h1, ← h2] at hmem; exact absurd (by decide) hmem

/-- The hypotheses of C60 are met by the tetrahedron: `Features::new` succeeds, its boundary is triangulated, and one of the triangulated
faces has the points 0, 1 and 2. -/
theorem C60_example (o : Orders) (ho : o.Valid) (iter : List (FaceKey × Feature) → List (FaceKey × Feature)) (hi : IterOrder iter) :
    ∃ (x : Extracted ℝ) (F : Features) (tr : TriState) (label : List Vertex) (faces : List (FaceKey × Feature)),
      Features.new o exTet false = .ok F ∧ IsNew exTet false x F ∧ F.triangulate3dBoundary iter = .ok tr ∧
        IsTriangulation exTet (faces.map fun e => (e.2.kind, e.2.points)) label tr.xx tr.yy tr.zz tr.triangles ∧
        (0, 1, 2, usizeMax) ∈ faces.map (·.1) := by
  obtain ⟨x, hx, h1, _⟩ := C47_new exTet exTet_valid (Or.inr rfl) (by
    have hb : (1 : ℝ) ≤ f64Max := one_le_f64Max
    have : ∀ p ∈ exTet.points, ∀ v ∈ p.coords, (0 : ℝ) ≤ v ∧ v ≤ 1 := by simp [exTet]
    intro p hp v hv
    have := this p hp v hv
    constructor <;> linarith) o ho false
  obtain ⟨h2, _⟩ | ⟨_, hx3⟩ := id hx
  · simp [exTet] at h2
  have hM : exTet.points.length ≤ usizeMax := by decide
  have pts : ∀ key, ExactlyOne (HasFace exTet key) → key.1 ∈ x.points ∧ key.2.1 ∈ x.points ∧ key.2.2.1 ∈ x.points := by
    intro key hone
    obtain ⟨c, k, hck, _⟩ := id hone
    obtain ⟨f, hf⟩ := Option.isSome_iff_exists.1 ((hx3.accepted key).2 ⟨⟨c, k, hck⟩, Or.inr hone⟩)
    obtain ⟨_, a1, _, a2, _, a3, _, _, a4⟩ := face_key_points exTet_valid hM hx hf
    exact ⟨a4 _ a1, a4 _ a2, a4 _ a3⟩
  have hA := pts _ exTet_face
  have hB := pts _ exTet_face'
  obtain ⟨F, hF, hN⟩ := h1 (by
    intro i hi
    change i < 3 at hi
    interval_cases i
    · exact ⟨0, 1, Or.inl hA.1, Or.inl hA.2.1, by simp [coordsOf, exTet]⟩
    · exact ⟨0, 2, Or.inl hA.1, Or.inl hA.2.2, by simp [coordsOf, exTet]⟩
    · exact ⟨0, 3, Or.inl hA.1, Or.inl hB.2.2, by simp [coordsOf, exTet]⟩)
  obtain ⟨faces, tr, label, e, ht, _, hk, _⟩ := C60_boundary hN exTet_valid rfl iter hi (by decide)
  exact ⟨x, F, tr, label, faces, hF, hN, e, ht, (hk _).2 exTet_face⟩

end
end Gemlab.Mesh
