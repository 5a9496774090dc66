import Verif.Proofs.Join
import Verif.Props.FeaturesQueries

/-!
# C20: joining meshes

Exact real arithmetic; arbitrary iteration orders of the hash maps.
-/
namespace Gemlab.Mesh
open Gemlab Gemlab.Shapes Gemlab.Spec Gemlab.Props.Mesh Gemlab.Props.Features
open Classical
noncomputable section

/-! ## Specification -/

/-- Marker of the edge `key` after joining: the last one given by A, otherwise the first one given by B (with renumbered points). -/
def joinedEdgeMark (a b : Mesh ℝ) (φ : Nat → Nat) (key : Nat × Nat) : Option Int :=
  (((a.markedEdges.filter fun e => (e.2.1, e.2.2) = key ∨ (e.2.2, e.2.1) = key).getLast?).map (·.1)).or
    ((b.markedEdges.find? fun e => (φ e.2.1, φ e.2.2) = key ∨ (φ e.2.2, φ e.2.1) = key).map (·.1))

/-- Marker of the face `key` after joining. -/
def joinedFaceMark (a b : Mesh ℝ) (φ : Nat → Nat) (key : Nat × Nat × Nat × Nat) : Option Int :=
  (((a.markedFaces.filter fun e => [e.2.1, e.2.2.1, e.2.2.2.1, e.2.2.2.2].Perm [key.1, key.2.1, key.2.2.1, key.2.2.2]).getLast?).map
      (·.1)).or
    ((b.markedFaces.find? fun e =>
      [φ e.2.1, φ e.2.2.1, φ e.2.2.2.1, φ e.2.2.2.2].Perm [key.1, key.2.1, key.2.2.1, key.2.2.2]).map (·.1))

/-- In the bounding box of the feature points of `a`. -/
def InFeatureBox (a : Mesh ℝ) (x : Extracted ℝ) (v : List ℝ) : Prop :=
  ∀ d < a.ndim, ∃ p q, FeaturePoint a x p ∧ FeaturePoint a x q ∧
    (coordsOf a p).getD d 0 ≤ v.getD d 0 ∧ v.getD d 0 ≤ (coordsOf a q).getD d 0

/-- `m` is the join of `a` and `b`, where `φ` gives the new numbers of the points of `b`. -/
structure IsJoin (a b m : Mesh ℝ) (φ : Nat → Nat) : Prop where
  ndim : m.ndim = a.ndim ∧ b.ndim = a.ndim
  /-- a point of B identified with a point of A is near it -/
  near : ∀ j < b.points.length, φ j < a.points.length → Close a.ndim (coordsOf a (φ j)) (coordsOf b j)
  /-- the others are farther than the tolerance from all points of A that are inside the box of the feature points of A -/
  far : ∀ j < b.points.length, a.points.length ≤ φ j → ∃ x, IsExtracted a false x ∧
    ∀ i < a.points.length, InFeatureBox a x (coordsOf a i) → Apart a.ndim (coordsOf b j) (coordsOf a i)
  /-- the new points are numbered consecutively after those of A, in the order of B -/
  numbers : (newOnes b.points.length a.points.length φ).map φ = List.range' a.points.length (newOnes b.points.length a.points.length φ).length
  /-- the points are those of A followed by copies of the new ones -/
  points : m.points = a.points ++ (newOnes b.points.length a.points.length φ).map (renumbered b.points φ)
  /-- the cells are those of A followed by renumbered copies of those of B -/
  cells : m.cells = a.cells ++ b.cells.mapIdx fun i c =>
    { id := a.cells.length + i, marker := c.marker, kind := c.kind, points := c.points.map φ }
  edgesSorted : m.markedEdges.Pairwise fun e e' => edgeKeyLe e.2 e'.2 ∧ e.2 ≠ e'.2
  edges : ∀ mk p q, (mk, p, q) ∈ m.markedEdges ↔ p ≤ q ∧ joinedEdgeMark a b φ (p, q) = some mk
  facesSorted : m.markedFaces.Pairwise fun e e' => faceKeyLe e.2 e'.2 ∧ e.2 ≠ e'.2
  faces : ∀ mk p q r s, (mk, p, q, r, s) ∈ m.markedFaces ↔ [p, q, r, s].Pairwise (· ≤ ·) ∧ joinedFaceMark a b φ (p, q, r, s) = some mk

/-! ## Proofs -/

theorem IsBoundingBox.featureBox {a : Mesh ℝ} (h : ValidMesh a) {x : Extracted ℝ} {F : Features} (hF : IsNew a false x F) (v : List ℝ) :
    InBox F.min F.max v ↔ InFeatureBox a x v := by
  have hl := hF.box.lenMin
  have hl2 := hF.box.lenMax
  unfold InBox InFeatureBox
  rw [hl]
  refine forall₂_congr fun d hd => ?_
  have e1 : F.min[d]? = some (F.min.getD d 0) := by
    rw [List.getD_eq_getElem?_getD, List.getElem?_eq_getElem (by omega)]; rfl
  have e2 : F.max[d]? = some (F.max.getD d 0) := by
    rw [List.getD_eq_getElem?_getD, List.getElem?_eq_getElem (by omega)]; rfl
  constructor
  · rintro ⟨h1, h2⟩
    obtain ⟨c1, m1, v1⟩ := hF.box.attainedMin d _ e1
    obtain ⟨c2, m2, v2⟩ := hF.box.attainedMax d _ e2
    obtain ⟨p, hp, rfl⟩ := List.mem_map.1 m1
    obtain ⟨q, hq, rfl⟩ := List.mem_map.1 m2
    refine ⟨p, q, (hF.points p).1 hp, (hF.points q).1 hq, ?_, ?_⟩
    · rw [List.getD_eq_getElem?_getD, v1]; exact h1
    · rw [List.getD_eq_getElem?_getD (l := coordsOf a q), v2]; exact h2
  · rintro ⟨p, q, hp, hq, h1, h2⟩
    have hp' := (hF.points p).2 hp
    have hq' := (hF.points q).2 hq
    have lp := coordsOf_length h.coords (hF.range p hp')
    have lq := coordsOf_length h.coords (hF.range q hq')
    have b1 := hF.box.inside (coordsOf a p) (List.mem_map.2 ⟨p, hp', rfl⟩) d _ ((coordsOf a p).getD d 0) _ e1
      (by rw [List.getD_eq_getElem?_getD, List.getElem?_eq_getElem (by omega)]; rfl) e2
    have b2 := hF.box.inside (coordsOf a q) (List.mem_map.2 ⟨q, hq', rfl⟩) d _ ((coordsOf a q).getD d 0) _ e1
      (by rw [List.getD_eq_getElem?_getD, List.getElem?_eq_getElem (by omega)]; rfl) e2
    exact ⟨b1.1.trans h1, h2.trans b2.2⟩

theorem joinCells_spec (map : List Nat) (cells : List Cell) (n : Nat) (hr : ∀ c ∈ cells, ∀ p ∈ c.points, p < map.length) :
    cells.foldlM (joinCell map) ([], n) = .ok (cells.mapIdx fun i c =>
      { id := n + i, marker := c.marker, kind := c.kind, points := c.points.map fun j => map.getD j 0 }, n + cells.length) := by
  obtain ⟨s, h1, h2⟩ := Res.foldlM_list (joinCell map) cells ([], n) (fun pre s => s = (pre.mapIdx fun i c =>
      { id := n + i, marker := c.marker, kind := c.kind, points := c.points.map fun j => map.getD j 0 }, n + pre.length)) rfl (by
    rintro pre c s hc _ rfl
    refine ⟨_, ?_, rfl⟩
    unfold joinCell
    rw [Res.mapM_eq_ok_of _ (fun j => map.getD j 0) _ (by
      intro p hp
      rw [Res.idx_of_lt (hr c hc p hp), List.getD_eq_getElem?_getD, List.getElem?_eq_getElem (hr c hc p hp)]; rfl)]
    rw [Res.bind_ok, List.mapIdx_concat, List.length_append]
    rfl)
  rw [h1, h2]

theorem joinEdgeKey_eq {map : List Nat} {e : Int × Nat × Nat} {k : EdgeKey} (h : joinEdgeKey map e = .ok k) :
    k = sort2 (map.getD e.2.1 0) (map.getD e.2.2 0) ∧ e.2.1 < map.length ∧ e.2.2 < map.length := by
  unfold joinEdgeKey at h
  obtain ⟨p1, h1, h⟩ := Res.bind_eq_ok.1 h
  obtain ⟨p2, h2, h⟩ := Res.bind_eq_ok.1 h
  rw [Res.idx_eq_ok] at h1 h2
  simp only [Res.pure_eq, Res.ok.injEq] at h
  rw [List.getD_eq_getElem?_getD, List.getD_eq_getElem?_getD, h1, h2]
  exact ⟨h.symm, (List.getElem?_eq_some_iff.1 h1).1, (List.getElem?_eq_some_iff.1 h2).1⟩

theorem joinEdgeKey_ok {map : List Nat} {e : Int × Nat × Nat} (h1 : e.2.1 < map.length) (h2 : e.2.2 < map.length) :
    ∃ k, joinEdgeKey map e = .ok k := by
  unfold joinEdgeKey
  rw [Res.idx_of_lt h1, Res.bind_ok, Res.idx_of_lt h2, Res.bind_ok]; exact ⟨_, rfl⟩

theorem joinFaceKey_eq {map : List Nat} {e : Int × Nat × Nat × Nat × Nat} {k : FaceKey} (h : joinFaceKey map e = .ok k) :
    k = sort4 (map.getD e.2.1 0) (map.getD e.2.2.1 0) (map.getD e.2.2.2.1 0) (map.getD e.2.2.2.2 0) ∧
      e.2.1 < map.length ∧ e.2.2.1 < map.length ∧ e.2.2.2.1 < map.length ∧ e.2.2.2.2 < map.length := by
  unfold joinFaceKey at h
  obtain ⟨p1, h1, h⟩ := Res.bind_eq_ok.1 h
  obtain ⟨p2, h2, h⟩ := Res.bind_eq_ok.1 h
  obtain ⟨p3, h3, h⟩ := Res.bind_eq_ok.1 h
  obtain ⟨p4, h4, h⟩ := Res.bind_eq_ok.1 h
  rw [Res.idx_eq_ok] at h1 h2 h3 h4
  simp only [Res.pure_eq, Res.ok.injEq] at h
  simp only [List.getD_eq_getElem?_getD]
  rw [h1, h2, h3, h4]
  exact ⟨h.symm, (List.getElem?_eq_some_iff.1 h1).1, (List.getElem?_eq_some_iff.1 h2).1, (List.getElem?_eq_some_iff.1 h3).1,
    (List.getElem?_eq_some_iff.1 h4).1⟩

theorem joinFaceKey_ok {map : List Nat} {e : Int × Nat × Nat × Nat × Nat} (h1 : e.2.1 < map.length) (h2 : e.2.2.1 < map.length)
    (h3 : e.2.2.2.1 < map.length) (h4 : e.2.2.2.2 < map.length) : ∃ k, joinFaceKey map e = .ok k := by
  unfold joinFaceKey
  rw [Res.idx_of_lt h1, Res.bind_ok, Res.idx_of_lt h2, Res.bind_ok, Res.idx_of_lt h3, Res.bind_ok, Res.idx_of_lt h4, Res.bind_ok]
  exact ⟨_, rfl⟩

theorem markedEdgesMap_wf (m : Mesh ℝ) : (markedEdgesMap m).WF := wf_foldl_insert _ _ _ _ HMap.wf_nil
theorem markedFacesMap_wf (m : Mesh ℝ) : (markedFacesMap m).WF := wf_foldl_insert _ _ _ _ HMap.wf_nil

/-- A key of the map of marked edges is sorted. -/
theorem edgeMark_eq (a b : Mesh ℝ) (map : List Nat) (h : HMap EdgeKey Int)
    (hr : b.markedEdges.foldlM (fun h e => do
      let k ← joinEdgeKey map e
      pure (insertAbsent h k e.1)) (markedEdgesMap a) = .ok h) (key : EdgeKey) (v : Int) :
    h.get key = some v ↔ key.1 ≤ key.2 ∧ joinedEdgeMark a b (fun j => map.getD j 0) key = some v := by
  obtain ⟨h1, h2, h3⟩ := foldlM_insertAbsent (joinEdgeKey map) (fun e : Int × Nat × Nat => e.1) _ _ _ hr
  have hmk : ∀ e ∈ b.markedEdges, (joinEdgeKey map e = .ok key ↔ sort2 (map.getD e.2.1 0) (map.getD e.2.2 0) = key) := by
    intro e he
    obtain ⟨k, hk⟩ := h1 e he
    have := (joinEdgeKey_eq hk).1
    rw [hk, ← this]; simp
  rw [h3]
  unfold markedEdgesMap
  rw [foldl_insert_get (fun e : Int × Nat × Nat => sort2 e.2.1 e.2.2) (fun e => e.1)]
  simp only [HMap.get_nil, Option.or_none]
  have hfind : b.markedEdges.find? (fun e => joinEdgeKey map e = .ok key) =
      b.markedEdges.find? (fun e => sort2 (map.getD e.2.1 0) (map.getD e.2.2 0) = key) := by
    apply List.find?_congr
    intro e he
    simp only [decide_eq_decide]; exact hmk e he
  rw [hfind]
  by_cases hle : key.1 ≤ key.2
  · have s2 : ∀ x y, sort2 x y = key ↔ ((x, y) = key ∨ (y, x) = key) := by
      intro x y; rw [sort2_eq_iff]
      constructor
      · rintro ⟨_, h | h⟩
        · exact Or.inl h.symm
        · exact Or.inr h.symm
      · rintro (h | h)
        · exact ⟨hle, Or.inl h.symm⟩
        · exact ⟨hle, Or.inr h.symm⟩
    simp only [s2, hle, true_and]
    unfold joinedEdgeMark
    simp only
  · have s2 : ∀ x y, ¬ sort2 x y = key := by intro x y; rw [sort2_eq_iff]; exact fun h => hle h.1
    rw [List.find?_eq_none.2 (by intro e _; simp [s2]), List.filter_eq_nil_iff.2 (by intro e _; simp [s2])]
    simp [hle]

theorem faceMark_eq (a b : Mesh ℝ) (map : List Nat) (h : HMap FaceKey Int)
    (hr : b.markedFaces.foldlM (fun h e => do
      let k ← joinFaceKey map e
      pure (insertAbsent h k e.1)) (markedFacesMap a) = .ok h) (key : FaceKey) (v : Int) :
    h.get key = some v ↔ key.toList.Pairwise (· ≤ ·) ∧ joinedFaceMark a b (fun j => map.getD j 0) key = some v := by
  obtain ⟨h1, h2, h3⟩ := foldlM_insertAbsent (joinFaceKey map) (fun e : Int × Nat × Nat × Nat × Nat => e.1) _ _ _ hr
  have hmk : ∀ e ∈ b.markedFaces, (joinFaceKey map e = .ok key ↔
      sort4 (map.getD e.2.1 0) (map.getD e.2.2.1 0) (map.getD e.2.2.2.1 0) (map.getD e.2.2.2.2 0) = key) := by
    intro e he
    obtain ⟨k, hk⟩ := h1 e he
    have := (joinFaceKey_eq hk).1
    rw [hk, ← this]; simp
  rw [h3]
  unfold markedFacesMap
  rw [foldl_insert_get (fun (e : Int × Nat × Nat × Nat × Nat) => sort4 e.2.1 e.2.2.1 e.2.2.2.1 e.2.2.2.2) (fun e => e.1)]
  simp only [HMap.get_nil, Option.or_none]
  have hfind : b.markedFaces.find? (fun e => joinFaceKey map e = .ok key) = b.markedFaces.find? (fun e =>
      sort4 (map.getD e.2.1 0) (map.getD e.2.2.1 0) (map.getD e.2.2.2.1 0) (map.getD e.2.2.2.2 0) = key) := by
    apply List.find?_congr
    intro e he
    simp only [decide_eq_decide]; exact hmk e he
  rw [hfind]
  by_cases hle : key.toList.Pairwise (· ≤ ·)
  · have s4 : ∀ x y z w, sort4 x y z w = key ↔ [x, y, z, w].Perm [key.1, key.2.1, key.2.2.1, key.2.2.2] := by
      intro x y z w; rw [sort4_eq_iff]
      exact ⟨fun h => h.2.symm, fun h => ⟨hle, h.symm⟩⟩
    simp only [s4, hle, true_and]
    unfold joinedFaceMark
    simp only
  · have s4 : ∀ x y z w, ¬ sort4 x y z w = key := by intro x y z w; rw [sort4_eq_iff]; exact fun h => hle h.1
    rw [List.find?_eq_none.2 (by intro e _; simp [s4]), List.filter_eq_nil_iff.2 (by intro e _; simp [s4])]
    simp [hle]

theorem reached_of_inserts {mn mx : List ℝ} {g0 g : GridSearch} (pts : List (Point ℝ)) (h0 : GridSearch.new mn mx none none none = .ok g0)
    (h : pts.foldlM (fun g p => GridSearch.insert g p.id p.coords) g0 = .ok g) :
    Reached mn mx none none none g (pts.map fun p => (p.id, p.coords)) := by
  refine Res.foldlM_ok_inv (fun g (p : Point ℝ) => GridSearch.insert g p.id p.coords) pts g0 g
    (fun pre g => Reached mn mx none none none g (pre.map fun p => (p.id, p.coords))) (.new h0) ?_ h
  intro pre p s s' _ H hs
  rw [List.map_append]
  exact .insert H hs

/-- **C20.** Whenever joining two valid meshes succeeds, the result is the join described by `IsJoin`: points and cells of A are kept,
every cell of B appears with the same marker and kind, node by node at (nearly) the same coordinates, new points are added exactly for
the points of B without a partner, numbered consecutively, and markers are carried over (A has precedence). -/
theorem C20_join (o : JoinOrders) (ho : o.Valid) (a b m : Mesh ℝ) (ha : ValidMesh a) (hb : ValidMesh b)
    (hlim : ∀ p ∈ a.points, ∀ v ∈ p.coords, -f64Max ≤ v ∧ v ≤ f64Max) (hd : a.ndim = 2 ∨ a.ndim = 3)
    (h : joinTwoMeshes o a b = .ok m) : ∃ φ, IsJoin a b m φ := by
  unfold joinTwoMeshes at h
  split at h
  · simp at h
  rename_i hnd
  have hnd : a.ndim = b.ndim := not_not.1 hnd
  obtain ⟨F, hF, h⟩ := Res.bind_eq_ok.1 h
  obtain ⟨g0, hg0, h⟩ := Res.bind_eq_ok.1 h
  obtain ⟨g, hg, h⟩ := Res.bind_eq_ok.1 h
  obtain ⟨s, hs, h⟩ := Res.bind_eq_ok.1 h
  obtain ⟨cells, hc, h⟩ := Res.bind_eq_ok.1 h
  obtain ⟨em, hem, h⟩ := Res.bind_eq_ok.1 h
  obtain ⟨fm, hfm, h⟩ := Res.bind_eq_ok.1 h
  obtain ⟨es, hes, h⟩ := Res.bind_eq_ok.1 h
  obtain ⟨fs, hfs, h⟩ := Res.bind_eq_ok.1 h
  simp only [Res.pure_eq, Res.ok.injEq] at h
  subst h
  obtain ⟨x, hx, hok, hpan⟩ := C47_new a ha hd hlim o.features ho.features false
  have hN : IsNew a false x F := by
    by_cases hsp : ∀ i < a.ndim, ∃ p q, FeaturePoint a x p ∧ FeaturePoint a x q ∧ (coordsOf a p).getD i 0 < (coordsOf a q).getD i 0
    · obtain ⟨F', e, hN⟩ := hok hsp
      rw [hF, Res.ok.injEq] at e; subst e; exact hN
    · rw [hpan hsp] at hF; simp at hF
  have hr := reached_of_inserts a.points hg0 hg
  have hlb : ∀ p ∈ b.points, p.coords.length = a.ndim := by intro p hp; rw [hnd]; exact hb.coords p hp
  obtain ⟨s', hs', P⟩ := joinPoints_spec ha hN.box.lenMin hr ho.search b.points hlb
  rw [hs, Res.ok.injEq] at hs'; subst hs'
  rw [joinCells_spec s.map b.cells a.cells.length (by
    intro c hc p hp; rw [P.len]; exact hb.inRange c hc p hp), Res.ok.injEq] at hc
  subst hc
  have hwe : em.WF := (foldlM_insertAbsent (joinEdgeKey s.map) (fun e : Int × Nat × Nat => e.1) _ _ _ hem).2.1 (markedEdgesMap_wf a)
  have hwf : fm.WF := (foldlM_insertAbsent (joinFaceKey s.map) (fun e : Int × Nat × Nat × Nat × Nat => e.1) _ _ _ hfm).2.1
    (markedFacesMap_wf a)
  obtain ⟨es', e1, e2, e3⟩ := sortedMarks_spec ho.edgeKeys edgeKeyLe em hwe
  rw [hes, Res.ok.injEq] at e1; subst e1
  obtain ⟨fs', f1, f2, f3⟩ := sortedMarks_spec ho.faceKeys faceKeyLe fm hwf
  rw [hfs, Res.ok.injEq] at f1; subst f1
  have hget : ∀ j < b.points.length, ∃ p, b.points[j]? = some p ∧ p.coords = coordsOf b j := by
    intro j hj; exact ⟨b.points[j], List.getElem?_eq_getElem hj, by unfold coordsOf; rw [List.getElem?_eq_getElem hj]; rfl⟩
  refine ⟨fun j => s.map.getD j 0, ⟨rfl, hnd.symm⟩, ?_, ?_, ?_, ?_, rfl, e2, ?_, f2, ?_⟩
  · intro j hj hlt
    obtain ⟨p, hp, e⟩ := hget j hj
    rw [← e]; exact P.near j p hp hlt
  · intro j hj hge
    obtain ⟨p, hp, e⟩ := hget j hj
    refine ⟨x, hx, fun i hi hbox => ?_⟩
    rw [← e]
    exact P.far j p hp hge i hi ((IsBoundingBox.featureBox ha hN _).2 hbox)
  · have hl : s.added.length = (newOnes b.points.length a.points.length fun j => s.map.getD j 0).length := by
      conv_lhs => rw [P.added]
      rw [List.length_map]
    rw [P.nums, hl]
  · show a.points ++ s.added = _
    conv_lhs => rw [P.added]
  · intro mk p q
    rw [e3 mk (p, q), edgeMark_eq a b s.map em hem]
  · intro mk p q r t
    rw [f3 mk (p, q, r, t), faceMark_eq a b s.map fm hfm]
    rfl

/-- **C20.** Consequence: every point of B is in the joined mesh, at the same coordinates up to the tolerance (exactly, if it is new). -/
theorem C20_coordinates {a b m : Mesh ℝ} {φ : Nat → Nat} (ha : ValidMesh a) (h : IsJoin a b m φ) (j : Nat) (hj : j < b.points.length) :
    φ j < m.points.length ∧ Close a.ndim (coordsOf m (φ j)) (coordsOf b j) ∧
      (a.points.length ≤ φ j → coordsOf m (φ j) = coordsOf b j) := by
  have hself : ∀ x : List ℝ, euclid x x = 0 := by
    intro x
    unfold euclid
    have : (List.zipWith (fun a b => (b - a) ^ 2) x x).sum = 0 := by
      induction x with
      | nil => rfl
      | cons v x ih => simp [ih]
    simp [this]
  rcases Nat.lt_or_ge (φ j) a.points.length with hlt | hge
  · have e : coordsOf m (φ j) = coordsOf a (φ j) := by
      unfold coordsOf; rw [h.points, List.getElem?_append_left hlt]
    refine ⟨by rw [h.points]; simp; omega, ?_, fun h' => by omega⟩
    rw [e]; exact h.near j hj hlt
  · have hmem : j ∈ newOnes b.points.length a.points.length φ := by
      unfold newOnes; rw [List.mem_filter]; exact ⟨List.mem_range.2 hj, by simpa using hge⟩
    obtain ⟨k, hk, rfl⟩ := List.mem_iff_getElem.1 hmem
    have hφ : φ (newOnes b.points.length a.points.length φ)[k] = a.points.length + k := by
      have := congrArg (fun l => l[k]?) h.numbers
      simp only [List.getElem?_map, List.getElem?_eq_getElem hk, Option.map_some] at this
      rw [List.getElem?_range' (by simpa using hk)] at this
      simpa using this
    have e : coordsOf m (φ (newOnes b.points.length a.points.length φ)[k]) = coordsOf b (newOnes b.points.length a.points.length φ)[k] := by
      conv_lhs => unfold coordsOf
      rw [h.points, hφ, List.getElem?_append_right (by omega), Nat.add_sub_cancel_left, List.getElem?_map, List.getElem?_eq_getElem hk]
      rfl
    refine ⟨?_, ?_, fun _ => e⟩
    · rw [h.points, hφ]; simp; exact hk
    · rw [e]; unfold Close; rw [hself]; positivity

/-- **C20.** The join of valid meshes is valid (sequential ids, existing points, right numbers of nodes and coordinates). -/
theorem C20_valid {a b m : Mesh ℝ} {φ : Nat → Nat} (ha : ValidMesh a) (hb : ValidMesh b) (h : IsJoin a b m φ) : ValidMesh m := by
  refine ⟨?_, ?_, ?_, ?_, ?_⟩
  · intro p hp
    rw [h.points, List.mem_append] at hp
    rw [h.ndim.1]
    rcases hp with hp | hp
    · exact ha.coords p hp
    · obtain ⟨j, hj, rfl⟩ := List.mem_map.1 hp
      have hj' : j < b.points.length := List.mem_range.1 (List.mem_filter.1 hj).1
      rw [← h.ndim.2]
      unfold renumbered
      rw [List.getElem?_eq_getElem hj']
      exact hb.coords b.points[j] (List.getElem_mem hj')
  · intro i p hp
    rw [h.points] at hp
    rcases Nat.lt_or_ge i a.points.length with hi | hi
    · rw [List.getElem?_append_left hi] at hp; exact ha.pointIds i p hp
    · rw [List.getElem?_append_right hi, List.getElem?_map] at hp
      obtain ⟨j, hj, rfl⟩ := Option.map_eq_some_iff.1 hp
      have hk := (List.getElem?_eq_some_iff.1 hj).1
      have := congrArg (fun l => l[i - a.points.length]?) h.numbers
      simp only [List.getElem?_map, hj, Option.map_some] at this
      rw [List.getElem?_range' hk] at this
      simp only [Option.some.injEq] at this
      unfold renumbered
      dsimp only
      rw [this]; omega
  · intro i c hc
    rw [h.cells] at hc
    rcases Nat.lt_or_ge i a.cells.length with hi | hi
    · rw [List.getElem?_append_left hi] at hc; exact ha.cellIds i c hc
    · rw [List.getElem?_append_right hi, List.getElem?_mapIdx] at hc
      obtain ⟨c', _, rfl⟩ := Option.map_eq_some_iff.1 hc
      simp; omega
  · intro c hc
    rw [h.cells, List.mem_append] at hc
    rcases hc with hc | hc
    · exact ha.nnode c hc
    · obtain ⟨i, hi, rfl⟩ := List.mem_mapIdx.1 hc
      rw [List.length_map]; exact hb.nnode _ (List.getElem_mem hi)
  · intro c hc p hp
    rw [h.cells, List.mem_append] at hc
    rcases hc with hc | hc
    · have := ha.inRange c hc p hp
      rw [h.points]; simp; omega
    · obtain ⟨i, hi, rfl⟩ := List.mem_mapIdx.1 hc
      obtain ⟨j, hj, rfl⟩ := List.mem_map.1 hp
      exact (C20_coordinates ha h j (hb.inRange _ (List.getElem_mem hi) j hj)).1

/-- **C20.** Different space dimensions are rejected. -/
theorem C20_wrong_ndim (o : JoinOrders) (a b : Mesh ℝ) (h : a.ndim ≠ b.ndim) : ∃ e, joinTwoMeshes o a b = .err e := by
  unfold joinTwoMeshes; rw [if_pos h]; exact ⟨_, rfl⟩

/-- What makes joining succeed up to the marked edges and faces of B: the features of A are not flat and all points of A are within
the border tolerance of the box of its feature points. -/
def Joinable (a : Mesh ℝ) : Prop := ∀ x, IsExtracted a false x →
  (∀ i < a.ndim, ∃ p q, FeaturePoint a x p ∧ FeaturePoint a x q ∧ (coordsOf a p).getD i 0 < (coordsOf a q).getD i 0) ∧
  ∀ i < a.points.length, ∀ d < a.ndim, ∃ p q, FeaturePoint a x p ∧ FeaturePoint a x q ∧
    (coordsOf a p).getD d 0 - 1 / 100 ≤ (coordsOf a i).getD d 0 ∧ (coordsOf a i).getD d 0 ≤ (coordsOf a q).getD d 0 + 1 / 100

theorem join_prefix (o : JoinOrders) (ho : o.Valid) (a b : Mesh ℝ) (ha : ValidMesh a) (hb : ValidMesh b)
    (hlim : ∀ p ∈ a.points, ∀ v ∈ p.coords, -f64Max ≤ v ∧ v ≤ f64Max) (hd : a.ndim = 2 ∨ a.ndim = 3) (hnd : a.ndim = b.ndim)
    (hj : Joinable a) : ∃ map : List Nat, map.length = b.points.length ∧ ∃ pts cells, joinTwoMeshes o a b = (do
      let edgesMap ← b.markedEdges.foldlM (fun h e => do
        let k ← joinEdgeKey map e
        pure (insertAbsent h k e.1)) (markedEdgesMap a)
      let facesMap ← b.markedFaces.foldlM (fun h e => do
        let k ← joinFaceKey map e
        pure (insertAbsent h k e.1)) (markedFacesMap a)
      let edges ← sortedMarks o.edgeKeys edgeKeyLe edgesMap
      let faces ← sortedMarks o.faceKeys faceKeyLe facesMap
      pure { ndim := a.ndim, points := pts, cells := cells, markedEdges := edges, markedFaces := faces }) := by
  obtain ⟨x, hx, hok, _⟩ := C47_new a ha hd hlim o.features ho.features false
  obtain ⟨j1, j2⟩ := hj x hx
  obtain ⟨F, hF, hN⟩ := hok j1
  obtain ⟨ids, _, hr0⟩ := hN.grid
  obtain ⟨_, g0, hg0, _⟩ := hr0.inv
  -- all points of A can be inserted
  have hins : ∃ g, a.points.foldlM (fun g p => GridSearch.insert g p.id p.coords) g0 = .ok g ∧
      Reached F.min F.max none none none g (a.points.map fun p => (p.id, p.coords)) := by
    refine Res.foldlM_list (fun g (p : Point ℝ) => GridSearch.insert g p.id p.coords) a.points g0
      (fun pre g => Reached F.min F.max none none none g (pre.map fun p => (p.id, p.coords))) (.new hg0) ?_
    intro pre p g hp _ H
    have hlen : p.coords.length = F.min.length := by rw [hN.box.lenMin]; exact ha.coords p hp
    obtain ⟨k, hk⟩ := List.mem_iff_getElem?.1 hp
    have hk' := (List.getElem?_eq_some_iff.1 hk).1
    have hcoord : coordsOf a k = p.coords := by unfold coordsOf; rw [hk]; rfl
    have hout := C16_covers H p.coords hlen (by
      intro d hd
      rw [hN.box.lenMin] at hd
      obtain ⟨q1, q2, f1, f2, l1, l2⟩ := j2 k hk' d hd
      rw [hcoord] at l1 l2
      have b1 := (hN.points q1).2 f1
      have b2 := (hN.points q2).2 f2
      have c1 := (IsBoundingBox.featureBox ha hN (coordsOf a q1)).2 (fun d _ => ⟨q1, q1, f1, f1, le_refl _, le_refl _⟩) d
        (by rw [hN.box.lenMin]; exact hd)
      have c2 := (IsBoundingBox.featureBox ha hN (coordsOf a q2)).2 (fun d _ => ⟨q2, q2, f2, f2, le_refl _, le_refl _⟩) d
        (by rw [hN.box.lenMin]; exact hd)
      simp only [Option.getD_none]
      constructor <;> linarith [c1.1, c2.2])
    obtain ⟨g', hg'⟩ := (C16_insert_ok_iff H p.id p.coords).1 ⟨hlen, hout⟩
    refine ⟨g', hg', ?_⟩
    rw [List.map_append]; exact .insert H hg'
  obtain ⟨g, hg, hr⟩ := hins
  obtain ⟨s, hs, P⟩ := joinPoints_spec ha hN.box.lenMin hr ho.search b.points (by intro p hp; rw [hnd]; exact hb.coords p hp)
  refine ⟨s.map, P.len, a.points ++ s.added, a.cells ++ b.cells.mapIdx fun i c =>
      { id := a.cells.length + i, marker := c.marker, kind := c.kind, points := c.points.map fun j => s.map.getD j 0 }, ?_⟩
  unfold joinTwoMeshes
  rw [if_neg (not_not.2 hnd), hF, Res.bind_ok, hg0, Res.bind_ok, hg, Res.bind_ok, hs, Res.bind_ok,
    joinCells_spec s.map b.cells a.cells.length (by intro c hc p hp; rw [P.len]; exact hb.inRange c hc p hp), Res.bind_ok]

/-- **C20.** Joining succeeds if A is `Joinable` and the marked edges and faces of B refer to existing points. -/
theorem C20_succeeds (o : JoinOrders) (ho : o.Valid) (a b : Mesh ℝ) (ha : ValidMesh a) (hb : ValidMesh b)
    (hlim : ∀ p ∈ a.points, ∀ v ∈ p.coords, -f64Max ≤ v ∧ v ≤ f64Max) (hd : a.ndim = 2 ∨ a.ndim = 3) (hnd : a.ndim = b.ndim)
    (hj : Joinable a) (he : ∀ e ∈ b.markedEdges, e.2.1 < b.points.length ∧ e.2.2 < b.points.length)
    (hf : ∀ e ∈ b.markedFaces, e.2.1 < b.points.length ∧ e.2.2.1 < b.points.length ∧ e.2.2.2.1 < b.points.length ∧
      e.2.2.2.2 < b.points.length) : ∃ m, joinTwoMeshes o a b = .ok m := by
  obtain ⟨map, hl, pts, cells, e⟩ := join_prefix o ho a b ha hb hlim hd hnd hj
  rw [e]
  obtain ⟨em, hem⟩ := foldlM_insertAbsent_ok (joinEdgeKey map) (fun e : Int × Nat × Nat => e.1) b.markedEdges (markedEdgesMap a)
    (fun e hm => joinEdgeKey_ok (by rw [hl]; exact (he e hm).1) (by rw [hl]; exact (he e hm).2))
  obtain ⟨fm, hfm⟩ := foldlM_insertAbsent_ok (joinFaceKey map) (fun e : Int × Nat × Nat × Nat × Nat => e.1) b.markedFaces (markedFacesMap a)
    (fun e hm => joinFaceKey_ok (by rw [hl]; exact (hf e hm).1) (by rw [hl]; exact (hf e hm).2.1) (by rw [hl]; exact (hf e hm).2.2.1)
      (by rw [hl]; exact (hf e hm).2.2.2))
  have hwe : em.WF := (foldlM_insertAbsent (joinEdgeKey map) (fun e : Int × Nat × Nat => e.1) _ _ _ hem).2.1 (markedEdgesMap_wf a)
  have hwf : fm.WF := (foldlM_insertAbsent (joinFaceKey map) (fun e : Int × Nat × Nat × Nat × Nat => e.1) _ _ _ hfm).2.1
    (markedFacesMap_wf a)
  obtain ⟨es, e1, _⟩ := sortedMarks_spec ho.edgeKeys edgeKeyLe em hwe
  obtain ⟨fs, f1, _⟩ := sortedMarks_spec ho.faceKeys faceKeyLe fm hwf
  rw [hem, Res.bind_ok, hfm, Res.bind_ok, e1, Res.bind_ok, f1, Res.bind_ok]
  exact ⟨_, rfl⟩

theorem foldlM_insertAbsent_panic {Key E : Type} [DecidableEq Key] (kf : E → Res Key) (vf : E → Int) (L : List E) (h0 : HMap Key Int)
    (hk : ∀ e ∈ L, (∃ k, kf e = .ok k) ∨ kf e = .panic) (hp : ∃ e ∈ L, kf e = .panic) :
    L.foldlM (fun h e => do let k ← kf e; pure (insertAbsent h k (vf e))) h0 = .panic := by
  induction L generalizing h0 with
  | nil => simp at hp
  | cons e L ih =>
    rw [List.foldlM_cons]
    rcases hk e (by simp) with ⟨k, h⟩ | h
    · rw [h, Res.bind_ok, Res.pure_eq, Res.bind_ok]
      refine ih _ (fun e' he' => hk e' (List.mem_cons_of_mem _ he')) ?_
      obtain ⟨e', he', hp'⟩ := hp
      rcases List.mem_cons.1 he' with rfl | he'
      · rw [h] at hp'; simp at hp'
      · exact ⟨e', he', hp'⟩
    · rw [h]; rfl

/-- **C20** (limitation). Marked triangular faces, whose fourth point is `usize::MAX`, cannot be joined: if B has one (or any marked
face with a missing fourth point), the function panics. -/
theorem C20_triangular_faces (o : JoinOrders) (ho : o.Valid) (a b : Mesh ℝ) (ha : ValidMesh a) (hb : ValidMesh b)
    (hlim : ∀ p ∈ a.points, ∀ v ∈ p.coords, -f64Max ≤ v ∧ v ≤ f64Max) (hd : a.ndim = 2 ∨ a.ndim = 3) (hnd : a.ndim = b.ndim)
    (hj : Joinable a) (f : Int × Nat × Nat × Nat × Nat) (hf : f ∈ b.markedFaces) (h4 : b.points.length ≤ f.2.2.2.2) :
    joinTwoMeshes o a b = .panic := by
  obtain ⟨map, hl, pts, cells, e⟩ := join_prefix o ho a b ha hb hlim hd hnd hj
  rw [e]
  have hidx : ∀ i, (∃ v, Res.idx map i = .ok v) ∨ Res.idx map i = .panic := by
    intro i
    unfold Res.idx
    cases map[i]? with
    | none => exact Or.inr rfl
    | some v => exact Or.inl ⟨v, rfl⟩
  have hek : ∀ e ∈ b.markedEdges, (∃ k, joinEdgeKey map e = .ok k) ∨ joinEdgeKey map e = .panic := by
    intro e _
    unfold joinEdgeKey
    rcases hidx e.2.1 with ⟨v, h⟩ | h <;> rw [h]
    · rcases hidx e.2.2 with ⟨v', h'⟩ | h' <;> rw [Res.bind_ok, h']
      · exact Or.inl ⟨_, rfl⟩
      · exact Or.inr rfl
    · exact Or.inr rfl
  have hfk : ∀ e ∈ b.markedFaces, (∃ k, joinFaceKey map e = .ok k) ∨ joinFaceKey map e = .panic := by
    intro e _
    unfold joinFaceKey
    rcases hidx e.2.1 with ⟨v, h⟩ | h <;> rw [h]
    · rcases hidx e.2.2.1 with ⟨v', h'⟩ | h' <;> rw [Res.bind_ok, h']
      · rcases hidx e.2.2.2.1 with ⟨v', h'⟩ | h' <;> rw [Res.bind_ok, h']
        · rcases hidx e.2.2.2.2 with ⟨v', h'⟩ | h' <;> rw [Res.bind_ok, h']
          · exact Or.inl ⟨_, rfl⟩
          · exact Or.inr rfl
        · exact Or.inr rfl
      · exact Or.inr rfl
    · exact Or.inr rfl
  have hpan := foldlM_insertAbsent_panic (joinFaceKey map) (fun e : Int × Nat × Nat × Nat × Nat => e.1) b.markedFaces (markedFacesMap a) hfk
    ⟨f, hf, by
      rcases hfk f hf with ⟨k, hk⟩ | hk
      · have := (joinFaceKey_eq hk).2.2.2.2; omega
      · exact hk⟩
  by_cases hpe : ∃ e ∈ b.markedEdges, joinEdgeKey map e = .panic
  · rw [foldlM_insertAbsent_panic (joinEdgeKey map) (fun e : Int × Nat × Nat => e.1) b.markedEdges (markedEdgesMap a) hek hpe]; rfl
  · obtain ⟨em, hem⟩ := foldlM_insertAbsent_ok (joinEdgeKey map) (fun e : Int × Nat × Nat => e.1) b.markedEdges (markedEdgesMap a)
      (fun e he => (hek e he).resolve_right fun h => hpe ⟨e, he, h⟩)
    rw [hem, Res.bind_ok, hpan]; rfl

/-! ## `join_meshes` -/

/-- Successive joins. -/
inductive JoinChain : Mesh ℝ → List (Mesh ℝ) → Mesh ℝ → Prop
  | nil (a : Mesh ℝ) : JoinChain a [] a
  | cons {a b m r : Mesh ℝ} {rest : List (Mesh ℝ)} {φ : Nat → Nat} : IsJoin a b m φ → JoinChain m rest r → JoinChain a (b :: rest) r

theorem IsJoin.limits {a b m : Mesh ℝ} {φ : Nat → Nat} (h : IsJoin a b m φ)
    (ha : ∀ p ∈ a.points, ∀ v ∈ p.coords, -f64Max ≤ v ∧ v ≤ f64Max) (hb : ∀ p ∈ b.points, ∀ v ∈ p.coords, -f64Max ≤ v ∧ v ≤ f64Max) :
    ∀ p ∈ m.points, ∀ v ∈ p.coords, -f64Max ≤ v ∧ v ≤ f64Max := by
  intro p hp v hv
  rw [h.points, List.mem_append] at hp
  rcases hp with hp | hp
  · exact ha p hp v hv
  · obtain ⟨j, hj, rfl⟩ := List.mem_map.1 hp
    have hj' : j < b.points.length := List.mem_range.1 (List.mem_filter.1 hj).1
    unfold renumbered at hv
    rw [List.getElem?_eq_getElem hj'] at hv
    exact hb _ (List.getElem_mem hj') v hv

theorem join_fold (o : JoinOrders) (ho : o.Valid) (rest : List (Mesh ℝ)) : ∀ (a r : Mesh ℝ), ValidMesh a →
    (∀ p ∈ a.points, ∀ v ∈ p.coords, -f64Max ≤ v ∧ v ≤ f64Max) → (a.ndim = 2 ∨ a.ndim = 3) →
    (∀ b ∈ rest, ValidMesh b ∧ ∀ p ∈ b.points, ∀ v ∈ p.coords, -f64Max ≤ v ∧ v ≤ f64Max) →
    rest.foldlM (joinTwoMeshes o) a = .ok r → JoinChain a rest r ∧ ValidMesh r := by
  induction rest with
  | nil => intro a r ha _ _ _ h; simp at h; subst h; exact ⟨.nil a, ha⟩
  | cons b rest ih =>
    intro a r ha hl hd hall h
    rw [List.foldlM_cons] at h
    obtain ⟨m, h1, h2⟩ := Res.bind_eq_ok.1 h
    have hb := hall b (by simp)
    obtain ⟨φ, hj⟩ := C20_join o ho a b m ha hb.1 hl hd h1
    have hm := C20_valid ha hb.1 hj
    obtain ⟨c, v⟩ := ih m r hm (hj.limits hl hb.2) (by rw [hj.ndim.1]; exact hd) (fun b' hb' => hall b' (List.mem_cons_of_mem _ hb')) h2
    exact ⟨.cons hj c, v⟩

/-- **C20.** `join_meshes` rejects fewer than two meshes; when it succeeds on valid meshes, the result is the result of joining them one
after the other, and is valid. -/
theorem C20_join_meshes (o : JoinOrders) (ho : o.Valid) (meshes : List (Mesh ℝ)) :
    (meshes.length < 2 → ∃ e, joinMeshes o meshes = .err e) ∧
    (∀ a rest r, meshes = a :: rest → (a.ndim = 2 ∨ a.ndim = 3) →
      (∀ b ∈ meshes, ValidMesh b ∧ ∀ p ∈ b.points, ∀ v ∈ p.coords, -f64Max ≤ v ∧ v ≤ f64Max) →
      joinMeshes o meshes = .ok r → rest ≠ [] ∧ JoinChain a rest r ∧ ValidMesh r) := by
  constructor
  · intro h
    match meshes, h with
    | [], _ => exact ⟨_, rfl⟩
    | [_], _ => exact ⟨_, rfl⟩
  · rintro a rest r rfl hd hall h
    match rest, hall, h with
    | [], _, h => simp [joinMeshes] at h
    | b :: rest, hall, h =>
      have h' : (b :: rest).foldlM (joinTwoMeshes o) a = .ok r := by
        rw [List.foldlM_cons]; exact h
      obtain ⟨ha, hl⟩ := hall a (by simp)
      exact ⟨by simp, join_fold o ho (b :: rest) a r ha hl hd (fun b' hb' => hall b' (List.mem_cons_of_mem _ hb')) h'⟩

/-! ## Example: the unit square joined with a copy of it shifted to the right -/

/-- The square `[1,2] × [0,1]`. -/
def square2 : Mesh ℝ where
  ndim := 2
  points := [⟨0, 0, [1, 0]⟩, ⟨1, 0, [2, 0]⟩, ⟨2, -3, [2, 1]⟩, ⟨3, 0, [1, 1]⟩]
  cells := [⟨0, 2, .qua4, [0, 1, 2, 3]⟩]
  markedEdges := [(-8, 2, 1)]
  markedFaces := []

theorem square2_valid : ValidMesh square2 := by
  refine ⟨?_, ?_, ?_, ?_, ?_⟩
  · intro p hp; simp [square2] at hp; rcases hp with rfl | rfl | rfl | rfl <;> rfl
  · intro i p hp
    have : i < 4 := by by_contra hc; rw [List.getElem?_eq_none (by simp [square2]; omega)] at hp; simp at hp
    interval_cases i <;> simp [square2] at hp <;> subst hp <;> rfl
  · intro i c hc
    have : i < 1 := by by_contra hc'; rw [List.getElem?_eq_none (by simp [square2]; omega)] at hc; simp at hc
    interval_cases i
    simp [square2] at hc; subst hc; rfl
  · intro c hc; simp [square2] at hc; subst hc; rfl
  · intro c hc; simp [square2] at hc; subst hc; decide

theorem square_hasEdge {key : Nat × Nat} {c e : Nat} (h : HasEdge square key c e) :
    c = 0 ∧ ((key = (0, 1) ∧ e = 0) ∨ (key = (1, 2) ∧ e = 1) ∨ (key = (2, 3) ∧ e = 2) ∨ (key = (0, 3) ∧ e = 3)) := by
  obtain ⟨cell, x, y, hc, _, he, hx, hy, hle, hk⟩ := h
  have : c < 1 := by by_contra hc'; rw [List.getElem?_eq_none (by simp [square]; omega)] at hc; simp at hc
  have : c = 0 := by omega
  subst this
  have hcell : cell = ⟨0, 1, .qua4, [0, 1, 2, 3]⟩ := by simpa [square] using hc.symm
  subst hcell
  refine ⟨rfl, ?_⟩
  obtain ⟨k1, k2⟩ := key
  change e < 4 at he
  interval_cases e
  · have hx' : x = 1 := by simpa using (show some 1 = some x from hx).symm
    have hy' : y = 0 := by simpa using (show some 0 = some y from hy).symm
    subst hx'; subst hy'; clear hx hy hc; simp only [Prod.mk.injEq] at hk ⊢; simp only at hle; rcases hk with ⟨rfl, rfl⟩ | ⟨rfl, rfl⟩ <;> simp at hle ⊢
  · have hx' : x = 2 := by simpa using (show some 2 = some x from hx).symm
    have hy' : y = 1 := by simpa using (show some 1 = some y from hy).symm
    subst hx'; subst hy'; clear hx hy hc; simp only [Prod.mk.injEq] at hk ⊢; simp only at hle; rcases hk with ⟨rfl, rfl⟩ | ⟨rfl, rfl⟩ <;> simp at hle ⊢
  · have hx' : x = 3 := by simpa using (show some 3 = some x from hx).symm
    have hy' : y = 2 := by simpa using (show some 2 = some y from hy).symm
    subst hx'; subst hy'; clear hx hy hc; simp only [Prod.mk.injEq] at hk ⊢; simp only at hle; rcases hk with ⟨rfl, rfl⟩ | ⟨rfl, rfl⟩ <;> simp at hle ⊢
  · have hx' : x = 0 := by simpa using (show some 0 = some x from hx).symm
    have hy' : y = 3 := by simpa using (show some 3 = some y from hy).symm
    subst hx'; subst hy'; clear hx hy hc; simp only [Prod.mk.injEq] at hk ⊢; simp only at hle; rcases hk with ⟨rfl, rfl⟩ | ⟨rfl, rfl⟩ <;> simp at hle ⊢

theorem square_joinable : Joinable square := by
  intro x hx
  obtain ⟨_, hx2⟩ | ⟨h3, _⟩ := id hx
  swap
  · simp [square] at h3
  have one : ∀ key e, HasEdge square key 0 e → (x.edges.get key).isSome := by
    intro key e he
    refine (hx2.accepted key).2 ⟨⟨0, e, he⟩, Or.inr ⟨0, e, he, ?_⟩⟩
    intro c' e' he'
    have a := square_hasEdge he
    have b := square_hasEdge he'
    obtain ⟨k1, k2⟩ := key
    simp only [Prod.mk.injEq] at a b
    omega
  have he01 : HasEdge square (0, 1) 0 0 := ⟨_, 1, 0, rfl, rfl, by decide, rfl, rfl, by decide, by decide⟩
  have he23 : HasEdge square (2, 3) 0 2 := ⟨_, 3, 2, rfl, rfl, by decide, rfl, rfl, by decide, by decide⟩
  obtain ⟨f01, hf01⟩ := Option.isSome_iff_exists.1 (one _ _ he01)
  obtain ⟨f23, hf23⟩ := Option.isSome_iff_exists.1 (one _ _ he23)
  obtain ⟨_, a1, a2, _, a3, _⟩ := edge_key_points square_valid hx hf01
  obtain ⟨_, b1, b2, _, b3, _⟩ := edge_key_points square_valid hx hf23
  have fp : ∀ q, q < 4 → FeaturePoint square x q := by
    intro q hq
    interval_cases q
    · exact Or.inl (a3 _ a1)
    · exact Or.inl (a3 _ a2)
    · exact Or.inl (b3 _ b1)
    · exact Or.inl (b3 _ b2)
  constructor
  · intro i hi
    change i < 2 at hi
    interval_cases i
    · exact ⟨0, 1, fp 0 (by omega), fp 1 (by omega), by simp [coordsOf, square]⟩
    · exact ⟨1, 2, fp 1 (by omega), fp 2 (by omega), by simp [coordsOf, square]⟩
  · intro i hi d _
    exact ⟨i, i, fp i hi, fp i hi, by linarith, by linarith⟩

/-- The hypotheses of the theorems above are met by two squares with a common side. -/
theorem exists_join (o : JoinOrders) (ho : o.Valid) : ∃ m φ, joinTwoMeshes o square square2 = .ok m ∧ IsJoin square square2 m φ := by
  have hlim : ∀ p ∈ square.points, ∀ v ∈ p.coords, -f64Max ≤ v ∧ v ≤ f64Max := by
    have hb : (1 : ℝ) ≤ f64Max := one_le_f64Max
    intro p hp v hv
    simp [square] at hp
    rcases hp with rfl | rfl | rfl | rfl <;> simp at hv
    · subst hv; constructor <;> linarith
    · rcases hv with rfl | rfl <;> constructor <;> linarith
    · subst hv; constructor <;> linarith
    · rcases hv with rfl | rfl <;> constructor <;> linarith
  obtain ⟨m, hm⟩ := C20_succeeds o ho square square2 square_valid square2_valid hlim (Or.inl rfl) rfl square_joinable
    (by intro e he; simp [square2] at he; subst he; decide) (by intro e he; simp [square2] at he)
  obtain ⟨φ, hφ⟩ := C20_join o ho square square2 m square_valid square2_valid hlim (Or.inl rfl) hm
  exact ⟨m, φ, hm, hφ⟩

end
end Gemlab.Mesh
