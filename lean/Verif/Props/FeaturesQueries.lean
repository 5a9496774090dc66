import Verif.Props.Features3

/-!
# C47 (examples), C51: further queries of `Features`
-/
namespace Gemlab.Props.Features
noncomputable section
open Gemlab Gemlab.Mesh Gemlab.Shapes Gemlab.Props.Mesh Gemlab.Spec Gemlab.GridSearch

variable {m : Mesh ℝ} {extractAll : Bool} {x : Extracted ℝ} {F : Features} {go : GridOrders}

theorem mapM_lookup {Key : Type} [DecidableEq Key] (map : HMap Key Feature) (keys : List Key) (h : ∀ k ∈ keys, (map.get k).isSome) :
    ∃ fs, keys.mapM (lookup map) = .ok fs ∧ List.Forall₂ (fun k f => map.get k = some f) keys fs := by
  induction keys with
  | nil => exact ⟨[], rfl, List.Forall₂.nil⟩
  | cons k keys ih =>
    obtain ⟨fs, h1, h2⟩ := ih (fun k hk => h k (List.mem_cons_of_mem _ hk))
    obtain ⟨f, hf⟩ := Option.isSome_iff_exists.1 (h k (by simp))
    refine ⟨f :: fs, ?_, List.Forall₂.cons hf h2⟩
    rw [List.mapM_cons]
    unfold lookup at *
    rw [hf]
    dsimp only
    rw [Res.bind_ok, h1]; rfl

/-- `fs` lists, in increasing order of their keys and without repetition, exactly the entries of the map whose key satisfies `P`. -/
def ListsByKey {Key : Type} [DecidableEq Key] (le : Key → Key → Prop) (map : HMap Key Feature) (P : Key → Feature → Prop)
    (fs : List Feature) : Prop :=
  ∃ keys : List Key, keys.Pairwise (fun a b => le a b ∧ a ≠ b) ∧ List.Forall₂ (fun k f => map.get k = some f) keys fs ∧
    ∀ key, key ∈ keys ↔ ∃ f, map.get key = some f ∧ P key f

/-- **C51.** `search_edges` returns the edges of `search_edge_keys`, and errors exactly when the latter does. -/
theorem C51_search_edges (hF : IsNew m extractAll x F) (h : ValidMesh m) (hO : IterOrder go.outer) (hI : IterOrder go.inner)
    (hd : m.ndim = 2 ∨ m.ndim = 3) (a : At) (filter : List ℝ → Bool) (hs : Supported m.ndim a) (hp : pointOf m.ndim a = none) :
    (∃ fs, F.searchEdges go a filter = .ok fs ∧ fs ≠ [] ∧
      ListsByKey edgeKeyLe F.edges (fun key _ => Hit m a filter key.1 ∧ Hit m a filter key.2) fs) ∨
    ((¬∃ key f, F.edges.get key = some f ∧ Hit m a filter key.1 ∧ Hit m a filter key.2) ∧ ∃ e, F.searchEdges go a filter = .err e) := by
  obtain ⟨c1, c2⟩ := C47_edges hF h hO hI hd a filter hs hp
  unfold Features.searchEdges
  by_cases hex : ∃ key f, F.edges.get key = some f ∧ Hit m a filter key.1 ∧ Hit m a filter key.2
  · left
    obtain ⟨keys, e1, e2, e3⟩ := c1 hex
    obtain ⟨fs, f1, f2⟩ := mapM_lookup F.edges keys (fun k hk => by
      obtain ⟨⟨f, hf⟩, _⟩ := (e3 k).1 hk
      rw [hf]; rfl)
    refine ⟨fs, by rw [e1, Res.bind_ok, f1], ?_, keys, e2, f2, ?_⟩
    · obtain ⟨key, f, hf, hh⟩ := hex
      have := (e3 key).2 ⟨⟨f, hf⟩, hh⟩
      rintro rfl
      cases f2
      simp at this
    · intro key
      rw [e3]
      constructor
      · rintro ⟨⟨f, hf⟩, hh⟩; exact ⟨f, hf, hh⟩
      · rintro ⟨f, hf, hh⟩; exact ⟨⟨f, hf⟩, hh⟩
  · right
    obtain ⟨e, he⟩ := c2 hex
    exact ⟨hex, e, by rw [he]; rfl⟩

/-- **C51.** `search_many_edges` returns exactly the edges found at one of the locations, once each, sorted by key; it errs when
nothing is found at one of them. -/
theorem C51_search_many_edges (hF : IsNew m extractAll x F) (h : ValidMesh m) (hO : IterOrder go.outer) (hI : IterOrder go.inner)
    (hd : m.ndim = 2 ∨ m.ndim = 3) (ats : List At) (filter : List ℝ → Bool)
    (hs : ∀ a ∈ ats, Supported m.ndim a ∧ pointOf m.ndim a = none) :
    ((∀ a ∈ ats, ∃ key f, F.edges.get key = some f ∧ Hit m a filter key.1 ∧ Hit m a filter key.2) →
      ∃ fs, F.searchManyEdges go ats filter = .ok fs ∧
        ListsByKey edgeKeyLe F.edges (fun key _ => ∃ a ∈ ats, Hit m a filter key.1 ∧ Hit m a filter key.2) fs) ∧
    ((¬∀ a ∈ ats, ∃ key f, F.edges.get key = some f ∧ Hit m a filter key.1 ∧ Hit m a filter key.2) →
      ∃ e, F.searchManyEdges go ats filter = .err e) := by
  unfold Features.searchManyEdges
  constructor
  · intro hall
    have hm : ∃ found, ats.mapM (fun a => F.searchEdgeKeys go a filter) = .ok found ∧
        ∀ key, key ∈ found.flatten ↔ ∃ a ∈ ats, (∃ f, F.edges.get key = some f) ∧ Hit m a filter key.1 ∧ Hit m a filter key.2 := by
      induction ats with
      | nil => exact ⟨[], rfl, by simp⟩
      | cons a ats ih =>
        obtain ⟨found, f1, f2⟩ := ih (fun a ha => hs a (List.mem_cons_of_mem _ ha)) (fun a ha => hall a (List.mem_cons_of_mem _ ha))
        obtain ⟨keys, e1, _, e3⟩ := (C47_edges hF h hO hI hd a filter (hs a (by simp)).1 (hs a (by simp)).2).1 (hall a (by simp))
        refine ⟨keys :: found, ?_, ?_⟩
        · rw [List.mapM_cons, e1, Res.bind_ok, f1]; rfl
        · intro key
          rw [List.flatten_cons, List.mem_append, f2, e3]
          simp
    obtain ⟨found, f1, f2⟩ := hm
    rw [f1, Res.bind_ok]
    obtain ⟨s1, s2⟩ := sortedKeys edgeKeyLe _ (List.nodup_dedup found.flatten)
    have hmem : ∀ key, key ∈ found.flatten.dedup.insertionSort edgeKeyLe ↔
        ∃ f, F.edges.get key = some f ∧ ∃ a ∈ ats, Hit m a filter key.1 ∧ Hit m a filter key.2 := by
      intro key
      rw [s2, List.mem_dedup, f2]
      constructor
      · rintro ⟨a, ha, ⟨f, hf⟩, hh⟩; exact ⟨f, hf, a, ha, hh⟩
      · rintro ⟨f, hf, a, ha, hh⟩; exact ⟨a, ha, ⟨f, hf⟩, hh⟩
    obtain ⟨fs, g1, g2⟩ := mapM_lookup F.edges (found.flatten.dedup.insertionSort edgeKeyLe) (fun k hk => by
      obtain ⟨f, hf, _⟩ := (hmem k).1 hk
      rw [hf]; rfl)
    exact ⟨fs, g1, _, s1, g2, hmem⟩
  · intro hno
    have : ∃ e, ats.mapM (fun a => F.searchEdgeKeys go a filter) = .err e := by
      induction ats with
      | nil => exact absurd (by simp) hno
      | cons a ats ih =>
        rw [List.mapM_cons]
        by_cases ha : ∃ key f, F.edges.get key = some f ∧ Hit m a filter key.1 ∧ Hit m a filter key.2
        · obtain ⟨keys, e1, _, _⟩ := (C47_edges hF h hO hI hd a filter (hs a (by simp)).1 (hs a (by simp)).2).1 ha
          obtain ⟨e, he⟩ := ih (fun a ha => hs a (List.mem_cons_of_mem _ ha)) (fun hall => hno (by
            intro b hb
            rcases List.mem_cons.1 hb with rfl | hb
            · exact ha
            · exact hall b hb))
          exact ⟨e, by rw [e1, Res.bind_ok, he]; rfl⟩
        · obtain ⟨e, he⟩ := (C47_edges hF h hO hI hd a filter (hs a (by simp)).1 (hs a (by simp)).2).2 ha
          exact ⟨e, by rw [he]; rfl⟩
    obtain ⟨e, he⟩ := this
    exact ⟨e, by rw [he]; rfl⟩

/-- **C51.** `search_faces` returns the faces of `search_face_keys`, and errors exactly when the latter does. -/
theorem C51_search_faces (hF : IsNew m extractAll x F) (h : ValidMesh m) (hM : m.points.length ≤ usizeMax)
    (hO : IterOrder go.outer) (hI : IterOrder go.inner)
    (h3 : m.ndim = 3) (a : At) (filter : List ℝ → Bool) (hs : Supported m.ndim a) (hp : pointOf m.ndim a = none) :
    (∃ fs, F.searchFaces go a filter = .ok fs ∧ fs ≠ [] ∧
      ListsByKey faceKeyLe F.faces (fun key _ => ∀ p ∈ key.toList, p ≠ usizeMax → Hit m a filter p) fs) ∨
    ((¬∃ key f, F.faces.get key = some f ∧ ∀ p ∈ key.toList, p ≠ usizeMax → Hit m a filter p) ∧
      ∃ e, F.searchFaces go a filter = .err e) := by
  obtain ⟨c1, c2⟩ := C47_faces hF h hM hO hI h3 a filter hs hp
  unfold Features.searchFaces
  by_cases hex : ∃ key f, F.faces.get key = some f ∧ ∀ p ∈ key.toList, p ≠ usizeMax → Hit m a filter p
  · left
    obtain ⟨keys, e1, e2, e3⟩ := c1 hex
    obtain ⟨fs, f1, f2⟩ := mapM_lookup F.faces keys (fun k hk => by
      obtain ⟨⟨f, hf⟩, _⟩ := (e3 k).1 hk
      rw [hf]; rfl)
    refine ⟨fs, by rw [e1, Res.bind_ok, f1], ?_, keys, e2, f2, ?_⟩
    · obtain ⟨key, f, hf, hh⟩ := hex
      have := (e3 key).2 ⟨⟨f, hf⟩, hh⟩
      rintro rfl
      cases f2
      simp at this
    · intro key
      rw [e3]
      constructor
      · rintro ⟨⟨f, hf⟩, hh⟩; exact ⟨f, hf, hh⟩
      · rintro ⟨f, hf, hh⟩; exact ⟨⟨f, hf⟩, hh⟩
  · right
    obtain ⟨e, he⟩ := c2 hex
    exact ⟨hex, e, by rw [he]; rfl⟩

/-- **C51.** `search_many_faces` returns exactly the faces found at one of the locations, once each, sorted by key; it errs when
nothing is found at one of them. -/
theorem C51_search_many_faces (hF : IsNew m extractAll x F) (h : ValidMesh m) (hO : IterOrder go.outer) (hI : IterOrder go.inner)
    (hM : m.points.length ≤ usizeMax) (h3 : m.ndim = 3) (ats : List At) (filter : List ℝ → Bool)
    (hs : ∀ a ∈ ats, Supported m.ndim a ∧ pointOf m.ndim a = none) :
    ((∀ a ∈ ats, ∃ key f, F.faces.get key = some f ∧ ∀ p ∈ key.toList, p ≠ usizeMax → Hit m a filter p) →
      ∃ fs, F.searchManyFaces go ats filter = .ok fs ∧
        ListsByKey faceKeyLe F.faces (fun key _ => ∃ a ∈ ats, ∀ p ∈ key.toList, p ≠ usizeMax → Hit m a filter p) fs) ∧
    ((¬∀ a ∈ ats, ∃ key f, F.faces.get key = some f ∧ ∀ p ∈ key.toList, p ≠ usizeMax → Hit m a filter p) →
      ∃ e, F.searchManyFaces go ats filter = .err e) := by
  unfold Features.searchManyFaces
  constructor
  · intro hall
    have hm : ∃ found, ats.mapM (fun a => F.searchFaceKeys go a filter) = .ok found ∧
        ∀ key, key ∈ found.flatten ↔ ∃ a ∈ ats, (∃ f, F.faces.get key = some f) ∧ ∀ p ∈ key.toList, p ≠ usizeMax → Hit m a filter p := by
      induction ats with
      | nil => exact ⟨[], rfl, by simp⟩
      | cons a ats ih =>
        obtain ⟨found, f1, f2⟩ := ih (fun a ha => hs a (List.mem_cons_of_mem _ ha)) (fun a ha => hall a (List.mem_cons_of_mem _ ha))
        obtain ⟨keys, e1, _, e3⟩ := (C47_faces hF h hM hO hI h3 a filter (hs a (by simp)).1 (hs a (by simp)).2).1 (hall a (by simp))
        refine ⟨keys :: found, ?_, ?_⟩
        · rw [List.mapM_cons, e1, Res.bind_ok, f1]; rfl
        · intro key
          rw [List.flatten_cons, List.mem_append, f2, e3]
          simp
    obtain ⟨found, f1, f2⟩ := hm
    rw [f1, Res.bind_ok]
    obtain ⟨s1, s2⟩ := sortedKeys faceKeyLe _ (List.nodup_dedup found.flatten)
    have hmem : ∀ key, key ∈ found.flatten.dedup.insertionSort faceKeyLe ↔
        ∃ f, F.faces.get key = some f ∧ ∃ a ∈ ats, ∀ p ∈ key.toList, p ≠ usizeMax → Hit m a filter p := by
      intro key
      rw [s2, List.mem_dedup, f2]
      constructor
      · rintro ⟨a, ha, ⟨f, hf⟩, hh⟩; exact ⟨f, hf, a, ha, hh⟩
      · rintro ⟨f, hf, a, ha, hh⟩; exact ⟨a, ha, ⟨f, hf⟩, hh⟩
    obtain ⟨fs, g1, g2⟩ := mapM_lookup F.faces (found.flatten.dedup.insertionSort faceKeyLe) (fun k hk => by
      obtain ⟨f, hf, _⟩ := (hmem k).1 hk
      rw [hf]; rfl)
    exact ⟨fs, g1, _, s1, g2, hmem⟩
  · intro hno
    have : ∃ e, ats.mapM (fun a => F.searchFaceKeys go a filter) = .err e := by
      induction ats with
      | nil => exact absurd (by simp) hno
      | cons a ats ih =>
        rw [List.mapM_cons]
        by_cases ha : ∃ key f, F.faces.get key = some f ∧ ∀ p ∈ key.toList, p ≠ usizeMax → Hit m a filter p
        · obtain ⟨keys, e1, _, _⟩ := (C47_faces hF h hM hO hI h3 a filter (hs a (by simp)).1 (hs a (by simp)).2).1 ha
          obtain ⟨e, he⟩ := ih (fun a ha => hs a (List.mem_cons_of_mem _ ha)) (fun hall => hno (by
            intro b hb
            rcases List.mem_cons.1 hb with rfl | hb
            · exact ha
            · exact hall b hb))
          exact ⟨e, by rw [e1, Res.bind_ok, he]; rfl⟩
        · obtain ⟨e, he⟩ := (C47_faces hF h hM hO hI h3 a filter (hs a (by simp)).1 (hs a (by simp)).2).2 ha
          exact ⟨e, by rw [he]; rfl⟩
    obtain ⟨e, he⟩ := this
    exact ⟨e, by rw [he]; rfl⟩

/-! ## Marked edges and faces -/

theorem searchMarked_aux {Key : Type} [DecidableEq Key] (le : Key → Key → Prop) [DecidableRel le] [Std.Total le] [IsTrans Key le]
    (map : HMap Key Feature) (hw : map.WF) (iter : List (Key × Feature) → List (Key × Feature)) (hi : IterOrder iter)
    (key : Feature → Res Key) (hk : ∀ k f, map.get k = some f → key f = .ok k) (marker : Int) :
    ∃ fs, (do
        let sel := ((iter map).map (·.2)).filter fun e => e.marker = marker
        let keyed ← sel.mapM fun e => do
          let k ← key e
          pure (k, e)
        pure ((keyed.insertionSort fun a b => le a.1 b.1).map (·.2))) = Res.ok fs ∧ ListsByKey le map (fun _ f => f.marker = marker) fs := by
  -- the selected entries
  have hsel : ((iter map).map (·.2)).filter (fun e => decide (e.marker = marker)) = ((iter map).filter fun e => decide (e.2.marker = marker)).map (·.2) := by
    rw [List.filter_map]; rfl
  have hm : (((iter map).filter fun e => decide (e.2.marker = marker)).map (·.2)).mapM (fun e => do
        let k ← key e
        pure (k, e)) = Res.ok ((iter map).filter fun e => decide (e.2.marker = marker)) := by
    rw [Res.mapM_ok_iff, List.forall₂_map_left_iff, List.forall₂_same]
    rintro ⟨k, f⟩ he
    have he' := hi.mem.1 (List.mem_filter.1 he).1
    dsimp only
    rw [hk k f (HMap.get_of_mem hw he'), Res.bind_ok]; rfl
  haveI : Std.Total (fun a b : Key × Feature => le a.1 b.1) := ⟨fun a b => Std.Total.total a.1 b.1⟩
  haveI : IsTrans (Key × Feature) (fun a b : Key × Feature => le a.1 b.1) := ⟨fun a b c h h' => IsTrans.trans a.1 b.1 c.1 h h'⟩
  set sel := (iter map).filter fun e => decide (e.2.marker = marker) with hseldef
  have hperm := List.perm_insertionSort (fun a b : Key × Feature => le a.1 b.1) sel
  have hsorted := List.pairwise_insertionSort (fun a b : Key × Feature => le a.1 b.1) sel
  have hmem : ∀ k f, (k, f) ∈ sel.insertionSort (fun a b : Key × Feature => le a.1 b.1) ↔ map.get k = some f ∧ f.marker = marker := by
    intro k f
    rw [hperm.mem_iff, hseldef, List.mem_filter, hi.mem, HMap.get_eq_some_iff hw]
    simp
  refine ⟨(sel.insertionSort fun a b => le a.1 b.1).map (·.2), ?_, (sel.insertionSort fun a b => le a.1 b.1).map (·.1), ?_, ?_, ?_⟩
  · dsimp only
    rw [hsel, hm]; rfl
  · rw [List.pairwise_map]
    have hnd : ((sel.insertionSort fun a b => le a.1 b.1).map (·.1)).Nodup := by
      have h1 : ((sel.insertionSort fun a b => le a.1 b.1).map (·.1)).Perm (sel.map (·.1)) := hperm.map _
      rw [h1.nodup_iff]
      have h2 : (sel.map (·.1)).Sublist ((iter map).map (·.1)) := List.filter_sublist.map _
      exact List.Nodup.sublist h2 (((hi map).map _).nodup_iff.2 hw)
    have hnd' : (sel.insertionSort fun a b => le a.1 b.1).Pairwise (fun a b => a.1 ≠ b.1) := List.pairwise_map.1 hnd
    exact hsorted.and hnd'
  · rw [List.forall₂_map_left_iff, List.forall₂_map_right_iff, List.forall₂_same]
    rintro ⟨k, f⟩ he
    exact ((hmem k f).1 he).1
  · intro k
    rw [List.mem_map]
    constructor
    · rintro ⟨⟨k', f⟩, he, rfl⟩; exact ⟨f, (hmem _ f).1 he⟩
    · rintro ⟨f, hf⟩; exact ⟨(k, f), (hmem k f).2 hf, rfl⟩

/-- **C51.** `search_marked_edges` returns, sorted by key, exactly the stored edges with the given marker, for any iteration order. -/
theorem C51_search_marked_edges (hF : IsNew m extractAll x F) (h : ValidMesh m)
    (iter : List (EdgeKey × Feature) → List (EdgeKey × Feature)) (hi : IterOrder iter) (marker : Int) :
    ∃ fs, F.searchMarkedEdges iter marker = .ok fs ∧ ListsByKey edgeKeyLe F.edges (fun _ f => f.marker = marker) fs := by
  have hw := IsExtracted.wf hF.extracted
  exact searchMarked_aux edgeKeyLe F.edges (hF.edges ▸ hw.1) iter hi Feature.edgeKey (fun k f hf => by
    rw [hF.edges] at hf; exact (edge_key_points h hF.extracted hf).1) marker

/-- **C51.** `search_marked_faces` returns, sorted by key, exactly the stored faces with the given marker, for any iteration order. -/
theorem C51_search_marked_faces (hF : IsNew m extractAll x F) (h : ValidMesh m) (hM : m.points.length ≤ usizeMax)
    (iter : List (FaceKey × Feature) → List (FaceKey × Feature)) (hi : IterOrder iter) (marker : Int) :
    ∃ fs, F.searchMarkedFaces iter marker = .ok fs ∧ ListsByKey faceKeyLe F.faces (fun _ f => f.marker = marker) fs := by
  have hw := IsExtracted.wf hF.extracted
  exact searchMarked_aux faceKeyLe F.faces (hF.faces ▸ hw.2) iter hi Feature.faceKey (fun k f hf => by
    rw [hF.faces] at hf; exact (face_key_points h hM hF.extracted hf).1) marker

/-! ## Cells via edges and faces, points, boundary edges -/

/-- The sorted list of the cells of the local entities `P`, one entry per (cell, local entity). -/
def IsCellsOf (P : Nat → Nat → Prop) (ids : List Nat) : Prop :=
  ids.Pairwise (· ≤ ·) ∧ ∃ l : List (Nat × Nat), l.Nodup ∧ (∀ c e, (c, e) ∈ l ↔ P c e) ∧ ids.Perm (l.map (·.1))

/-- **C51.** `get_cells_via_2d_edge` of a stored edge: the sorted list of the cells that have this edge. -/
theorem C51_cells_via_2d_edge (hF : IsNew m extractAll x F) (h : ValidMesh m) (h2 : m.ndim = 2) (key : EdgeKey) (f : Feature)
    (hf : F.edges.get key = some f) : ∃ ids, F.getCellsVia2dEdge f = .ok ids ∧ IsCellsOf (HasEdge m key) ids := by
  rw [hF.edges] at hf
  have hk := (edge_key_points h hF.extracted hf).1
  obtain ⟨all, e1, hg⟩ := extractAll2dEdges_spec h h2
  have := hF.all2d h2
  rw [e1, Res.ok.injEq] at this
  obtain ⟨hx2, hx⟩ | ⟨h3, _⟩ := hF.extracted
  swap
  · omega
  have hacc := (hx.accepted key).1 (by rw [hf]; rfl)
  obtain ⟨⟨c, e, hce⟩, _⟩ := hacc
  unfold Features.getCellsVia2dEdge
  rw [hk, Res.bind_ok, ← this]
  cases hget : all.get key with
  | none => exact absurd hce ((hg.none key).1 hget c e)
  | some l =>
    refine ⟨_, rfl, List.pairwise_insertionSort _ _, l, ?_, hg.mem key l hget, List.perm_insertionSort _ _⟩
    have := hg.sorted key l hget
    exact List.Pairwise.imp (by intro a b hab hne; rw [hne] at hab; rcases hab with h | ⟨_, h⟩ <;> exact lt_irrefl _ h) this

/-- **C51.** `get_cells_via_face` of a stored face: the sorted list of the cells that have this face. -/
theorem C51_cells_via_face (hF : IsNew m extractAll x F) (h : ValidMesh m) (hM : m.points.length ≤ usizeMax) (h3 : m.ndim = 3)
    (key : FaceKey) (f : Feature) (hf : F.faces.get key = some f) :
    ∃ ids, F.getCellsViaFace f = .ok ids ∧ IsCellsOf (HasFace m key) ids := by
  rw [hF.faces] at hf
  have hk := (face_key_points h hM hF.extracted hf).1
  obtain ⟨all, e1, hg⟩ := extractAllFaces_spec h h3
  have := hF.all3d h3
  rw [e1, Res.ok.injEq] at this
  obtain ⟨h2, _⟩ | ⟨_, hx⟩ := hF.extracted
  · omega
  have hacc := (hx.accepted key).1 (by rw [hf]; rfl)
  obtain ⟨⟨c, e, hce⟩, _⟩ := hacc
  unfold Features.getCellsViaFace
  rw [hk, Res.bind_ok, ← this]
  cases hget : all.get key with
  | none => exact absurd hce ((hg.none key).1 hget c e)
  | some l =>
    refine ⟨_, rfl, List.pairwise_insertionSort _ _, l, ?_, hg.mem key l hget, List.perm_insertionSort _ _⟩
    have := hg.sorted key l hget
    exact List.Pairwise.imp (by intro a b hab hne; rw [hne] at hab; rcases hab with h | ⟨_, h⟩ <;> exact lt_irrefl _ h) this

theorem mapM_forall {α β : Type} (f : α → Res β) (P : α → β → Prop) (l : List α) (h : ∀ a ∈ l, ∃ b, f a = .ok b ∧ P a b) :
    ∃ bs, l.mapM f = .ok bs ∧ List.Forall₂ P l bs := by
  induction l with
  | nil => exact ⟨[], rfl, .nil⟩
  | cons a l ih =>
    obtain ⟨b, h1, h2⟩ := h a (by simp)
    obtain ⟨bs, h3, h4⟩ := ih (fun a ha => h a (List.mem_cons_of_mem _ ha))
    exact ⟨b :: bs, by rw [List.mapM_cons, h1, Res.bind_ok, h3]; rfl, .cons h2 h4⟩

/-- **C51.** `get_cells_via_2d_edges` of stored edges: sorted, every cell once for every edge of the list that it has. -/
theorem C51_cells_via_2d_edges (hF : IsNew m extractAll x F) (h : ValidMesh m) (h2 : m.ndim = 2) (es : List (EdgeKey × Feature))
    (hes : ∀ e ∈ es, F.edges.get e.1 = some e.2) :
    ∃ ids ls, F.getCellsVia2dEdges (es.map (·.2)) = .ok ids ∧ ids.Pairwise (· ≤ ·) ∧ ids.Perm ls.flatten ∧
      List.Forall₂ (fun (e : EdgeKey × Feature) l => IsCellsOf (HasEdge m e.1) l) es ls := by
  obtain ⟨ls, l1, l2⟩ := mapM_forall (fun e : EdgeKey × Feature => F.getCellsVia2dEdge e.2) (fun e l => IsCellsOf (HasEdge m e.1) l) es
    (fun e he => C51_cells_via_2d_edge hF h h2 e.1 e.2 (hes e he))
  have e1 : (es.map (·.2)).mapM F.getCellsVia2dEdge = .ok ls := by
    rw [Res.mapM_ok_iff, List.forall₂_map_left_iff, ← Res.mapM_ok_iff (fun e : EdgeKey × Feature => F.getCellsVia2dEdge e.2)]
    exact l1
  unfold Features.getCellsVia2dEdges
  rw [e1, Res.bind_ok]
  exact ⟨_, ls, rfl, List.pairwise_insertionSort _ _, List.perm_insertionSort _ _, l2⟩

/-- **C51.** `get_cells_via_faces` of stored faces: sorted, every cell once for every face of the list that it has. -/
theorem C51_cells_via_faces (hF : IsNew m extractAll x F) (h : ValidMesh m) (hM : m.points.length ≤ usizeMax) (h3 : m.ndim = 3)
    (es : List (FaceKey × Feature)) (hes : ∀ e ∈ es, F.faces.get e.1 = some e.2) :
    ∃ ids ls, F.getCellsViaFaces (es.map (·.2)) = .ok ids ∧ ids.Pairwise (· ≤ ·) ∧ ids.Perm ls.flatten ∧
      List.Forall₂ (fun (e : FaceKey × Feature) l => IsCellsOf (HasFace m e.1) l) es ls := by
  obtain ⟨ls, l1, l2⟩ := mapM_forall (fun e : FaceKey × Feature => F.getCellsViaFace e.2) (fun e l => IsCellsOf (HasFace m e.1) l) es
    (fun e he => C51_cells_via_face hF h hM h3 e.1 e.2 (hes e he))
  have e1 : (es.map (·.2)).mapM F.getCellsViaFace = .ok ls := by
    rw [Res.mapM_ok_iff, List.forall₂_map_left_iff, ← Res.mapM_ok_iff (fun e : FaceKey × Feature => F.getCellsViaFace e.2)]
    exact l1
  unfold Features.getCellsViaFaces
  rw [e1, Res.bind_ok]
  exact ⟨_, ls, rfl, List.pairwise_insertionSort _ _, List.perm_insertionSort _ _, l2⟩

/-- **C51.** Points of several edges or faces: strictly increasing, exactly the points of one of them. -/
theorem C51_all_points (fs : List Feature) : (allPoints fs).Pairwise (· < ·) ∧ ∀ q, q ∈ allPoints fs ↔ ∃ f ∈ fs, q ∈ f.points := by
  obtain ⟨h1, h2⟩ := sortedDedup (fs.flatMap (·.points))
  refine ⟨h1, fun q => ?_⟩
  unfold allPoints
  rw [h2, List.mem_flatMap]

/-- **C51.** `get_boundary_edges` in 2D: exactly the edges of exactly one cell, once each (with any value of `extract_all`). -/
theorem C51_boundary_edges_2d (hF : IsNew m extractAll x F) (h : ValidMesh m) (h2 : m.ndim = 2) :
    ∃ keys, F.getBoundaryEdges = .ok keys ∧ keys.Nodup ∧ ∀ key, key ∈ keys ↔ ExactlyOne (HasEdge m key) := by
  obtain ⟨all, e1, hg⟩ := extractAll2dEdges_spec h h2
  have := hF.all2d h2
  rw [e1, Res.ok.injEq] at this
  unfold Features.getBoundaryEdges
  rw [hF.mesh, if_pos h2, ← this]
  refine ⟨_, rfl, ?_, ?_⟩
  · exact List.Nodup.sublist (List.filter_sublist.map _) hg.wf
  · intro key
    rw [List.mem_map]
    constructor
    · rintro ⟨⟨k, l⟩, hm, rfl⟩
      rw [List.mem_filter] at hm
      obtain ⟨_, _, _, _, hone⟩ := hg.head (HMap.get_of_mem hg.wf hm.1)
      exact hone.1 (by simpa using hm.2)
    · intro hone
      obtain ⟨c, e, hce, _⟩ := id hone
      cases hget : all.get key with
      | none => exact absurd hce ((hg.none key).1 hget c e)
      | some l =>
        obtain ⟨_, _, _, _, hone'⟩ := hg.head hget
        refine ⟨(key, l), List.mem_filter.2 ⟨HMap.mem_of_get hget, by simpa using hone'.2 hone⟩, rfl⟩

/-- **C51.** `get_boundary_edges` in 3D: exactly the edges of the faces of exactly one cell, once each. -/
theorem C51_boundary_edges_3d (hF : IsNew m extractAll x F) (h : ValidMesh m) (h3 : m.ndim = 3) :
    ∃ keys, F.getBoundaryEdges = .ok keys ∧ keys.Nodup ∧
      ∀ key, key ∈ keys ↔ ∃ fkey face e, F.faces.get fkey = some face ∧ ExactlyOne (HasFace m fkey) ∧ HasFaceEdge face key e := by
  obtain ⟨all, e1, hg⟩ := extractAllFaces_spec h h3
  have := hF.all3d h3
  rw [e1, Res.ok.injEq] at this
  obtain ⟨h2, _⟩ | ⟨_, hx⟩ := hF.extracted
  · omega
  have hw : F.faces.WF := hF.faces ▸ hx.keysNodup.1
  unfold Features.getBoundaryEdges
  rw [hF.mesh, if_neg (by omega), ← this]
  obtain ⟨s, s1, s2, s3⟩ := Res.foldlM_list (σ := List EdgeKey) (fun set (e : FaceKey × Feature) => do
    let shares ← unwrap (all.get e.1)
    if shares.length = 1 then
      (List.range e.2.kind.nedge).foldlM (fun set j => do
        let a ← Res.idx e.2.points (edgeNode e.2.kind j 0)
        let b ← Res.idx e.2.points (edgeNode e.2.kind j 1)
        let p ← Res.idx m.points a
        let q ← Res.idx m.points b
        pure (HSet.insert set (sort2 p.id q.id))) set
    else pure set) F.faces []
    (fun pre s => s.Nodup ∧ ∀ key, key ∈ s ↔ ∃ e ∈ pre, ExactlyOne (HasFace m e.1) ∧ ∃ j, HasFaceEdge e.2 key j)
    (by simp) (by
      rintro pre ⟨fkey, face⟩ s he _ ⟨hn, hs⟩
      have hget : x.faces.get fkey = some face := by rw [← hF.faces]; exact HMap.get_of_mem hw he
      obtain ⟨c, k, hfirst, ⟨cell, hc, hk, hl, hp⟩, _⟩ := hx.data fkey face hget
      cases hall : all.get fkey with
      | none => exact absurd hfirst.1 ((hg.none fkey).1 hall _ _)
      | some sh =>
        obtain ⟨_, _, _, _, hone⟩ := hg.head hall
        dsimp only [unwrap]
        rw [Res.bind_ok]
        split
        · rename_i hlen
          have hb := hone.1 hlen
          have hpr : ∀ q ∈ face.points, q < m.points.length := by
            intro q hq
            obtain ⟨i, hi⟩ := List.mem_iff_getElem?.1 hq
            have hil : i < face.kind.nnode := by
              rw [← hl]; by_contra hc
              rw [List.getElem?_eq_none (by omega)] at hi; simp at hi
            have := hp i hil
            rw [hi] at this
            exact h.inRange cell (List.mem_of_getElem? hc) q (List.mem_of_getElem? this.symm)
          obtain ⟨s', t1, t2, t3⟩ := Res.foldlM_range (σ := List EdgeKey) (fun set j => do
              let a ← Res.idx face.points (edgeNode face.kind j 0)
              let b ← Res.idx face.points (edgeNode face.kind j 1)
              let p ← Res.idx m.points a
              let q ← Res.idx m.points b
              pure (HSet.insert set (sort2 p.id q.id))) face.kind.nedge s
            (fun n t => t.Nodup ∧ ∀ key, key ∈ t ↔ key ∈ s ∨ ∃ j < n, HasFaceEdge face key j)
            ⟨hn, by simp⟩ (by
              rintro j t hj ⟨hn', ht⟩
              obtain ⟨hn2, _⟩ := edge_facts face.kind (by omega)
              have l0 := edgeNode_lt face.kind j 0 hj (by omega)
              have l1 := edgeNode_lt face.kind j 1 hj (by omega)
              rw [← hl] at l0 l1
              have q0 := hpr _ (List.getElem_mem l0)
              have q1 := hpr _ (List.getElem_mem l1)
              have i0 := h.pointIds _ _ (List.getElem?_eq_getElem q0)
              have i1 := h.pointIds _ _ (List.getElem?_eq_getElem q1)
              refine ⟨HSet.insert t (sort2 face.points[edgeNode face.kind j 0] face.points[edgeNode face.kind j 1]), ?_,
                HSet.nodup_insert _ _ hn', ?_⟩
              · rw [Res.idx_of_lt l0, Res.bind_ok, Res.idx_of_lt l1, Res.bind_ok, Res.idx_of_lt q0, Res.bind_ok, Res.idx_of_lt q1, Res.bind_ok,
                  i0, i1]; rfl
              · intro key
                rw [HSet.mem_insert, ht]
                have hkey : key = sort2 face.points[edgeNode face.kind j 0] face.points[edgeNode face.kind j 1] ↔ HasFaceEdge face key j := by
                  rw [eq_comm, sort2_eq_iff]
                  unfold HasFaceEdge
                  rw [List.getElem?_eq_getElem l0, List.getElem?_eq_getElem l1]
                  constructor
                  · rintro ⟨a1, a2⟩; exact ⟨_, _, hj, rfl, rfl, a1, a2⟩
                  · rintro ⟨a, b, _, ha, hb, a1, a2⟩
                    simp only [Option.some.injEq] at ha hb
                    subst ha; subst hb
                    exact ⟨a1, a2⟩
                rw [hkey]
                constructor
                · rintro ((h' | ⟨j', hj', h'⟩) | h')
                  · exact Or.inl h'
                  · exact Or.inr ⟨j', by omega, h'⟩
                  · exact Or.inr ⟨j, by omega, h'⟩
                · rintro (h' | ⟨j', hj', h'⟩)
                  · exact Or.inl (Or.inl h')
                  · by_cases hjj : j' = j
                    · subst hjj; exact Or.inr h'
                    · exact Or.inl (Or.inr ⟨j', by omega, h'⟩))
          refine ⟨s', t1, t2, ?_⟩
          intro key
          rw [t3, hs]
          constructor
          · rintro (⟨e, he, hr⟩ | ⟨j, _, hj⟩)
            · exact ⟨e, List.mem_append_left _ he, hr⟩
            · exact ⟨(fkey, face), by simp, hb, j, hj⟩
          · rintro ⟨e, he, hr⟩
            rcases List.mem_append.1 he with he | he
            · exact Or.inl ⟨e, he, hr⟩
            · rw [List.mem_singleton] at he; subst he
              obtain ⟨_, j, hj⟩ := hr
              exact Or.inr ⟨j, hj.choose_spec.choose_spec.1, hj⟩
        · rename_i hlen
          refine ⟨s, rfl, hn, ?_⟩
          intro key
          rw [hs]
          constructor
          · rintro ⟨e, he, hr⟩; exact ⟨e, List.mem_append_left _ he, hr⟩
          · rintro ⟨e, he, hr⟩
            rcases List.mem_append.1 he with he | he
            · exact ⟨e, he, hr⟩
            · rw [List.mem_singleton] at he; subst he
              exact absurd (hone.2 hr.1) hlen)
  refine ⟨s, s1, s2, ?_⟩
  intro key
  rw [s3]
  constructor
  · rintro ⟨⟨fkey, face⟩, he, hone, j, hj⟩
    exact ⟨fkey, face, j, HMap.get_of_mem hw he, hone, hj⟩
  · rintro ⟨fkey, face, j, hf, hone, hj⟩
    exact ⟨(fkey, face), HMap.mem_of_get hf, hone, j, hj⟩

/-- **C51.** `search_features_2d`: the points of `search_point_ids`; the stored edges with both end points among them; and the sorted
cells that have one of these edges or (with `cells_by_points`) a stored edge through one of the points found. -/
theorem C51_search_features_2d (hF : IsNew m extractAll x F) (h : ValidMesh m) (h2 : m.ndim = 2) (cbp : Bool) (a : At)
    (filter : List ℝ → Bool) (ids : List Nat) (hids : F.searchPointIds go a filter = .ok ids) :
    ∃ cellIds fs, F.searchFeatures2d go cbp a filter = .ok (ids, cellIds, fs) ∧
      ListsByKey edgeKeyLe F.edges (fun key _ => key.1 ∈ ids ∧ key.2 ∈ ids) fs ∧
      cellIds.Pairwise (· < ·) ∧ ∀ c, c ∈ cellIds ↔ ∃ key f e, F.edges.get key = some f ∧ HasEdge m key c e ∧
        ((key.1 ∈ ids ∧ key.2 ∈ ids) ∨ (cbp = true ∧ ∃ p ∈ f.points, p ∈ ids)) := by
  obtain ⟨all, e1, hg⟩ := extractAll2dEdges_spec h h2
  have hall := hF.all2d h2
  rw [e1, Res.ok.injEq] at hall
  have hmem : ∀ key, key ∈ collectKeys F.pointToEdges (fun k => ids.contains k.1 && ids.contains k.2) ids ↔
      ∃ f, F.edges.get key = some f ∧ key.1 ∈ ids ∧ key.2 ∈ ids := by
    intro key
    rw [mem_collectKeys]
    simp only [hF.pointToEdges, Bool.and_eq_true, List.contains_iff_mem]
    constructor
    · rintro ⟨⟨p, hp, f, hf, _⟩, h1, h2⟩; exact ⟨f, hf, h1, h2⟩
    · rintro ⟨f, hf, h1, h2⟩
      refine ⟨⟨key.1, h1, f, hf, ?_⟩, h1, h2⟩
      rw [hF.edges] at hf
      exact (edge_key_points h hF.extracted hf).2.1
  obtain ⟨s1, s2⟩ := sortedKeys edgeKeyLe _ (List.nodup_dedup _ : (collectKeys F.pointToEdges (fun k => ids.contains k.1 && ids.contains k.2) ids).Nodup)
  obtain ⟨fs, g1, g2⟩ := mapM_lookup F.edges ((collectKeys F.pointToEdges (fun k => ids.contains k.1 && ids.contains k.2) ids).insertionSort edgeKeyLe) (fun k hk => by
    obtain ⟨f, hf, _⟩ := (hmem k).1 ((s2 k).1 hk)
    rw [hf]; rfl)
  unfold Features.searchFeatures2d
  rw [hF.mesh, if_neg (by omega), hids, Res.bind_ok]
  dsimp only
  rw [g1, Res.bind_ok]
  obtain ⟨t1, t2⟩ := sortedDedup (ids.flatMap fun p => (((F.pointToEdges.get p).getD []).filter fun k => cbp || (ids.contains k.1 && ids.contains k.2)).flatMap fun k =>
      ((F.all2dEdges.get k).getD []).map (·.1))
  refine ⟨_, fs, rfl, ⟨_, s1, g2, fun k => (s2 k).trans (hmem k)⟩, t1, ?_⟩
  intro c
  rw [t2]
  simp only [List.mem_flatMap, List.mem_filter, List.mem_map, hF.pointToEdges, Bool.or_eq_true, Bool.and_eq_true, List.contains_iff_mem, ← hall]
  have hcell : ∀ k c e, (c, e) ∈ (all.get k).getD [] ↔ HasEdge m k c e := by
    intro k c e
    cases hget : all.get k with
    | none => simpa using (hg.none k).1 hget c e
    | some l => exact hg.mem k l hget c e
  constructor
  · rintro ⟨p, hp, k, ⟨⟨f, hf, hpf⟩, hacc⟩, ⟨c', e⟩, hce, rfl⟩
    refine ⟨k, f, e, hf, (hcell _ _ _).1 hce, ?_⟩
    rcases hacc with hc | hc
    · exact Or.inr ⟨hc, p, hpf, hp⟩
    · exact Or.inl hc
  · rintro ⟨k, f, e, hf, hce, hacc⟩
    rcases hacc with hc | ⟨hc, p, hpf, hp⟩
    · have hf' := hf
      rw [hF.edges] at hf'
      exact ⟨k.1, hc.1, k, ⟨⟨f, hf, (edge_key_points h hF.extracted hf').2.1⟩, Or.inr hc⟩, (c, e), (hcell _ _ _).2 hce, rfl⟩
    · exact ⟨p, hp, k, ⟨⟨f, hf, hpf⟩, Or.inl hc⟩, (c, e), (hcell _ _ _).2 hce, rfl⟩

/-! ## Example: the unit square -/

theorem one_le_f64Max : (1 : ℝ) ≤ f64Max := by
  have h : (1 : ℝ) ≤ 2 ^ 1023 := one_le_pow₀ (by norm_num)
  unfold f64Max
  exact one_le_mul_of_one_le_of_one_le (by norm_num) h

/-- A unit square with one cell. -/
def square : Mesh ℝ where
  ndim := 2
  points := [⟨0, 0, [0, 0]⟩, ⟨1, 0, [1, 0]⟩, ⟨2, 0, [1, 1]⟩, ⟨3, 0, [0, 1]⟩]
  cells := [⟨0, 1, .qua4, [0, 1, 2, 3]⟩]
  markedEdges := [(-7, 0, 1)]
  markedFaces := []

theorem square_valid : ValidMesh square := by
  refine ⟨?_, ?_, ?_, ?_, ?_⟩
  · intro p hp; simp [square] at hp; rcases hp with rfl | rfl | rfl | rfl <;> rfl
  · intro i p hp
    have : i < 4 := by by_contra hc; rw [List.getElem?_eq_none (by simp [square]; omega)] at hp; simp at hp
    interval_cases i <;> simp [square] at hp <;> subst hp <;> rfl
  · intro i c hc
    have : i < 1 := by by_contra hc'; rw [List.getElem?_eq_none (by simp [square]; omega)] at hc; simp at hc
    interval_cases i
    simp [square] at hc; subst hc; rfl
  · intro c hc; simp [square] at hc; subst hc; rfl
  · intro c hc; simp [square] at hc; subst hc; decide

/-- The hypotheses of the theorems above are met: `Features::new` succeeds on the square, and there is an edge on `x = 1`. -/
theorem exists_features (o : Orders) (ho : o.Valid) : ∃ x F, Features.new o square true = .ok F ∧ IsNew square true x F ∧
    (∃ f, F.edges.get (1, 2) = some f) ∧ Hit square (.X 1) (fun _ => true) 1 ∧ Hit square (.X 1) (fun _ => true) 2 := by
  obtain ⟨x, hx, h1, _⟩ := C47_new square square_valid (Or.inl rfl) (by
    have hb : (1 : ℝ) ≤ f64Max := one_le_f64Max
    intro p hp v hv
    simp [square] at hp
    rcases hp with rfl | rfl | rfl | rfl <;> simp at hv
    · subst hv; constructor <;> linarith
    · rcases hv with rfl | rfl <;> constructor <;> linarith
    · subst hv; constructor <;> linarith
    · rcases hv with rfl | rfl <;> constructor <;> linarith) o ho true
  obtain ⟨_, hx2⟩ | ⟨h3, _⟩ := id hx
  swap
  · simp [square] at h3
  have he01 : HasEdge square (0, 1) 0 0 := ⟨_, 1, 0, rfl, rfl, by decide, rfl, rfl, by decide, by decide⟩
  have he12 : HasEdge square (1, 2) 0 1 := ⟨_, 2, 1, rfl, rfl, by decide, rfl, rfl, by decide, by decide⟩
  obtain ⟨f01, hf01⟩ := Option.isSome_iff_exists.1 ((hx2.accepted (0, 1)).2 ⟨⟨0, 0, he01⟩, Or.inl rfl⟩)
  obtain ⟨f12, hf12⟩ := Option.isSome_iff_exists.1 ((hx2.accepted (1, 2)).2 ⟨⟨0, 1, he12⟩, Or.inl rfl⟩)
  obtain ⟨_, a1, a2, _, a3, _⟩ := edge_key_points square_valid hx hf01
  obtain ⟨_, b1, b2, _, b3, _⟩ := edge_key_points square_valid hx hf12
  obtain ⟨F, hF, hN⟩ := h1 (by
    intro i hi
    change i < 2 at hi
    interval_cases i
    · exact ⟨0, 1, Or.inl (a3 _ a1), Or.inl (a3 _ a2), by simp [coordsOf, square]⟩
    · exact ⟨1, 2, Or.inl (b3 _ b1), Or.inl (b3 _ b2), by simp [coordsOf, square]⟩)
  have hit : ∀ q y, coordsOf square q = [1, y] → Hit square (.X 1) (fun _ => true) q := by
    intro q y hq
    refine ⟨⟨0, ⟨⟨[1, y], ⟨rfl, rfl⟩, by rw [hq]; simp [euclid]⟩, fun s _ => Real.sqrt_nonneg _⟩, by positivity⟩, rfl⟩
  exact ⟨x, F, hF, hN, ⟨f12, by rw [hN.edges]; exact hf12⟩, hit 1 0 rfl, hit 2 1 rfl⟩

/-- A flat mesh (a single horizontal rod) makes `Features::new` panic. -/
theorem C47_flat_mesh_panics (o : Orders) (ho : o.Valid) (extractAll : Bool) :
    Features.new o { ndim := 2, points := [⟨0, 0, [0, 0]⟩, ⟨1, 0, [1, 0]⟩], cells := [⟨0, 1, .lin2, [0, 1]⟩], markedEdges := [], markedFaces := [] }
      extractAll = .panic := by
  obtain ⟨x, hx, _, h2⟩ := C47_new { ndim := 2, points := [⟨0, 0, [0, 0]⟩, ⟨1, 0, [1, 0]⟩], cells := [⟨0, 1, .lin2, [0, 1]⟩], markedEdges := [], markedFaces := [] }
    (by
      refine ⟨?_, ?_, ?_, ?_, ?_⟩
      · intro p hp; simp at hp; rcases hp with rfl | rfl <;> rfl
      · intro i p hp
        have : i < 2 := by by_contra hc; rw [List.getElem?_eq_none (by simp; omega)] at hp; simp at hp
        interval_cases i <;> simp at hp <;> subst hp <;> rfl
      · intro i c hc
        have : i < 1 := by by_contra hc'; rw [List.getElem?_eq_none (by simp; omega)] at hc; simp at hc
        interval_cases i
        simp at hc; subst hc; rfl
      · intro c hc; simp at hc; subst hc; rfl
      · intro c hc; simp at hc; subst hc; decide) (Or.inl rfl) (by
    have hb : (1 : ℝ) ≤ f64Max := one_le_f64Max
    intro p hp v hv
    simp at hp
    rcases hp with rfl | rfl <;> simp at hv
    · subst hv; constructor <;> linarith
    · rcases hv with rfl | rfl <;> constructor <;> linarith) o ho extractAll
  apply h2
  intro hall
  obtain ⟨p, q, _, _, hlt⟩ := hall 1 (by decide)
  have hz : ∀ q, (coordsOf { ndim := 2, points := [⟨0, 0, [0, 0]⟩, ⟨1, 0, [1, 0]⟩], cells := [⟨0, 1, .lin2, [0, 1]⟩], markedEdges := [], markedFaces := [] } q : List ℝ).getD 1 0 = 0 := by
    intro q
    match q with
    | 0 => rfl
    | 1 => rfl
    | n + 2 => rfl
  rw [hz, hz] at hlt
  exact lt_irrefl _ hlt

end
end Gemlab.Props.Features
