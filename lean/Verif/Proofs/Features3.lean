import Verif.Proofs.Features2

/-! # Lemmas about the extraction of features (3): the loops over edges and faces -/
namespace Gemlab.Mesh
open Gemlab.Shapes Gemlab.Props.Mesh

variable {K : Type}

theorem nodes_ok (pts : List Nat) (node : Nat → Nat) (n : Nat) (h : ∀ i < n, node i < pts.length) :
    ∃ r, (List.range n).mapM (fun i => Res.idx pts (node i)) = .ok r ∧ r.length = n ∧ (∀ (i : Nat), i < n → r[i]? = pts[node i]?) ∧
      ∀ q ∈ r, q ∈ pts := by
  refine ⟨(List.range n).map (fun i => pts.getD (node i) 0), ?_, by simp, ?_, ?_⟩
  · apply Res.mapM_eq_ok_of
    intro i hi
    have := h i (List.mem_range.1 hi)
    rw [Res.idx_of_lt this, List.getD_eq_getElem?_getD, List.getElem?_eq_getElem this]; rfl
  · intro i hi
    have := h i hi
    simp [hi, List.getElem?_eq_getElem this]
  · intro q hq
    obtain ⟨i, hi, rfl⟩ := List.mem_map.1 hq
    have := h i (List.mem_range.1 hi)
    rw [List.getD_eq_getElem?_getD, List.getElem?_eq_getElem this]
    exact List.getElem_mem this

/-- Relation between an entry of the map of all edges and the extracted edge. -/
def EdgeRel (m : Mesh K) (key : EdgeKey) (sh : List (Nat × Nat)) (f : Feature) : Prop :=
  ∃ c e, sh[0]? = some (c, e) ∧ EdgeOf m c e f ∧ f.marker = edgeMarker m key

/-- Relation between an entry of the map of all faces and the extracted face. -/
def FaceRel (m : Mesh K) (key : FaceKey) (sh : List (Nat × Nat)) (f : Feature) : Prop :=
  ∃ c e, sh[0]? = some (c, e) ∧ FaceOf m c e f ∧ f.marker = faceMarker m key

section
variable [LinearOrder K]

theorem addEdge2d_spec {big low : K} {m : Mesh K} (h : ValidMesh m) {all : HMap EdgeKey (List (Nat × Nat))}
    (hg : IsGrouping all (HasEdge m)) {key : EdgeKey} {sh : List (Nat × Nat)} (hk : all.get key = some sh) (s : Extracted K)
    {pts : List Nat} (hp : PtsInv big low m pts (s.points, s.limits)) :
    ∃ s' f, addEdge2d m s key sh = .ok s' ∧ s'.edges = s.edges.insert key f ∧ s'.faces = s.faces ∧ EdgeRel m key sh f ∧
      PtsInv big low m (pts ++ f.points) (s'.points, s'.limits) := by
  obtain ⟨c, e, h0, hf, _⟩ := hg.head hk
  obtain ⟨cell, a, b, hc, hd, he, ha, hb, hle, _⟩ := hf.1
  have hmem := List.mem_of_getElem? hc
  obtain ⟨_, ek, hek, hn⟩ := edge_facts cell.kind (by omega)
  obtain ⟨r, r1, r2, r3, r4⟩ := nodes_ok cell.points (edgeNode cell.kind e) cell.kind.edgeNnode (fun i hi => by
    rw [h.nnode cell hmem]; exact edgeNode_lt _ _ _ he hi)
  obtain ⟨pm, p1, p2⟩ := hp.steps h.coords r (fun q hq => h.inRange cell hmem q (r4 q hq))
  refine ⟨{ s with points := pm.1, limits := pm.2, edges := s.edges.insert key ⟨ek, r, ((markedEdgesMap m).get key).getD 0⟩ },
    ⟨ek, r, ((markedEdgesMap m).get key).getD 0⟩, ?_, rfl, rfl, ⟨c, e, h0, ⟨cell, hc, hek, ?_, ?_⟩, markedEdgesMap_get m key hle⟩, p2⟩
  · unfold addEdge2d
    rw [Res.idx_eq_ok.2 h0, Res.bind_ok]
    dsimp only
    rw [Res.idx_eq_ok.2 hc, Res.bind_ok, hek]
    dsimp only [unwrap]
    rw [Res.bind_ok, r1, Res.bind_ok, p1, Res.bind_ok]
    rfl
  · rw [r2, hn]
  · intro i hi; rw [hn] at hi; exact r3 i hi

theorem addFaceEdge_spec (m : Mesh K) (fk : GeoKind) (fpts : List Nat) (mk : Int) (hfk : 0 < fk.nedge) (hl : fpts.length = fk.nnode)
    (edges : HMap EdgeKey Feature) (e : Nat) (he : e < fk.nedge) :
    ∃ edges' key, addFaceEdge m fk fpts edges e = .ok edges' ∧ HasFaceEdge ⟨fk, fpts, mk⟩ key e ∧
      (((edges.get key).isSome ∧ edges' = edges) ∨ (edges.get key = none ∧ ∃ f, edges' = edges.insert key f ∧
        FaceEdgeOf ⟨fk, fpts, mk⟩ e f ∧ f.marker = edgeMarker m key)) := by
  obtain ⟨a, b, ha, hb, hab⟩ := localEdgeKey_ok fk fpts e hl he
  have hkey := (sort2_eq_iff a b (sort2 a b)).1 rfl
  have hhas : HasFaceEdge ⟨fk, fpts, mk⟩ (sort2 a b) e := ⟨a, b, he, ha, hb, hkey⟩
  unfold addFaceEdge
  rw [hab, Res.bind_ok]
  cases hget : edges.get (sort2 a b) with
  | some f => exact ⟨edges, _, by simp, hhas, Or.inl ⟨by simp [hget], rfl⟩⟩
  | none =>
    obtain ⟨_, ek, hek, hn⟩ := edge_facts fk hfk
    obtain ⟨r, r1, r2, r3, r4⟩ := nodes_ok fpts (edgeNode fk e) fk.edgeNnode (fun i hi => by rw [hl]; exact edgeNode_lt _ _ _ he hi)
    refine ⟨edges.insert (sort2 a b) ⟨ek, r, ((markedEdgesMap m).get (sort2 a b)).getD 0⟩, _, ?_, hhas,
      Or.inr ⟨hget, _, rfl, ⟨he, hek, ?_, ?_⟩, markedEdgesMap_get m _ hkey.1⟩⟩
    · rw [if_neg (by simp), hek]
      dsimp only [unwrap]
      rw [Res.bind_ok, r1, Res.bind_ok]; rfl
    · rw [r2, hn]
    · intro i hi; rw [hn] at hi; exact r3 i hi

/-- The edges collected so far belong to the faces (of a list) and all edges of these faces are there. -/
structure EdgesInv (m : Mesh K) (P : Feature → Nat → Prop) (edges : HMap EdgeKey Feature) : Prop where
  src : ∀ key f, edges.get key = some f → ∃ face e, P face e ∧ HasFaceEdge face key e ∧ FaceEdgeOf face e f ∧ f.marker = edgeMarker m key
  all : ∀ face e key, P face e → HasFaceEdge face key e → (edges.get key).isSome
  wf : edges.WF

theorem hasFaceEdge_unique {face : Feature} {k k' : EdgeKey} {e : Nat} (h : HasFaceEdge face k e) (h' : HasFaceEdge face k' e) : k = k' := by
  obtain ⟨a, b, _, ha, hb, hk⟩ := h
  obtain ⟨a', b', _, ha', hb', hk'⟩ := h'
  rw [ha, Option.some.injEq] at ha'; rw [hb, Option.some.injEq] at hb'
  subst ha'; subst hb'
  rw [← (sort2_eq_iff a b k).2 hk, ← (sort2_eq_iff a b k').2 hk']

theorem faceEdges_spec (m : Mesh K) (face : Feature) (hfk : 0 < face.kind.nedge) (hl : face.points.length = face.kind.nnode)
    (P : Feature → Nat → Prop) (edges : HMap EdgeKey Feature) (H : EdgesInv m P edges) :
    ∃ edges', (List.range face.kind.nedge).foldlM (addFaceEdge m face.kind face.points) edges = .ok edges' ∧
      EdgesInv m (fun f e => P f e ∨ f = face ∧ e < face.kind.nedge) edges' := by
  obtain ⟨edges', h1, h2⟩ := Res.foldlM_range (addFaceEdge m face.kind face.points) face.kind.nedge edges
    (fun n s => EdgesInv m (fun f e => P f e ∨ f = face ∧ e < n) s) (by
      refine ⟨?_, ?_, H.wf⟩
      · intro key f hf
        obtain ⟨face', e, hp, hr⟩ := H.src key f hf
        exact ⟨face', e, Or.inl hp, hr⟩
      · intro face' e key hp hk
        rcases hp with hp | ⟨_, hp⟩
        · exact H.all face' e key hp hk
        · omega) (by
      intro e s he hs
      obtain ⟨s', key, a1, a2, a3⟩ := addFaceEdge_spec m face.kind face.points face.marker hfk hl s e he
      refine ⟨s', a1, ?_⟩
      rcases a3 with ⟨hsome, rfl⟩ | ⟨hnone, f, rfl, hfe, hmk⟩
      · refine ⟨?_, ?_, hs.wf⟩
        · intro key' f hf
          obtain ⟨face', e', hp, hr⟩ := hs.src key' f hf
          exact ⟨face', e', hp.imp id (fun h => ⟨h.1, by omega⟩), hr⟩
        · intro face' e' key' hp hk
          by_cases hq : face' = face ∧ e' = e
          · obtain ⟨rfl, rfl⟩ := hq
            rw [hasFaceEdge_unique hk a2]; exact hsome
          · refine hs.all face' e' key' (hp.imp id (fun h => ⟨h.1, ?_⟩)) hk
            have : e' ≠ e := fun h' => hq ⟨h.1, h'⟩
            omega
      · refine ⟨?_, ?_, HMap.wf_insert _ _ _ hs.wf⟩
        · intro key' f' hf
          rw [HMap.get_insert] at hf
          split at hf
          · rename_i hk; subst hk
            simp only [Option.some.injEq] at hf; subst hf
            exact ⟨face, e, Or.inr ⟨rfl, by omega⟩, a2, hfe, hmk⟩
          · obtain ⟨face', e', hp, hr⟩ := hs.src key' f' hf
            exact ⟨face', e', hp.imp id (fun h => ⟨h.1, by omega⟩), hr⟩
        · intro face' e' key' hp hk
          rw [HMap.get_insert]
          split
          · rfl
          · rename_i hne
            by_cases hq : face' = face ∧ e' = e
            · obtain ⟨rfl, rfl⟩ := hq
              exact absurd (hasFaceEdge_unique hk a2) hne
            · refine hs.all face' e' key' (hp.imp id (fun h => ⟨h.1, ?_⟩)) hk
              have : e' ≠ e := fun h' => hq ⟨h.1, h'⟩
              omega)
  exact ⟨edges', h1, h2⟩

theorem addFace3d_spec {big low : K} {m : Mesh K} (h : ValidMesh m) {all : HMap FaceKey (List (Nat × Nat))}
    (hg : IsGrouping all (HasFace m)) {key : FaceKey} {sh : List (Nat × Nat)} (hk : all.get key = some sh) (s : Extracted K)
    {pts : List Nat} (hp : PtsInv big low m pts (s.points, s.limits)) (P : Feature → Nat → Prop) (hE : EdgesInv m P s.edges) :
    ∃ s' f, addFace3d m s key sh = .ok s' ∧ s'.faces = s.faces.insert key f ∧ FaceRel m key sh f ∧
      PtsInv big low m (pts ++ f.points) (s'.points, s'.limits) ∧
      EdgesInv m (fun f' e => P f' e ∨ f' = f ∧ e < f.kind.nedge) s'.edges := by
  obtain ⟨c, e, h0, hf, _⟩ := hg.head hk
  obtain ⟨cell, p0, p1, p2, p3, hc, hd, he, _, _, _, _, hpw, _⟩ := hf.1
  have hmem := List.mem_of_getElem? hc
  obtain ⟨_, fk, hek, hn, _, hne⟩ := face_facts cell.kind (by omega)
  obtain ⟨r, r1, r2, r3, r4⟩ := nodes_ok cell.points (faceNode cell.kind e) cell.kind.faceNnode (fun i hi => by
    rw [h.nnode cell hmem]; exact faceNode_lt _ _ _ he hi)
  obtain ⟨pm, q1, q2⟩ := hp.steps h.coords r (fun q hq => h.inRange cell hmem q (r4 q hq))
  obtain ⟨edges', e1, e2⟩ := faceEdges_spec m ⟨fk, r, ((markedFacesMap m).get key).getD 0⟩ hne (by show r.length = _; rw [r2, hn]) P s.edges hE
  refine ⟨{ points := pm.1, limits := pm.2, edges := edges', faces := s.faces.insert key ⟨fk, r, ((markedFacesMap m).get key).getD 0⟩ },
    ⟨fk, r, ((markedFacesMap m).get key).getD 0⟩, ?_, rfl, ⟨c, e, h0, ⟨cell, hc, hek, ?_, ?_⟩, markedFacesMap_get m key hpw⟩, q2, e2⟩
  · unfold addFace3d
    rw [Res.idx_eq_ok.2 h0, Res.bind_ok]
    dsimp only
    rw [Res.idx_eq_ok.2 hc, Res.bind_ok, hek]
    dsimp only [unwrap]
    rw [Res.bind_ok, r1, Res.bind_ok, q1, Res.bind_ok]
    dsimp only at e1
    rw [e1]
    rfl
  · rw [r2, hn]
  · intro i hi; rw [hn] at hi; exact r3 i hi

theorem keys_ne_of_split {Key V : Type} {L pre suf : List (Key × V)} {a : Key × V} (hnd : (L.map (·.1)).Nodup)
    (hs : L = pre ++ a :: suf) : ∀ e ∈ pre, e.1 ≠ a.1 := by
  intro e he
  rw [hs, List.map_append, List.nodup_append] at hnd
  exact hnd.2.2 _ (List.mem_map_of_mem he) _ (by simp)

theorem extractFeatures2d_spec {big low : K} {m : Mesh K} (h : ValidMesh m) (h2 : m.ndim = 2)
    {all : HMap EdgeKey (List (Nat × Nat))} (hg : IsGrouping all (HasEdge m))
    {iter : List (EdgeKey × List (Nat × Nat)) → List (EdgeKey × List (Nat × Nat))} (hi : IterOrder iter) (extractAll : Bool) :
    ∃ x pts, extractFeatures2d iter big low m all extractAll = .ok x ∧
      MainInv (EdgeRel m) ((iter all).filter fun e => extractAll || e.2.length == 1) x.edges pts ∧
      PtsInv big low m pts (x.points, x.limits) ∧ x.faces = [] := by
  have hnd : ((iter all).map (·.1)).Nodup := ((hi all).map _).nodup_iff.2 hg.wf
  obtain ⟨x, e1, pts, e2, e3, e4⟩ := Res.foldlM_list (fun (s : Extracted K) (e : EdgeKey × List (Nat × Nat)) =>
      if extractAll || e.2.length == 1 then addEdge2d m s e.1 e.2 else pure s) (iter all)
    { points := [], edges := [], faces := [], limits := (List.replicate m.ndim big, List.replicate m.ndim low) }
    (fun pre s => ∃ pts, MainInv (EdgeRel m) (pre.filter fun e => extractAll || e.2.length == 1) s.edges pts ∧
      PtsInv big low m pts (s.points, s.limits) ∧ s.faces = []) ⟨[], MainInv.init _, PtsInv.init _ _ _, rfl⟩ (by
    rintro pre a s ha ⟨suf, hs⟩ ⟨pts, i1, i2, i3⟩
    by_cases hacc : (extractAll || a.2.length == 1) = true
    · have hget : all.get a.1 = some a.2 := HMap.get_of_mem hg.wf (hi.mem.1 ha)
      obtain ⟨s', f, a1, a2, a3, a4, a5⟩ := addEdge2d_spec h hg hget s i2
      refine ⟨s', by rw [if_pos hacc]; exact a1, pts ++ f.points, ?_, a5, a3.trans i3⟩
      rw [List.filter_append, a2]
      have : List.filter (fun e => extractAll || e.2.length == 1) [a] = [a] := by
        simp only [List.filter_cons, List.filter_nil, hacc, if_true]
      rw [this]
      exact i1.step (fun e he => keys_ne_of_split hnd hs e (List.mem_of_mem_filter he)) a4
    · refine ⟨s, by rw [if_neg hacc]; rfl, pts, ?_, i2, i3⟩
      rw [List.filter_append]
      have : List.filter (fun e => extractAll || e.2.length == 1) [a] = [] := by
        simp only [List.filter_cons, List.filter_nil, hacc]; rfl
      rw [this, List.append_nil]; exact i1)
  refine ⟨x, pts, ?_, e2, e3, e4⟩
  unfold extractFeatures2d
  rw [if_neg (by simpa using h2)]
  exact e1

/-- The order of face keys is a linear order. -/
theorem faceKeyLe_total (a b : FaceKey) : faceKeyLe a b ∨ faceKeyLe b a := by unfold faceKeyLe; omega
theorem faceKeyLe_trans (a b c : FaceKey) (h : faceKeyLe a b) (h' : faceKeyLe b c) : faceKeyLe a c := by unfold faceKeyLe at *; omega
theorem faceKeyLe_antisymm (a b : FaceKey) (h : faceKeyLe a b) (h' : faceKeyLe b a) : a = b := by
  obtain ⟨a1, a2, a3, a4⟩ := a; obtain ⟨b1, b2, b3, b4⟩ := b
  unfold faceKeyLe at *
  simp only [Prod.mk.injEq] at *; omega

instance : Std.Total faceKeyLe := ⟨faceKeyLe_total⟩
instance : IsTrans FaceKey faceKeyLe := ⟨faceKeyLe_trans⟩

theorem edgeKeyLe_total (a b : EdgeKey) : edgeKeyLe a b ∨ edgeKeyLe b a := by unfold edgeKeyLe; omega
theorem edgeKeyLe_trans (a b c : EdgeKey) (h : edgeKeyLe a b) (h' : edgeKeyLe b c) : edgeKeyLe a c := by unfold edgeKeyLe at *; omega
theorem edgeKeyLe_antisymm (a b : EdgeKey) (h : edgeKeyLe a b) (h' : edgeKeyLe b a) : a = b := by
  obtain ⟨a1, a2⟩ := a; obtain ⟨b1, b2⟩ := b
  unfold edgeKeyLe at *
  simp only [Prod.mk.injEq] at *; omega

instance : Std.Total edgeKeyLe := ⟨edgeKeyLe_total⟩
instance : IsTrans EdgeKey edgeKeyLe := ⟨edgeKeyLe_trans⟩

/-- The loop over the faces does not depend on the order of the hash map. -/
theorem sorted_keys_eq {iter iter' : List FaceKey → List FaceKey} (hi : IterOrder iter) (hi' : IterOrder iter') (l : List FaceKey) :
    (iter l).insertionSort faceKeyLe = (iter' l).insertionSort faceKeyLe :=
  List.Perm.eq_of_pairwise (le := faceKeyLe) (fun a b _ _ h h' => faceKeyLe_antisymm a b h h') (List.pairwise_insertionSort _ _)
    (List.pairwise_insertionSort _ _)
    ((List.perm_insertionSort _ _).trans (((hi l).trans (hi' l).symm).trans (List.perm_insertionSort _ _).symm))

theorem extractFeatures3d_spec {big low : K} {m : Mesh K} (h : ValidMesh m) (h3 : m.ndim = 3)
    {all : HMap FaceKey (List (Nat × Nat))} (hg : IsGrouping all (HasFace m))
    {iter : List FaceKey → List FaceKey} (hi : IterOrder iter) (extractAll : Bool) :
    ∃ x pts L, extractFeatures3d iter big low m all extractAll = .ok x ∧
      (∀ key sh, (key, sh) ∈ L ↔ all.get key = some sh ∧ (extractAll = true ∨ sh.length = 1)) ∧
      MainInv (FaceRel m) L x.faces pts ∧ PtsInv big low m pts (x.points, x.limits) ∧
      EdgesInv m (fun f e => (∃ key, x.faces.get key = some f) ∧ e < f.kind.nedge) x.edges := by
  set ks := (iter (all.map (·.1))).insertionSort faceKeyLe with hks
  have hperm : ks.Perm (all.map (·.1)) := (List.perm_insertionSort _ _).trans (hi _)
  have hnd : ks.Nodup := hperm.nodup_iff.2 hg.wf
  let ent : FaceKey → List (FaceKey × List (Nat × Nat)) := fun key =>
    match all.get key with
    | some sh => if extractAll || sh.length == 1 then [(key, sh)] else []
    | none => []
  obtain ⟨x, e1, pts, e2, e3, e4⟩ := Res.foldlM_list (fun (s : Extracted K) (key : FaceKey) => do
      let shared ← unwrap (all.get key)
      if extractAll || shared.length == 1 then addFace3d m s key shared else pure s) ks
    { points := [], edges := [], faces := [], limits := (List.replicate m.ndim big, List.replicate m.ndim low) }
    (fun pre s => ∃ pts, MainInv (FaceRel m) (pre.flatMap ent) s.faces pts ∧ PtsInv big low m pts (s.points, s.limits) ∧
      EdgesInv m (fun f e => (∃ key, s.faces.get key = some f) ∧ e < f.kind.nedge) s.edges)
    ⟨[], MainInv.init _, PtsInv.init _ _ _, ⟨by simp, by simp, HMap.wf_nil⟩⟩ (by
    rintro pre key s ha ⟨suf, hs⟩ ⟨pts, i1, i2, i3⟩
    have hin : key ∈ all.map (·.1) := hperm.mem_iff.1 ha
    obtain ⟨⟨k', sh⟩, hm, hk'⟩ := List.mem_map.1 hin
    simp only at hk'; subst hk'
    have hget : all.get k' = some sh := HMap.get_of_mem hg.wf hm
    rw [hget]
    dsimp only [unwrap]
    rw [Res.bind_ok]
    by_cases hacc : (extractAll || sh.length == 1) = true
    · obtain ⟨s', f, a1, a2, a3, a4, a5⟩ := addFace3d_spec h hg hget s i2 _ i3
      refine ⟨s', by rw [if_pos hacc]; exact a1, pts ++ f.points, ?_, a4, ?_⟩
      · rw [List.flatMap_append, a2]
        have : [k'].flatMap ent = [(k', sh)] := by
          simp only [List.flatMap_cons, List.flatMap_nil, List.append_nil, ent, hget, hacc, if_true]
        rw [this]
        refine i1.step ?_ a3
        intro e he hek
        obtain ⟨k0, hk0, hke⟩ := List.mem_flatMap.1 he
        simp only [ent] at hke
        have : e.1 = k0 := by
          split at hke
          · split at hke
            · simp only [List.mem_singleton] at hke; rw [hke]
            · simp at hke
          · simp at hke
        rw [this] at hek; subst hek
        rw [hs, List.nodup_append] at hnd
        exact hnd.2.2 k0 hk0 k0 (by simp) rfl
      · have hnone : s.faces.get k' = none := by
          cases hh : s.faces.get k' with
          | none => rfl
          | some f' =>
            exfalso
            obtain ⟨sh', hmm, _⟩ := i1.rel k' f' hh
            obtain ⟨k0, hk0, hke⟩ := List.mem_flatMap.1 hmm
            simp only [ent] at hke
            have : k' = k0 := by
              split at hke
              · split at hke
                · simp only [List.mem_singleton, Prod.mk.injEq] at hke; exact hke.1
                · simp at hke
              · simp at hke
            subst this
            rw [hs, List.nodup_append] at hnd
            exact hnd.2.2 k' hk0 k' (by simp) rfl
        refine ⟨?_, ?_, a5.wf⟩
        · intro ek fe hfe
          obtain ⟨face, e, hp, hr⟩ := a5.src ek fe hfe
          refine ⟨face, e, ?_, hr⟩
          rw [a2]
          rcases hp with ⟨⟨key, hkey⟩, he⟩ | ⟨rfl, he⟩
          · refine ⟨⟨key, ?_⟩, he⟩
            rw [HMap.get_insert, if_neg (fun hk => by subst hk; rw [hnone] at hkey; simp at hkey)]; exact hkey
          · exact ⟨⟨k', by rw [HMap.get_insert, if_pos rfl]⟩, he⟩
        · rintro face e ek ⟨⟨key, hkey⟩, he⟩ hr
          refine a5.all face e ek ?_ hr
          rw [a2, HMap.get_insert] at hkey
          split at hkey
          · simp only [Option.some.injEq] at hkey; exact Or.inr ⟨hkey.symm, hkey ▸ he⟩
          · exact Or.inl ⟨⟨key, hkey⟩, he⟩
    · refine ⟨s, by rw [if_neg hacc]; rfl, pts, ?_, i2, i3⟩
      rw [List.flatMap_append]
      have : [k'].flatMap ent = [] := by
        simp only [List.flatMap_cons, List.flatMap_nil, List.append_nil, ent, hget]
        rw [if_neg hacc]
      rw [this, List.append_nil]; exact i1)
  refine ⟨x, pts, ks.flatMap ent, ?_, ?_, e2, e3, e4⟩
  · unfold extractFeatures3d
    rw [if_neg (by simpa using h3)]
    exact e1
  · intro key sh
    rw [List.mem_flatMap]
    constructor
    · rintro ⟨k, hk, hm⟩
      simp only [ent] at hm
      split at hm
      · rename_i sh' hsh
        split at hm
        · rename_i hacc
          simp only [List.mem_singleton, Prod.mk.injEq] at hm
          obtain ⟨rfl, rfl⟩ := hm
          refine ⟨hsh, ?_⟩
          simpa using hacc
        · simp at hm
      · simp at hm
    · rintro ⟨hget, hacc⟩
      refine ⟨key, hperm.mem_iff.2 ?_, ?_⟩
      · exact List.mem_map.2 ⟨(key, sh), HMap.mem_of_get hget, rfl⟩
      · simp only [ent, hget]
        rw [if_pos (by simpa using hacc)]; simp

end

end Gemlab.Mesh
