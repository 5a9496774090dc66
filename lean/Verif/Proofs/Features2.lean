import Verif.Proofs.Features
import Verif.Spec.Features

/-! # Lemmas about the extraction of features (2) -/
namespace Gemlab.Mesh
open Gemlab.Shapes Gemlab.Props.Mesh

variable {K : Type}

theorem ValidMesh.of_check {m : Mesh K} (h : checkIdsAndKind m = .ok ()) (hc : ∀ p ∈ m.points, p.coords.length = m.ndim) :
    ValidMesh m := by
  obtain ⟨h1, h2⟩ := (C19_check_ids_and_kind m).1 h
  refine ⟨hc, h1, fun i c hi => (h2 i c hi).1, ?_, ?_⟩
  · intro c hc; obtain ⟨i, hi⟩ := List.mem_iff_getElem?.1 hc; exact (h2 i c hi).2.1
  · intro c hc; obtain ⟨i, hi⟩ := List.mem_iff_getElem?.1 hc; exact (h2 i c hi).2.2

theorem hasEdge_iff {m : Mesh K} (h : ValidMesh m) (key : EdgeKey) (c e : Nat) :
    HasKey 2 GeoKind.nedge (fun c e => localEdgeKey c.kind c.points e) m.cells key c e ↔ HasEdge m key c e := by
  unfold HasKey HasEdge
  constructor
  · rintro ⟨cell, hc, hd, he, hk⟩
    obtain ⟨a, b, ha, hb, hab⟩ := localEdgeKey_ok cell.kind cell.points e (h.nnode _ (List.mem_of_getElem? hc)) he
    dsimp only at hk
    rw [hab, Res.ok.injEq, sort2_eq_iff] at hk
    exact ⟨cell, a, b, hc, hd, he, ha, hb, hk⟩
  · rintro ⟨cell, a, b, hc, hd, he, ha, hb, hk⟩
    obtain ⟨a', b', ha', hb', hab⟩ := localEdgeKey_ok cell.kind cell.points e (h.nnode _ (List.mem_of_getElem? hc)) he
    rw [ha, Option.some.injEq] at ha'; rw [hb, Option.some.injEq] at hb'
    subst ha'; subst hb'
    refine ⟨cell, hc, hd, he, ?_⟩
    dsimp only
    rw [hab, Res.ok.injEq, sort2_eq_iff]; exact hk

theorem hasFace_iff {m : Mesh K} (h : ValidMesh m) (key : FaceKey) (c f : Nat) :
    HasKey 3 GeoKind.nface (fun c e => localFaceKey c.kind c.points e) m.cells key c f ↔ HasFace m key c f := by
  unfold HasKey HasFace
  constructor
  · rintro ⟨cell, hc, hd, he, hk⟩
    obtain ⟨p0, p1, p2, p3, h0, h1, h2, h3, hab⟩ := localFaceKey_ok cell.kind cell.points f (h.nnode _ (List.mem_of_getElem? hc)) he
    dsimp only at hk
    rw [hab, Res.ok.injEq, sort4_eq_iff] at hk
    exact ⟨cell, p0, p1, p2, p3, hc, hd, he, h0, h1, h2, h3, hk⟩
  · rintro ⟨cell, p0, p1, p2, p3, hc, hd, he, h0, h1, h2, h3, hk⟩
    obtain ⟨q0, q1, q2, q3, g0, g1, g2, g3, hab⟩ := localFaceKey_ok cell.kind cell.points f (h.nnode _ (List.mem_of_getElem? hc)) he
    rw [h0, Option.some.injEq] at g0; rw [h1, Option.some.injEq] at g1; rw [h2, Option.some.injEq] at g2
    subst g0; subst g1; subst g2
    have : p3 = q3 := by
      split at h3
      · rename_i h4; rw [if_pos h4, h3, Option.some.injEq] at g3; exact g3
      · rename_i h4; rw [if_neg h4] at g3; rw [h3, g3]
    subst this
    refine ⟨cell, hc, hd, he, ?_⟩
    dsimp only
    rw [hab, Res.ok.injEq, sort4_eq_iff]; exact hk

theorem IsGrouping.congr {Key : Type} [DecidableEq Key] {all : HMap Key (List (Nat × Nat))} {P Q : Key → Nat → Nat → Prop}
    (h : IsGrouping all P) (hPQ : ∀ k c e, P k c e ↔ Q k c e) : IsGrouping all Q :=
  ⟨h.wf, fun k => (h.none k).trans (by simp only [hPQ]), h.ne, h.sorted, fun k l hl c e => (h.mem k l hl c e).trans (hPQ k c e)⟩

theorem extractAll2dEdges_spec {m : Mesh K} (h : ValidMesh m) (h2 : m.ndim = 2) :
    ∃ all, extractAll2dEdges m = .ok all ∧ IsGrouping all (HasEdge m) := by
  obtain ⟨all, e1, e2⟩ := groupCells_spec 2 GeoKind.nedge (fun c e => localEdgeKey c.kind c.points e) m.cells h.cellIds (by
    intro c hc _ e he
    obtain ⟨a, b, _, _, hab⟩ := localEdgeKey_ok c.kind c.points e (h.nnode c hc) he
    exact ⟨_, hab⟩)
  refine ⟨all, ?_, e2.congr (hasEdge_iff h)⟩
  unfold extractAll2dEdges
  rw [if_neg (by simpa using h2)]
  exact e1

theorem extractAllFaces_spec {m : Mesh K} (h : ValidMesh m) (h3 : m.ndim = 3) :
    ∃ all, extractAllFaces m = .ok all ∧ IsGrouping all (HasFace m) := by
  obtain ⟨all, e1, e2⟩ := groupCells_spec 3 GeoKind.nface (fun c e => localFaceKey c.kind c.points e) m.cells h.cellIds (by
    intro c hc _ e he
    obtain ⟨a, b, _, _, _, _, _, _, hab⟩ := localFaceKey_ok c.kind c.points e (h.nnode c hc) he
    exact ⟨_, hab⟩)
  refine ⟨all, ?_, e2.congr (hasFace_iff h)⟩
  unfold extractAllFaces
  rw [if_neg (by simpa using h3)]
  exact e1

theorem IsGrouping.head {Key : Type} [DecidableEq Key] {all : HMap Key (List (Nat × Nat))} {P : Key → Nat → Nat → Prop}
    (h : IsGrouping all P) {key : Key} {l : List (Nat × Nat)} (hl : all.get key = some l) :
    ∃ c e, l[0]? = some (c, e) ∧ IsFirst (P key) c e ∧ (l.length = 1 ↔ ExactlyOne (P key)) := by
  have hs := h.sorted key l hl
  have hm := h.mem key l hl
  have hne := h.ne key l hl
  match l, hne with
  | (c, e) :: t, _ =>
    have hf : IsFirst (P key) c e := by
      refine ⟨(hm c e).1 (by simp), ?_⟩
      intro c' e' hp
      rcases List.mem_cons.1 ((hm c' e').2 hp) with h | h
      · simp only [Prod.mk.injEq] at h; omega
      · rcases (List.pairwise_cons.1 hs).1 _ h with h | h
        · exact Or.inl h
        · exact Or.inr ⟨h.1, le_of_lt h.2⟩
    refine ⟨c, e, rfl, hf, ?_⟩
    constructor
    · intro h1
      have : t = [] := by simpa using h1
      subst this
      refine ⟨c, e, hf.1, ?_⟩
      intro c' e' hp
      have := (hm c' e').2 hp
      simpa using this
    · rintro ⟨c0, e0, h0, hu⟩
      have ht : t = [] := by
        apply List.eq_nil_iff_forall_not_mem.2
        rintro ⟨c', e'⟩ hx
        have hlt := (List.pairwise_cons.1 hs).1 _ hx
        have a1 := hu c e hf.1
        have a2 := hu c' e' ((hm c' e').1 (by simp [hx]))
        unfold lexLt at hlt
        simp only at hlt
        omega
      simp [ht]

/-! ## Markers -/

theorem foldl_insert_get {Key V E : Type} [DecidableEq Key] (kf : E → Key) (vf : E → V) (L : List E) (h0 : HMap Key V) (key : Key) :
    (L.foldl (fun h e => h.insert (kf e) (vf e)) h0).get key =
      (((L.filter fun e => kf e = key).getLast?).map vf).or (h0.get key) := by
  induction L generalizing h0 with
  | nil => simp
  | cons e L ih =>
    rw [List.foldl_cons, ih, HMap.get_insert]
    by_cases h : kf e = key
    · subst h
      rw [List.filter_cons_of_pos (by simp), if_pos rfl, List.getLast?_cons]
      cases hL : (L.filter fun e' => kf e' = kf e).getLast? <;> simp
    · rw [List.filter_cons_of_neg (by simpa using h), if_neg (fun h' => h h'.symm)]

theorem markedEdgesMap_get (m : Mesh K) (key : EdgeKey) (hk : key.1 ≤ key.2) :
    ((markedEdgesMap m).get key).getD 0 = edgeMarker m key := by
  unfold markedEdgesMap edgeMarker
  rw [foldl_insert_get (fun (e : Int × Nat × Nat) => sort2 e.2.1 e.2.2) (fun e => e.1)]
  simp only [HMap.get_nil, Option.or_none]
  congr 3
  apply List.filter_congr
  intro e _
  simp only [decide_eq_decide]
  rw [sort2_eq_iff]
  constructor
  · rintro ⟨_, h | h⟩
    · exact Or.inl h.symm
    · exact Or.inr h.symm
  · rintro (h | h)
    · exact ⟨hk, Or.inl h.symm⟩
    · exact ⟨hk, Or.inr h.symm⟩

theorem markedFacesMap_get (m : Mesh K) (key : FaceKey) (hk : key.toList.Pairwise (· ≤ ·)) :
    ((markedFacesMap m).get key).getD 0 = faceMarker m key := by
  unfold markedFacesMap faceMarker
  rw [foldl_insert_get (fun (e : Int × Nat × Nat × Nat × Nat) => sort4 e.2.1 e.2.2.1 e.2.2.2.1 e.2.2.2.2) (fun e => e.1)]
  simp only [HMap.get_nil, Option.or_none]
  congr 3
  apply List.filter_congr
  intro e _
  simp only [decide_eq_decide]
  rw [sort4_eq_iff]
  exact ⟨fun h => h.2.symm, fun h => ⟨hk, h.symm⟩⟩

/-! ## Points and limits -/

section
variable [LinearOrder K]

theorem _root_.Gemlab.Props.Mesh.IsLimits.congr {big low : K} {ndim : Nat} {xs ys : List (List K)} {mm : List K × List K} (H : IsLimits big low ndim xs mm)
    (h : ∀ x, x ∈ xs ↔ x ∈ ys) : IsLimits big low ndim ys mm := by
  refine ⟨H.lenMin, H.lenMax, ?_, ?_, ?_, ?_⟩
  · intro i a ha; exact ⟨(H.minLe i a ha).1, fun x hx => (H.minLe i a ha).2 x ((h x).2 hx)⟩
  · intro i a ha
    rcases H.minMem i a ha with h' | ⟨x, hx, h'⟩
    · exact Or.inl h'
    · exact Or.inr ⟨x, (h x).1 hx, h'⟩
  · intro i a ha; exact ⟨(H.maxGe i a ha).1, fun x hx => (H.maxGe i a ha).2 x ((h x).2 hx)⟩
  · intro i a ha
    rcases H.maxMem i a ha with h' | ⟨x, hx, h'⟩
    · exact Or.inl h'
    · exact Or.inr ⟨x, (h x).1 hx, h'⟩

/-- A set of points together with their limits. -/
structure PtsInv (big low : K) (m : Mesh K) (pts : List Nat) (s : List Nat × (List K × List K)) : Prop where
  mem : ∀ q, q ∈ s.1 ↔ q ∈ pts
  nodup : s.1.Nodup
  range : ∀ q ∈ pts, q < m.points.length
  lim : IsLimits big low m.ndim (pts.map (coordsOf m)) s.2

theorem PtsInv.init (big low : K) (m : Mesh K) :
    PtsInv big low m [] ([], (List.replicate m.ndim big, List.replicate m.ndim low)) :=
  ⟨by simp, by simp, by simp, IsLimits.init big low m.ndim⟩

theorem coordsOf_length {m : Mesh K} (h : ∀ p ∈ m.points, p.coords.length = m.ndim) {q : Nat} (hq : q < m.points.length) :
    (coordsOf m q).length = m.ndim := by
  unfold coordsOf
  rw [List.getElem?_eq_getElem hq]
  exact h _ (List.getElem_mem hq)

theorem PtsInv.step {big low : K} {m : Mesh K} (hc : ∀ p ∈ m.points, p.coords.length = m.ndim) {pts : List Nat}
    {s : List Nat × (List K × List K)} (H : PtsInv big low m pts s) (q : Nat) (hq : q < m.points.length) :
    ∃ s', addPoint m s q = .ok s' ∧ PtsInv big low m (pts ++ [q]) s' := by
  have e : coordsOf m q = m.points[q].coords := by unfold coordsOf; rw [List.getElem?_eq_getElem hq]; rfl
  obtain ⟨r, h1, h2⟩ := H.lim.snoc (coordsOf m q) (coordsOf_length hc hq)
  refine ⟨(HSet.insert s.1 q, r), ?_, ?_, HSet.nodup_insert _ _ H.nodup, ?_, ?_⟩
  · unfold addPoint
    rw [Res.idx_of_lt hq, Res.bind_ok, ← e, h1]; rfl
  · intro q'
    rw [HSet.mem_insert, H.mem]; simp
  · intro q' hq'
    rcases List.mem_append.1 hq' with h | h
    · exact H.range q' h
    · simp only [List.mem_singleton] at h; subst h; exact hq
  · simpa using h2

theorem PtsInv.steps {big low : K} {m : Mesh K} (hc : ∀ p ∈ m.points, p.coords.length = m.ndim) {pts : List Nat}
    {s : List Nat × (List K × List K)} (H : PtsInv big low m pts s) (qs : List Nat) (hq : ∀ q ∈ qs, q < m.points.length) :
    ∃ s', qs.foldlM (addPoint m) s = .ok s' ∧ PtsInv big low m (pts ++ qs) s' := by
  obtain ⟨s', h1, h2⟩ := Res.foldlM_list (addPoint m) qs s (fun pre s => PtsInv big low m (pts ++ pre) s) (by simpa using H) (by
    intro pre a s ha _ hs
    obtain ⟨s', e1, e2⟩ := hs.step hc a (hq a ha)
    exact ⟨s', e1, by rw [← List.append_assoc]; exact e2⟩)
  exact ⟨s', h1, h2⟩

theorem PtsInv.congr {big low : K} {m : Mesh K} {pts pts' : List Nat} {s : List Nat × (List K × List K)}
    (H : PtsInv big low m pts s) (h : ∀ q, q ∈ pts ↔ q ∈ pts') : PtsInv big low m pts' s :=
  ⟨fun q => (H.mem q).trans (h q), H.nodup, fun q hq => H.range q ((h q).2 hq), H.lim.congr (by
    intro x; simp only [List.mem_map]
    constructor
    · rintro ⟨q, hq, rfl⟩; exact ⟨q, (h q).1 hq, rfl⟩
    · rintro ⟨q, hq, rfl⟩; exact ⟨q, (h q).2 hq, rfl⟩)⟩

theorem PtsInv.box {big low : K} {m : Mesh K} (hc : ∀ p ∈ m.points, p.coords.length = m.ndim)
    (hb : ∀ p ∈ m.points, ∀ v ∈ p.coords, low ≤ v ∧ v ≤ big) {pts : List Nat} {s : List Nat × (List K × List K)}
    (H : PtsInv big low m pts s) (hne : s.1 ≠ []) : IsBoundingBox m.ndim (s.1.map (coordsOf m)) s.2.1 s.2.2 := by
  have H' := (H.congr (pts' := s.1) (fun q => (H.mem q).symm))
  refine H'.lim.box (by simpa using hne) ?_ ?_
  · intro x hx; obtain ⟨q, hq, rfl⟩ := List.mem_map.1 hx; exact coordsOf_length hc (H'.range q hq)
  · intro x hx v hv
    obtain ⟨q, hq, rfl⟩ := List.mem_map.1 hx
    have hlt := H'.range q hq
    unfold coordsOf at hv
    rw [List.getElem?_eq_getElem hlt] at hv
    exact hb _ (List.getElem_mem hlt) v hv

end

/-! ## The map of features under construction -/

/-- The map contains exactly the entries of `pre`, each with a feature related to it; `pts` are the points of the features. -/
structure MainInv {Key : Type} [DecidableEq Key] (R : Key → List (Nat × Nat) → Feature → Prop)
    (pre : List (Key × List (Nat × Nat))) (mp : HMap Key Feature) (pts : List Nat) : Prop where
  rel : ∀ key f, mp.get key = some f → ∃ sh, (key, sh) ∈ pre ∧ R key sh f
  dom : ∀ e ∈ pre, (mp.get e.1).isSome
  pts : ∀ q, q ∈ pts ↔ ∃ key f, mp.get key = some f ∧ q ∈ f.points
  wf : mp.WF

theorem MainInv.init {Key : Type} [DecidableEq Key] (R : Key → List (Nat × Nat) → Feature → Prop) : MainInv R [] [] [] :=
  ⟨by simp, by simp, by simp, HMap.wf_nil⟩

theorem MainInv.step {Key : Type} [DecidableEq Key] {R : Key → List (Nat × Nat) → Feature → Prop}
    {pre : List (Key × List (Nat × Nat))} {mp : HMap Key Feature} {pts : List Nat} (H : MainInv R pre mp pts)
    {key : Key} {sh : List (Nat × Nat)} {f : Feature} (hnew : ∀ e ∈ pre, e.1 ≠ key) (hr : R key sh f) :
    MainInv R (pre ++ [(key, sh)]) (mp.insert key f) (pts ++ f.points) := by
  have hnone : mp.get key = none := by
    cases h : mp.get key with
    | none => rfl
    | some f' => obtain ⟨sh', hm, _⟩ := H.rel key f' h; exact absurd rfl (hnew _ hm)
  refine ⟨?_, ?_, ?_, HMap.wf_insert _ _ _ H.wf⟩
  · intro key' f' h
    rw [HMap.get_insert] at h
    split at h
    · rename_i hk; subst hk
      simp only [Option.some.injEq] at h; subst h
      exact ⟨sh, by simp, hr⟩
    · obtain ⟨sh', hm, hr'⟩ := H.rel key' f' h
      exact ⟨sh', by simp [hm], hr'⟩
  · intro e he
    rw [HMap.get_insert]
    split
    · rfl
    · rename_i hk
      rcases List.mem_append.1 he with h | h
      · exact H.dom e h
      · simp only [List.mem_singleton] at h; subst h; exact absurd rfl hk
  · intro q
    rw [List.mem_append, H.pts]
    constructor
    · rintro (⟨key', f', h, hq⟩ | hq)
      · refine ⟨key', f', ?_, hq⟩
        rw [HMap.get_insert, if_neg (fun hk => by subst hk; rw [hnone] at h; simp at h)]; exact h
      · exact ⟨key, f, by rw [HMap.get_insert, if_pos rfl], hq⟩
    · rintro ⟨key', f', h, hq⟩
      rw [HMap.get_insert] at h
      split at h
      · simp only [Option.some.injEq] at h; subst h; exact Or.inr hq
      · exact Or.inl ⟨key', f', h, hq⟩

end Gemlab.Mesh
