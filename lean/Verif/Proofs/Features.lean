import Verif.Model.Features
import Verif.Props.Mesh

/-! # Lemmas about the extraction of features -/
namespace Gemlab

section HMapPush
variable {K V : Type} [DecidableEq K]

theorem HMap.get_push (m : HMap K (List V)) (k k' : K) (v : V) :
    (m.push k v).get k' = if k' = k then some ((m.get k).getD [] ++ [v]) else m.get k' := by
  unfold HMap.push; rw [HMap.get_insert]

theorem HMap.wf_push (m : HMap K (List V)) (k : K) (v : V) (h : m.WF) : (m.push k v).WF := HMap.wf_insert _ _ _ h

/-- Values pushed under a key, in order. -/
def valsOf (L : List (K × V)) (k : K) : List V := (L.filter (fun e => e.1 = k)).map (·.2)

/-- Pushing a list of entries. -/
def pushAll (L : List (K × V)) (m : HMap K (List V)) : HMap K (List V) := L.foldl (fun m e => m.push e.1 e.2) m

theorem pushAll_wf (L : List (K × V)) (m : HMap K (List V)) (h : m.WF) : (pushAll L m).WF := by
  induction L generalizing m with
  | nil => exact h
  | cons e L ih => exact ih _ (HMap.wf_push _ _ _ h)

theorem pushAll_get (L : List (K × V)) (m : HMap K (List V)) (k : K) :
    (pushAll L m).get k = if valsOf L k = [] then m.get k else some ((m.get k).getD [] ++ valsOf L k) := by
  induction L generalizing m with
  | nil => simp [pushAll, valsOf]
  | cons e L ih =>
    have : pushAll (e :: L) m = pushAll L (m.push e.1 e.2) := rfl
    rw [this, ih, HMap.get_push]
    by_cases h : k = e.1
    · subst h
      have e1 : valsOf (e :: L) e.1 = e.2 :: valsOf L e.1 := by simp [valsOf]
      rw [e1]
      by_cases hv : valsOf L e.1 = []
      · rw [if_pos hv, if_pos rfl, if_neg (by simp), hv]
      · rw [if_neg hv, if_pos rfl, if_neg (by simp)]; simp
    · have h' : e.1 ≠ k := fun h' => h h'.symm
      have e1 : valsOf (e :: L) k = valsOf L k := by unfold valsOf; rw [List.filter_cons_of_neg (by simpa using h')]
      rw [e1, if_neg h]

theorem pushAll_nil_get (L : List (K × V)) (k : K) :
    (pushAll L []).get k = if valsOf L k = [] then none else some (valsOf L k) := by
  rw [pushAll_get]; simp

theorem mem_valsOf (L : List (K × V)) (k : K) (v : V) : v ∈ valsOf L k ↔ (k, v) ∈ L := by
  unfold valsOf
  simp only [List.mem_map, List.mem_filter, decide_eq_true_eq]
  constructor
  · rintro ⟨⟨a, b⟩, ⟨h1, h2⟩, h3⟩
    simp only at h2 h3; subst h2; subst h3; exact h1
  · intro h; exact ⟨(k, v), ⟨h, rfl⟩, rfl⟩

end HMapPush

theorem HSet.mem_insert {K : Type} [DecidableEq K] (s : List K) (x y : K) : y ∈ HSet.insert s x ↔ y ∈ s ∨ y = x := by
  unfold HSet.insert
  split
  · constructor
    · exact Or.inl
    · rintro (h | rfl)
      · exact h
      · assumption
  · simp

theorem HSet.nodup_insert {K : Type} [DecidableEq K] (s : List K) (x : K) (h : s.Nodup) : (HSet.insert s x).Nodup := by
  unfold HSet.insert
  split
  · exact h
  · rw [List.nodup_append]
    refine ⟨h, by simp, ?_⟩
    intro a ha b hb e
    simp only [List.mem_singleton] at hb
    subst e; subst hb; contradiction

namespace Mesh
open Gemlab.Shapes

/-- Lexicographic order on (cell, local entity). -/
def lexLt (a b : Nat × Nat) : Prop := a.1 < b.1 ∨ a.1 = b.1 ∧ a.2 < b.2

/-! ## Grouping the local entities of the cells by their keys -/

section Group
variable {Key : Type} [DecidableEq Key]

/-- Common shape of `extract_all_2d_edges` and `extract_all_faces`. -/
def groupCells (dim : Nat) (cnt : GeoKind → Nat) (keyf : Cell → Nat → Res Key) (cells : List Cell) :
    Res (HMap Key (List (Nat × Nat))) :=
  cells.foldlM (fun edges cell =>
    if cell.kind.ndim = dim then
      (List.range (cnt cell.kind)).foldlM (fun edges e => do
        let key ← keyf cell e
        pure (edges.push key (cell.id, e))) edges
    else pure edges) []

/-- Entity `e` of cell number `c` has this key. -/
def HasKey (dim : Nat) (cnt : GeoKind → Nat) (keyf : Cell → Nat → Res Key) (cells : List Cell) (key : Key) (c e : Nat) : Prop :=
  ∃ cell, cells[c]? = some cell ∧ cell.kind.ndim = dim ∧ e < cnt cell.kind ∧ keyf cell e = .ok key

/-- What the map of all entities contains. -/
structure IsGrouping (all : HMap Key (List (Nat × Nat))) (Has : Key → Nat → Nat → Prop) : Prop where
  wf : all.WF
  none : ∀ key, all.get key = none ↔ ∀ c e, ¬Has key c e
  ne : ∀ key l, all.get key = some l → l ≠ []
  sorted : ∀ key l, all.get key = some l → l.Pairwise lexLt
  mem : ∀ key l, all.get key = some l → ∀ c e, (c, e) ∈ l ↔ Has key c e

theorem groupCells_spec (dim : Nat) (cnt : GeoKind → Nat) (keyf : Cell → Nat → Res Key) (cells : List Cell)
    (hid : ∀ (i : Nat) (c : Cell), cells[i]? = some c → c.id = i)
    (hkey : ∀ c ∈ cells, c.kind.ndim = dim → ∀ e < cnt c.kind, ∃ k, keyf c e = .ok k) :
    ∃ all, groupCells dim cnt keyf cells = .ok all ∧ IsGrouping all (HasKey dim cnt keyf cells) := by
  classical
  let kp : Cell → Nat → List (Key × Nat × Nat) := fun c e => match keyf c e with | .ok k => [(k, (c.id, e))] | _ => []
  let entries : Cell → List (Key × Nat × Nat) := fun c =>
    if c.kind.ndim = dim then (List.range (cnt c.kind)).flatMap (kp c) else []
  have h1 : groupCells dim cnt keyf cells = .ok (pushAll (cells.flatMap entries) []) := by
    obtain ⟨s', e1, e2⟩ := Res.foldlM_list (fun (edges : HMap Key (List (Nat × Nat))) cell =>
      if cell.kind.ndim = dim then
        (List.range (cnt cell.kind)).foldlM (fun edges e => do
          let key ← keyf cell e
          pure (edges.push key (cell.id, e))) edges
      else pure edges) cells [] (fun pre s => s = pushAll (pre.flatMap entries) []) rfl (by
        intro pre c s hc _ hs
        by_cases hd : c.kind.ndim = dim
        · obtain ⟨s', e1, e2⟩ := Res.foldlM_range (fun (edges : HMap Key (List (Nat × Nat))) e => do
            let key ← keyf c e
            pure (edges.push key (c.id, e))) (cnt c.kind) s
            (fun n s' => s' = pushAll ((List.range n).flatMap (kp c)) s) rfl (by
              intro e s' he hs'
              obtain ⟨k, hk⟩ := hkey c hc hd e he
              refine ⟨_, by rw [hk]; rfl, ?_⟩
              rw [List.range_succ, List.flatMap_append, hs']
              simp [pushAll, List.foldl_append, kp, hk])
          refine ⟨s', by simp only [hd, if_true]; exact e1, ?_⟩
          rw [e2, hs, List.flatMap_append]
          simp [pushAll, List.foldl_append, entries, hd]
        · refine ⟨s, by simp only [hd, if_false]; rfl, ?_⟩
          rw [hs, List.flatMap_append]
          simp [pushAll, List.foldl_append, entries, hd])
    unfold groupCells
    rw [e1, e2]
  refine ⟨_, h1, ?_⟩
  have hmem : ∀ key c e, (key, (c, e)) ∈ cells.flatMap entries ↔ HasKey dim cnt keyf cells key c e := by
    intro key c e
    rw [List.mem_flatMap]
    constructor
    · rintro ⟨cell, hc, he⟩
      obtain ⟨i, hi⟩ := List.mem_iff_getElem?.1 hc
      simp only [entries] at he
      split at he
      · rename_i hd
        obtain ⟨e', he', hk⟩ := List.mem_flatMap.1 he
        simp only [kp] at hk
        split at hk
        · rename_i k hk'
          simp only [List.mem_singleton, Prod.mk.injEq] at hk
          obtain ⟨rfl, rfl, rfl⟩ := hk
          rw [hid i cell hi]
          exact ⟨cell, hi, hd, List.mem_range.1 he', hk'⟩
        · simp at hk
      · simp at he
    · rintro ⟨cell, hc, hd, he, hk⟩
      refine ⟨cell, List.mem_of_getElem? hc, ?_⟩
      simp only [entries, hd, if_true]
      rw [List.mem_flatMap]
      refine ⟨e, List.mem_range.2 he, ?_⟩
      simp [kp, hk, hid c cell hc]
  have hsort : (cells.flatMap entries).Pairwise (fun a b => lexLt a.2 b.2) := by
    have inner : ∀ c ∈ cells, (entries c).Pairwise (fun a b => lexLt a.2 b.2) := by
      intro c hc
      simp only [entries]
      split
      · rw [List.pairwise_flatMap]
        constructor
        · intro e _
          simp only [kp]; split <;> simp
        · refine (List.pairwise_lt_range).imp ?_
          intro a b hab x hx y hy
          simp only [kp] at hx hy
          split at hx <;> split at hy <;> simp at hx hy
          subst hx; subst hy
          exact Or.inr ⟨rfl, hab⟩
      · simp
    rw [List.pairwise_flatMap]
    refine ⟨inner, ?_⟩
    have hids : cells.Pairwise (fun a b => a.id < b.id) := by
      rw [List.pairwise_iff_getElem]
      intro i j hi hj hij
      rw [hid i _ (List.getElem?_eq_getElem hi), hid j _ (List.getElem?_eq_getElem hj)]
      exact hij
    have hidmem : ∀ c, ∀ x ∈ entries c, x.2.1 = c.id := by
      intro c x hx
      simp only [entries] at hx
      split at hx
      · obtain ⟨e, _, hk⟩ := List.mem_flatMap.1 hx
        simp only [kp] at hk
        split at hk <;> simp at hk
        subst hk; rfl
      · simp at hx
    refine hids.imp ?_
    intro a b hab x hx y hy
    refine Or.inl ?_
    rw [hidmem a x hx, hidmem b y hy]; exact hab
  refine ⟨pushAll_wf _ _ HMap.wf_nil, ?_, ?_, ?_, ?_⟩
  · intro key
    rw [pushAll_nil_get]
    constructor
    · intro h c e hh
      split at h
      · rename_i hv
        have := (mem_valsOf _ _ _).2 ((hmem key c e).2 hh)
        rw [hv] at this; simp at this
      · simp at h
    · intro h
      have : valsOf (cells.flatMap entries) key = [] := by
        apply List.eq_nil_iff_forall_not_mem.2
        rintro ⟨c, e⟩ hv
        exact h c e ((hmem key c e).1 ((mem_valsOf _ _ _).1 hv))
      rw [this]; simp
  · intro key l h
    rw [pushAll_nil_get] at h
    split at h
    · simp at h
    · simp only [Option.some.injEq] at h; subst h; assumption
  · intro key l h
    rw [pushAll_nil_get] at h
    split at h
    · simp at h
    · simp only [Option.some.injEq] at h; subst h
      unfold valsOf
      rw [List.pairwise_map]
      exact hsort.filter _
  · intro key l h c e
    rw [pushAll_nil_get] at h
    split at h
    · simp at h
    · simp only [Option.some.injEq] at h; subst h
      rw [mem_valsOf, hmem]

end Group

/-! ## Tables -/

theorem edgeNode_lt (k : GeoKind) (e j : Nat) (he : e < k.nedge) (hj : j < k.edgeNnode) : edgeNode k e j < k.nnode := by
  have : ∀ e < k.nedge, ∀ j < k.edgeNnode, edgeNode k e j < k.nnode := by cases k <;> decide +kernel
  exact this e he j hj

theorem faceNode_lt (k : GeoKind) (f j : Nat) (hf : f < k.nface) (hj : j < k.faceNnode) : faceNode k f j < k.nnode := by
  have : ∀ f < k.nface, ∀ j < k.faceNnode, faceNode k f j < k.nnode := by cases k <;> decide +kernel
  exact this f hf j hj

theorem edge_facts (k : GeoKind) (h : 0 < k.nedge) : 2 ≤ k.edgeNnode ∧ ∃ ek, k.edgeKind = some ek ∧ ek.nnode = k.edgeNnode := by
  cases k <;> simp [GeoKind.nedge] at h <;> exact ⟨by decide, _, rfl, rfl⟩

theorem face_facts (k : GeoKind) (h : 0 < k.nface) : 3 ≤ k.faceNnode ∧
    ∃ fk, k.faceKind = some fk ∧ fk.nnode = k.faceNnode ∧ fk.ndim = 2 ∧ 0 < fk.nedge := by
  cases k <;> simp [GeoKind.nface] at h <;> exact ⟨by decide, _, rfl, rfl, rfl, by decide⟩

theorem nedge_pos_of_ndim2 (k : GeoKind) (h : k.ndim = 2) : 0 < k.nedge := by
  cases k <;> simp [GeoKind.ndim] at h <;> decide

theorem localEdgeKey_ok (k : GeoKind) (pts : List Nat) (e : Nat) (hp : pts.length = k.nnode) (he : e < k.nedge) :
    ∃ a b, pts[edgeNode k e 0]? = some a ∧ pts[edgeNode k e 1]? = some b ∧ localEdgeKey k pts e = .ok (sort2 a b) := by
  obtain ⟨h2, _⟩ := edge_facts k (by omega)
  have l0 := edgeNode_lt k e 0 he (by omega)
  have l1 := edgeNode_lt k e 1 he (by omega)
  refine ⟨pts[edgeNode k e 0], pts[edgeNode k e 1], by simp, by simp, ?_⟩
  unfold localEdgeKey
  rw [Res.idx_of_lt (by omega), Res.bind_ok, Res.idx_of_lt (by omega), Res.bind_ok]; rfl

/-- `sort2` sorts. -/
theorem sort2_eq_iff (a b : Nat) (key : EdgeKey) : sort2 a b = key ↔ key.1 ≤ key.2 ∧ (key = (a, b) ∨ key = (b, a)) := by
  obtain ⟨x, y⟩ := key
  unfold sort2
  split
  · simp only [Prod.mk.injEq]; omega
  · simp only [Prod.mk.injEq]; omega

theorem sort2_comm (a b : Nat) : sort2 a b = sort2 b a := by
  unfold sort2; split <;> split <;> simp <;> omega

/-- The four components of a key. -/
def FaceKey.toList (k : FaceKey) : List Nat := [k.1, k.2.1, k.2.2.1, k.2.2.2]

theorem sort4_toList (a b c d : Nat) : (sort4 a b c d).toList = [a, b, c, d].insertionSort (· ≤ ·) := by
  unfold sort4
  split
  · rename_i h; rw [h]; rfl
  · rename_i h
    have hl : ([a, b, c, d].insertionSort (· ≤ ·)).length = 4 := List.length_insertionSort _ _
    exfalso
    match h' : [a, b, c, d].insertionSort (· ≤ ·), hl with
    | [a', b', c', d'], _ => exact h _ _ _ _ h'

theorem FaceKey.toList_inj {k k' : FaceKey} (h : k.toList = k'.toList) : k = k' := by
  obtain ⟨a, b, c, d⟩ := k; obtain ⟨a', b', c', d'⟩ := k'
  simp [FaceKey.toList] at h; obtain ⟨rfl, rfl, rfl, rfl⟩ := h; rfl

/-- `sort4` sorts. -/
theorem sort4_eq_iff (a b c d : Nat) (key : FaceKey) :
    sort4 a b c d = key ↔ key.toList.Pairwise (· ≤ ·) ∧ key.toList.Perm [a, b, c, d] := by
  constructor
  · rintro rfl
    rw [sort4_toList]
    exact ⟨List.pairwise_insertionSort _ _, List.perm_insertionSort _ _⟩
  · rintro ⟨h1, h2⟩
    apply FaceKey.toList_inj
    rw [sort4_toList]
    refine List.Perm.eq_of_pairwise (le := (· ≤ ·)) (fun a b _ _ h h' => le_antisymm h h') (List.pairwise_insertionSort _ _) h1 ?_
    exact (List.perm_insertionSort _ _).trans h2.symm

theorem localFaceKey_ok (k : GeoKind) (pts : List Nat) (f : Nat) (hp : pts.length = k.nnode) (hf : f < k.nface) :
    ∃ a b c d, pts[faceNode k f 0]? = some a ∧ pts[faceNode k f 1]? = some b ∧ pts[faceNode k f 2]? = some c ∧
      (if k.faceNnode > 3 then pts[faceNode k f 3]? = some d else d = usizeMax) ∧ localFaceKey k pts f = .ok (sort4 a b c d) := by
  obtain ⟨h3, _⟩ := face_facts k (by omega)
  have l0 := faceNode_lt k f 0 hf (by omega)
  have l1 := faceNode_lt k f 1 hf (by omega)
  have l2 := faceNode_lt k f 2 hf (by omega)
  unfold localFaceKey
  rw [Res.idx_of_lt (by omega), Res.bind_ok, Res.idx_of_lt (by omega), Res.bind_ok, Res.idx_of_lt (by omega), Res.bind_ok]
  by_cases h4 : k.faceNnode > 3
  · have l3 := faceNode_lt k f 3 hf (by omega)
    refine ⟨pts[faceNode k f 0], pts[faceNode k f 1], pts[faceNode k f 2], pts[faceNode k f 3], by simp, by simp, by simp, ?_, ?_⟩
    · rw [if_pos h4]; simp
    · rw [if_pos h4, Res.idx_of_lt (by omega), Res.bind_ok]; rfl
  · refine ⟨pts[faceNode k f 0], pts[faceNode k f 1], pts[faceNode k f 2], usizeMax, by simp, by simp, by simp, ?_, ?_⟩
    · rw [if_neg h4]
    · rw [if_neg h4]; rfl

end Mesh
end Gemlab
