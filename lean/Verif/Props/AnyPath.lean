import Verif.Model.AnyPath
import Verif.Proofs.Features

/-!
# C43: `Edges::any_path`
-/
namespace Gemlab.Props.AnyPath
open Gemlab Gemlab.Mesh Gemlab.Shapes

/-! ## Specification -/

/-- An edge as returned by the library: a line kind with the corresponding number of points. -/
def GoodEdge (f : Feature) : Prop := f.kind.ndim = 1 ∧ f.points.length = f.kind.nnode

/-- `p` and `q` are the two end points of the edge. -/
def Joins (f : Feature) (p q : Nat) : Prop :=
  (f.points[0]? = some p ∧ f.points[1]? = some q) ∨ (f.points[0]? = some q ∧ f.points[1]? = some p)

/-- Local numbers of the interior nodes of a line, from the first to the second end. -/
def interiorNodes : GeoKind → List Nat
  | .lin3 => [2]
  | .lin4 => [2, 3]
  | .lin5 => [3, 2, 4]
  | _ => []

/-- The interior nodes are all nodes other than the ends, in the order of their reference coordinates, which lie between those of
the ends. -/
theorem interiorNodes_ordered (k : GeoKind) (hk : k.ndim = 1) :
    (∀ i, i ∈ interiorNodes k ↔ 2 ≤ i ∧ i < k.nnode) ∧
    ((0 :: interiorNodes k) ++ [1]).Pairwise (fun i j => refCoordQ k i 0 < refCoordQ k j 0) := by
  constructor
  · intro i
    cases k <;> simp [GeoKind.ndim] at hk <;> simp [interiorNodes, GeoKind.nnode] <;> omega
  · cases k <;> simp [GeoKind.ndim] at hk <;> decide +kernel

/-- Points of an edge strictly between its ends when it is traversed starting from the point `p`. -/
def interior (f : Feature) (p : Nat) : List Nat :=
  let pts := (interiorNodes f.kind).map fun i => f.points.getD i 0
  if f.points[0]? = some p then pts else pts.reverse

/-- Walking from `p` to `q` along the listed edges (indices in `all`); `pts` are the points met after `p`. -/
inductive Walk (all : List Feature) : Nat → List Nat → List Nat → Nat → Prop
  | nil (p : Nat) : Walk all p [] [] p
  | cons {p q r : Nat} {e : Nat} {f : Feature} {es pts : List Nat} : all[e]? = some f → Joins f p q → Walk all q es pts r →
      Walk all p (e :: es) (interior f p ++ [q] ++ pts) r

theorem Walk.snoc {all : List Feature} {p q r e : Nat} {f : Feature} {es pts : List Nat} (h : Walk all p es pts q)
    (hf : all[e]? = some f) (hj : Joins f q r) : Walk all p (es ++ [e]) (pts ++ (interior f q ++ [r])) r := by
  induction h with
  | nil p =>
    have := Walk.cons hf hj (Walk.nil r)
    simpa using this
  | cons h1 h2 _ ih =>
    have := Walk.cons h1 h2 (ih hj)
    simpa [List.append_assoc] using this

/-- `p` is an end point of the edge number `e`. -/
def IsEnd (all : List Feature) (e p : Nat) : Prop := ∃ f q, all[e]? = some f ∧ Joins f p q

/-- The edges form an open chain: in some order each edge joins consecutive points of a list of distinct points. -/
structure IsChain (all : List Feature) (v idx : Nat → Nat) : Prop where
  idx_lt : ∀ i < all.length, idx i < all.length
  idx_inj : ∀ i < all.length, ∀ j < all.length, idx i = idx j → i = j
  joins : ∀ i < all.length, ∃ f, all[idx i]? = some f ∧ Joins f (v i) (v (i + 1))
  distinct : ∀ i ≤ all.length, ∀ j ≤ all.length, v i = v j → i = j

/-- The edges form a ring: the same with a cyclic list of at least two points (`v` and `idx` are periodic). -/
structure IsRing (all : List Feature) (v idx : Nat → Nat) : Prop where
  two : 2 ≤ all.length
  v_per : ∀ i, v (i + all.length) = v i
  idx_per : ∀ i, idx (i + all.length) = idx i
  idx_lt : ∀ i, idx i < all.length
  idx_inj : ∀ i < all.length, ∀ j < all.length, idx i = idx j → i = j
  joins : ∀ i, ∃ f, all[idx i]? = some f ∧ Joins f (v i) (v (i + 1))
  distinct : ∀ i < all.length, ∀ j < all.length, v i = v j → i = j

/-! ## Lemmas -/

theorem GoodEdge.ends {f : Feature} (h : GoodEdge f) : ∃ a b, f.points[0]? = some a ∧ f.points[1]? = some b := by
  have : 2 ≤ f.points.length := by
    rw [h.2]
    have := h.1
    cases hk : f.kind <;> rw [hk] at this <;> simp [GeoKind.ndim] at this <;> decide
  exact ⟨_, _, List.getElem?_eq_getElem (by omega), List.getElem?_eq_getElem (by omega)⟩

theorem Joins.symm {f : Feature} {p q : Nat} (h : Joins f p q) : Joins f q p := Or.symm h

theorem Joins.other {f : Feature} {p q q' : Nat} (h : Joins f p q) (h' : Joins f p q') : q = q' := by
  rcases h with ⟨a, b⟩ | ⟨a, b⟩ <;> rcases h' with ⟨a', b'⟩ | ⟨a', b'⟩ <;> rw [a] at a' <;> rw [b] at b' <;> simp_all

theorem isEnd_iff {all : List Feature} {e p : Nat} {f : Feature} {a b : Nat} (hf : all[e]? = some f) (ha : f.points[0]? = some a)
    (hb : f.points[1]? = some b) : IsEnd all e p ↔ p = a ∨ p = b := by
  constructor
  · rintro ⟨f', q, hf', hj⟩
    rw [hf, Option.some.injEq] at hf'; subst hf'
    rcases hj with ⟨h1, h2⟩ | ⟨h1, h2⟩
    · rw [ha, Option.some.injEq] at h1; exact Or.inl h1.symm
    · rw [hb, Option.some.injEq] at h2; exact Or.inr h2.symm
  · rintro (rfl | rfl)
    · exact ⟨f, b, hf, Or.inl ⟨ha, hb⟩⟩
    · exact ⟨f, a, hf, Or.inr ⟨ha, hb⟩⟩

/-- No edge has equal end points. -/
def NoLoops (all : List Feature) : Prop := ∀ f ∈ all, ∀ p q, Joins f p q → p ≠ q

structure MapInv (all : List Feature) (k : Nat) (map : HMap Nat (List Nat)) : Prop where
  wf : map.WF
  mem : ∀ p e, e ∈ (map.get p).getD [] ↔ e < k ∧ IsEnd all e p
  ne : ∀ p, map.get p ≠ some []
  nodup : NoLoops all → ∀ p, ((map.get p).getD []).Nodup

theorem pathMap_spec (all : List Feature) (hg : ∀ f ∈ all, GoodEdge f) : ∃ map, pathMap all = .ok map ∧ MapInv all all.length map := by
  unfold pathMap
  obtain ⟨map, h1, h2⟩ := Res.foldlM_range (σ := HMap Nat (List Nat)) (fun map e => do
    let edge ← Res.idx all e
    let key ← edge.edgeKey
    pure ((map.push key.1 e).push key.2 e)) all.length [] (MapInv all)
    ⟨HMap.wf_nil, by simp, by simp, by simp⟩ (by
      intro e map he H
      have hm : all[e] ∈ all := List.getElem_mem he
      obtain ⟨a, b, ha, hb⟩ := (hg _ hm).ends
      have hf : all[e]? = some all[e] := List.getElem?_eq_getElem he
      refine ⟨(map.push (sort2 a b).1 e).push (sort2 a b).2 e, ?_, ?_, ?_, ?_, ?_⟩
      · rw [Res.idx_of_lt he, Res.bind_ok]
        unfold Feature.edgeKey
        rw [Res.idx_eq_ok.2 ha, Res.bind_ok, Res.idx_eq_ok.2 hb, Res.bind_ok]; rfl
      · exact HMap.wf_push _ _ _ (HMap.wf_push _ _ _ H.wf)
      · intro p e'
        have hiff := isEnd_iff (p := p) hf ha hb
        have hold := H.mem p e'
        have hke : ∀ p, IsEnd all e p ↔ p = (sort2 a b).1 ∨ p = (sort2 a b).2 := by
          intro p; rw [isEnd_iff hf ha hb]; unfold sort2; split <;> simp; tauto
        have hlt : (e' < e + 1 ∧ IsEnd all e' p) ↔ ((e' < e ∧ IsEnd all e' p) ∨ (e' = e ∧ IsEnd all e p)) := by
          constructor
          · rintro ⟨h1, h2⟩
            by_cases hee : e' = e
            · subst hee; exact Or.inr ⟨rfl, h2⟩
            · exact Or.inl ⟨by omega, h2⟩
          · rintro (⟨h1, h2⟩ | ⟨rfl, h2⟩)
            · exact ⟨by omega, h2⟩
            · exact ⟨by omega, h2⟩
        rw [hlt, ← hold, hke]
        rw [HMap.get_push, HMap.get_push, HMap.get_push]
        by_cases p2 : p = (sort2 a b).2 <;> by_cases p1 : p = (sort2 a b).1
        · subst p2; rw [← p1]; simp
        · subst p2; simp [p1]
        · subst p1; simp [p2]
        · simp [p1, p2]
      · intro p
        rw [HMap.get_push]
        split
        · simp
        · rw [HMap.get_push]
          split
          · simp
          · exact H.ne p
      · intro hnl p
        have hab : a ≠ b := hnl _ hm a b (Or.inl ⟨ha, hb⟩)
        have hne : (sort2 a b).2 ≠ (sort2 a b).1 := by unfold sort2; split <;> simp <;> omega
        have hnot : ∀ p, e ∉ (map.get p).getD [] := by intro p hc; exact absurd ((H.mem p e).1 hc).1 (by omega)
        rw [HMap.get_push, HMap.get_push, HMap.get_push, if_neg hne]
        split
        · simp only [Option.getD_some]
          rw [List.nodup_append]
          refine ⟨H.nodup hnl _, by simp, ?_⟩
          intro x hx y hy; rw [List.mem_singleton] at hy; subst hy; rintro rfl; exact hnot _ hx
        · split
          · simp only [Option.getD_some]
            rw [List.nodup_append]
            refine ⟨H.nodup hnl _, by simp, ?_⟩
            intro x hx y hy; rw [List.mem_singleton] at hy; subst hy; rintro rfl; exact hnot _ hx
          · exact H.nodup hnl p)
  exact ⟨map, h1, h2⟩

theorem nextPoint_spec {all : List Feature} {e p q : Nat} {f : Feature} (hf : all[e]? = some f) (hj : Joins f p q) :
    nextPoint all p e = .ok q := by
  unfold nextPoint
  rw [Res.idx_eq_ok.2 hf, Res.bind_ok]
  rcases hj with ⟨h1, h2⟩ | ⟨h1, h2⟩
  · rw [Res.idx_eq_ok.2 h1, Res.bind_ok, Res.idx_eq_ok.2 h2, Res.bind_ok, if_pos rfl]; rfl
  · rw [Res.idx_eq_ok.2 h1, Res.bind_ok, Res.idx_eq_ok.2 h2, Res.bind_ok]
    by_cases h : q = p
    · subst h; rw [if_pos rfl]; rfl
    · rw [if_neg h]; rfl

theorem otherPoints_spec {all : List Feature} {e p q : Nat} {f : Feature} (hf : all[e]? = some f) (hg : GoodEdge f) (hj : Joins f p q) :
    otherPoints all e p = .ok (interior f p ++ [q]) := by
  obtain ⟨hk, hl⟩ := hg
  obtain ⟨kind, pts, marker⟩ := f
  unfold otherPoints
  rw [Res.idx_eq_ok.2 hf, Res.bind_ok]
  dsimp only at *
  unfold Joins at hj
  dsimp only at hj
  have key : ∀ (a b : Nat) (rest : List Nat), pts = a :: b :: rest → Res.idx pts 0 = .ok a ∧ Res.idx pts 1 = .ok b := by
    rintro a b rest rfl; exact ⟨rfl, rfl⟩
  unfold interior
  cases kind <;> simp [GeoKind.ndim] at hk <;> simp only [GeoKind.nnode] at hl
  · obtain ⟨a, b, rfl⟩ := List.length_eq_two.1 hl
    simp only [List.getElem?_cons_zero, List.getElem?_cons_succ, Option.some.injEq] at hj
    have e0 : Res.idx [a, b] 0 = .ok a := rfl
    rw [e0, Res.bind_ok]
    by_cases h : a = p
    · subst h
      have hq : b = q := by rcases hj with ⟨_, h⟩ | ⟨h, h'⟩ <;> omega
      subst hq
      simp [interiorNodes]; rfl
    · have hq : a = q := by rcases hj with ⟨h', _⟩ | ⟨h', _⟩ <;> omega
      subst hq
      simp [interiorNodes, h]
  · obtain ⟨a, b, c, rfl⟩ := List.length_eq_three.1 hl
    simp only [List.getElem?_cons_zero, List.getElem?_cons_succ, Option.some.injEq] at hj
    have e0 : Res.idx [a, b, c] 0 = .ok a := rfl
    rw [e0, Res.bind_ok]
    by_cases h : a = p
    · subst h
      have hq : b = q := by rcases hj with ⟨_, h⟩ | ⟨h, h'⟩ <;> omega
      subst hq
      simp [interiorNodes]; rfl
    · have hq : a = q := by rcases hj with ⟨h', _⟩ | ⟨h', _⟩ <;> omega
      subst hq
      simp [interiorNodes, h]; rfl
  · obtain ⟨a, b, c, d, rfl⟩ : ∃ a b c d, pts = [a, b, c, d] := by
      match pts, hl with
      | [a, b, c, d], _ => exact ⟨a, b, c, d, rfl⟩
    simp only [List.getElem?_cons_zero, List.getElem?_cons_succ, Option.some.injEq] at hj
    have e0 : Res.idx [a, b, c, d] 0 = .ok a := rfl
    rw [e0, Res.bind_ok]
    by_cases h : a = p
    · subst h
      have hq : b = q := by rcases hj with ⟨_, h⟩ | ⟨h, h'⟩ <;> omega
      subst hq
      simp [interiorNodes]; rfl
    · have hq : a = q := by rcases hj with ⟨h', _⟩ | ⟨h', _⟩ <;> omega
      subst hq
      simp [interiorNodes, h]; rfl
  · obtain ⟨a, b, c, d, e', rfl⟩ : ∃ a b c d e, pts = [a, b, c, d, e] := by
      match pts, hl with
      | [a, b, c, d, e], _ => exact ⟨a, b, c, d, e, rfl⟩
    simp only [List.getElem?_cons_zero, List.getElem?_cons_succ, Option.some.injEq] at hj
    have e0 : Res.idx [a, b, c, d, e'] 0 = .ok a := rfl
    rw [e0, Res.bind_ok]
    by_cases h : a = p
    · subst h
      have hq : b = q := by rcases hj with ⟨_, h⟩ | ⟨h, h'⟩ <;> omega
      subst hq
      simp [interiorNodes]; rfl
    · have hq : a = q := by rcases hj with ⟨h', _⟩ | ⟨h', _⟩ <;> omega
      subst hq
      simp [interiorNodes, h]; rfl

/-! ## Start point -/

theorem sorted_head {l : List Nat} (h : l ≠ []) : ∃ s, Res.idx (l.insertionSort (· ≤ ·)) 0 = .ok s ∧ s ∈ l ∧ ∀ p ∈ l, s ≤ p := by
  have hp := List.perm_insertionSort (· ≤ ·) l
  have hs := List.pairwise_insertionSort (α := Nat) (· ≤ ·) l
  cases hl : l.insertionSort (· ≤ ·) with
  | nil => rw [hl] at hp; exact absurd hp.symm.eq_nil h
  | cons s t =>
    rw [hl] at hp hs
    refine ⟨s, rfl, hp.mem_iff.1 (by simp), fun p hpm => ?_⟩
    rcases List.mem_cons.1 (hp.mem_iff.2 hpm) with rfl | h'
    · exact le_refl _
    · exact (List.pairwise_cons.1 hs).1 _ h'

/-- Number of edges listed for a point. -/
def deg (map : HMap Nat (List Nat)) (p : Nat) : Nat := ((map.get p).getD []).length

theorem pathStart_spec {all : List Feature} {map : HMap Nat (List Nat)} (hg : ∀ f ∈ all, GoodEdge f) (hne : all ≠ [])
    (H : MapInv all all.length map) :
    ∃ s, pathStart map = .ok s ∧ (∃ e, IsEnd all e s) ∧
      ((deg map s = 1 ∧ ∀ p, deg map p = 1 → s ≤ p) ∨ ((∀ p, deg map p ≠ 1) ∧ ∀ p e, IsEnd all e p → s ≤ p)) := by
  have hlt : ∀ e p, IsEnd all e p → e < all.length := by
    rintro e p ⟨f, q, hf, _⟩; exact (List.getElem?_eq_some_iff.1 hf).1
  unfold pathStart
  dsimp only
  have hmem1 : ∀ p, p ∈ (map.filterMap fun e : Nat × List Nat => if e.2.length = 1 then some e.1 else none) ↔ deg map p = 1 := by
    intro p
    rw [List.mem_filterMap]
    unfold deg
    constructor
    · rintro ⟨⟨k, l⟩, hm, hif⟩
      split at hif
      · rename_i hl
        rw [Option.some.injEq] at hif
        dsimp only at hif hl; subst hif
        rw [HMap.get_of_mem H.wf hm]; exact hl
      · simp at hif
    · intro h
      cases hget : map.get p with
      | none => rw [hget] at h; simp at h
      | some l =>
        rw [hget] at h
        exact ⟨(p, l), HMap.mem_of_get hget, by simp at h; simp [h]⟩
  have hmem2 : ∀ p, p ∈ map.map (·.1) ↔ ∃ e, IsEnd all e p := by
    intro p
    have h1 := @HMap.get_eq_none_iff Nat (List Nat) _ map p
    constructor
    · intro hp
      cases hget : map.get p with
      | none => exact absurd hp (h1.1 hget)
      | some l =>
        cases l with
        | nil => exact absurd hget (H.ne p)
        | cons e t => exact ⟨e, ((H.mem p e).1 (by rw [hget]; simp)).2⟩
    · rintro ⟨e, he⟩
      by_contra hc
      have := (H.mem p e).2 ⟨hlt _ _ he, he⟩
      rw [h1.2 hc] at this; simp at this
  split
  · rename_i hl
    rw [List.length_insertionSort] at hl
    obtain ⟨s, h1, h2, h3⟩ := sorted_head (List.length_pos_iff.1 hl)
    have hs := (hmem1 s).1 h2
    refine ⟨s, h1, ?_, Or.inl ⟨hs, fun p hp => h3 p ((hmem1 p).2 hp)⟩⟩
    unfold deg at hs
    obtain ⟨e, he⟩ := List.length_eq_one_iff.1 hs
    exact ⟨e, ((H.mem s e).1 (by rw [he]; simp)).2⟩
  · rename_i hl
    rw [List.length_insertionSort] at hl
    have hnil : map.map (·.1) ≠ [] := by
      intro hc
      obtain ⟨f, t, rfl⟩ := List.exists_cons_of_ne_nil hne
      obtain ⟨a, b, ha, hb⟩ := (hg f (by simp)).ends
      have := (hmem2 a).2 ⟨0, f, b, rfl, Or.inl ⟨ha, hb⟩⟩
      rw [hc] at this; simp at this
    obtain ⟨s, h1, h2, h3⟩ := sorted_head hnil
    refine ⟨s, h1, (hmem2 s).1 h2, Or.inr ⟨fun p hp => ?_, fun p e he => h3 p ((hmem2 p).2 ⟨e, he⟩)⟩⟩
    have := (hmem1 p).2 hp
    exact hl (List.length_pos_of_mem this)

theorem nextEdges_spec {all : List Feature} {map : HMap Nat (List Nat)} (H : MapInv all all.length map) {b e : Nat}
    (hb : ∃ e, IsEnd all e b) : ∃ l, nextEdges map b e = .ok l ∧ (∀ e', e' ∈ l ↔ IsEnd all e' b ∧ e' ≠ e) ∧
      (NoLoops all → l.Nodup) := by
  have hlt : ∀ e p, IsEnd all e p → e < all.length := by
    rintro e p ⟨f, q, hf, _⟩; exact (List.getElem?_eq_some_iff.1 hf).1
  obtain ⟨e0, he0⟩ := hb
  have hm := (H.mem b e0).2 ⟨hlt _ _ he0, he0⟩
  cases hget : map.get b with
  | none => rw [hget] at hm; simp at hm
  | some l =>
    refine ⟨l.filter fun e' => e' ≠ e, ?_, ?_, ?_⟩
    · unfold nextEdges; rw [hget]; rfl
    · intro e'
      have := H.mem b e'
      rw [hget, Option.getD_some] at this
      rw [List.mem_filter, this]
      constructor
      · rintro ⟨h1, h2⟩; exact ⟨h1.2, by simpa using h2⟩
      · rintro ⟨h1, h2⟩; exact ⟨⟨hlt _ _ h1, h1⟩, by simpa using h2⟩
    · intro hn
      have := H.nodup hn b
      rw [hget, Option.getD_some] at this
      exact this.filter _

/-- The path stops at `fin`: back at the start, or no other edge there, or the limit on the number of steps. -/
def Stops (all : List Feature) (start : Nat) (path : List Nat) (fin : Nat) : Prop :=
  (fin = start ∧ 2 ≤ path.length) ∨ (∀ e, IsEnd all e fin → path.getLast? = some e) ∨ path.length = all.length + 1

theorem followPath_walk {all : List Feature} {map : HMap Nat (List Nat)} (hg : ∀ f ∈ all, GoodEdge f)
    (H : MapInv all all.length map) (s : Nat) : ∀ (fuel e b : Nat) (path pts : List Nat), Walk all s path pts b →
      path.getLast? = some e → IsEnd all e b → path.IsChain (· ≠ ·) → path.length + fuel = all.length + 1 →
      ∃ path' pts' fin, followPath all map s fuel e b path (s :: pts) = .ok (path', s :: pts') ∧ Walk all s path' pts' fin ∧
        path' ≠ [] ∧ path'.length ≤ all.length + 1 ∧ path'.IsChain (· ≠ ·) ∧ Stops all s path' fin := by
  intro fuel
  induction fuel with
  | zero =>
    intro e b path pts hw hl he hc hlen
    refine ⟨path, pts, b, rfl, hw, ?_, by omega, hc, Or.inr (Or.inr (by omega))⟩
    rintro rfl; simp at hl
  | succ fuel ih =>
    intro e b path pts hw hl he hc hlen
    have hpne : path ≠ [] := by rintro rfl; simp at hl
    obtain ⟨l, h1, h2, _⟩ := nextEdges_spec H (e := e) ⟨e, he⟩
    unfold followPath
    rw [h1, Res.bind_ok]
    cases l with
    | nil =>
      refine ⟨path, pts, b, by simp, hw, hpne, by omega, hc, Or.inr (Or.inl ?_)⟩
      intro e' he'
      by_contra hne
      have : e' ≠ e := by rintro rfl; exact hne hl
      simpa using (h2 e').2 ⟨he', this⟩
    | cons e' t =>
      obtain ⟨⟨f, q, hf, hj⟩, hee⟩ := (h2 e').1 (by simp)
      have hgf := hg f (List.mem_of_getElem? hf)
      have hw' := hw.snoc hf hj
      have hc' : (path ++ [e']).IsChain (· ≠ ·) := by
        rw [List.isChain_append]
        refine ⟨hc, by simp, ?_⟩
        intro x hx y hy
        rw [hl] at hx; simp at hx hy; subst hx; subst hy; exact Ne.symm hee
      rw [if_neg (by simp), show Res.idx (e' :: t) 0 = .ok e' from rfl, Res.bind_ok, nextPoint_spec hf hj, Res.bind_ok,
        otherPoints_spec hf hgf hj, Res.bind_ok]
      by_cases hq : q = s
      · rw [if_pos hq]
        refine ⟨_, _, q, by simp, hw', by simp, by simp; omega, hc', Or.inl ⟨hq, ?_⟩⟩
        have := List.length_pos_iff.2 hpne
        simp; omega
      · rw [if_neg hq]
        exact ih e' q (path ++ [e']) (pts ++ (interior f b ++ [q])) hw' (by simp) ⟨f, b, hf, hj.symm⟩ hc' (by simp; omega)

/-! ## Chains and rings -/

/-- Common structure: the edges in an order in which they join consecutive points; the last point is new or the first one. -/
structure Core (all : List Feature) (v idx : Nat → Nat) : Prop where
  pos : 1 ≤ all.length
  idx_lt : ∀ i < all.length, idx i < all.length
  idx_inj : ∀ i < all.length, ∀ j < all.length, idx i = idx j → i = j
  joins : ∀ i < all.length, ∃ f, all[idx i]? = some f ∧ Joins f (v i) (v (i + 1))
  distinct : ∀ i < all.length, ∀ j < all.length, v i = v j → i = j
  closing : (2 ≤ all.length ∧ v all.length = v 0) ∨ ∀ i < all.length, v all.length ≠ v i

theorem Core.surj {all : List Feature} {v idx : Nat → Nat} (C : Core all v idx) :
    ((List.range all.length).map idx).Perm (List.range all.length) := by
  have hnd : ((List.range all.length).map idx).Nodup := by
    refine List.Nodup.map_on ?_ List.nodup_range
    intro x hx y hy h
    exact C.idx_inj x (List.mem_range.1 hx) y (List.mem_range.1 hy) h
  have hsub : ((List.range all.length).map idx) ⊆ List.range all.length := by
    intro x hx
    obtain ⟨i, hi, rfl⟩ := List.mem_map.1 hx
    exact List.mem_range.2 (C.idx_lt i (List.mem_range.1 hi))
  exact (List.subperm_of_subset hnd hsub).perm_of_length_le (by simp)

theorem Core.isEnd {all : List Feature} {v idx : Nat → Nat} (C : Core all v idx) (e p : Nat) :
    IsEnd all e p ↔ ∃ i < all.length, e = idx i ∧ (p = v i ∨ p = v (i + 1)) := by
  constructor
  · rintro ⟨f, q, hf, hj⟩
    have he : e ∈ List.range all.length := List.mem_range.2 (List.getElem?_eq_some_iff.1 hf).1
    obtain ⟨i, hi, rfl⟩ := List.mem_map.1 (C.surj.mem_iff.2 he)
    have hi := List.mem_range.1 hi
    obtain ⟨f', hf', hj'⟩ := C.joins i hi
    rw [hf, Option.some.injEq] at hf'; subst hf'
    refine ⟨i, hi, rfl, ?_⟩
    rcases hj with ⟨a, b⟩ | ⟨a, b⟩ <;> rcases hj' with ⟨a', b'⟩ | ⟨a', b'⟩ <;> rw [a] at a' <;> rw [b] at b' <;> simp_all
  · rintro ⟨i, hi, rfl, hp⟩
    obtain ⟨f, hf, hj⟩ := C.joins i hi
    rcases hp with rfl | rfl
    · exact ⟨f, _, hf, hj⟩
    · exact ⟨f, _, hf, hj.symm⟩

/-- The points `v 1 … v n` are also distinct. -/
theorem Core.distinct' {all : List Feature} {v idx : Nat → Nat} (C : Core all v idx) {i j : Nat} (hi : i < all.length)
    (hj : j < all.length) (h : v (i + 1) = v (j + 1)) : i = j := by
  rcases Nat.lt_or_ge (i + 1) all.length with hi' | hi' <;> rcases Nat.lt_or_ge (j + 1) all.length with hj' | hj'
  · have := C.distinct _ hi' _ hj' h; omega
  · have e : j + 1 = all.length := by omega
    rw [e] at h
    rcases C.closing with ⟨_, hc⟩ | hc
    · rw [hc] at h
      have := C.distinct _ hi' 0 C.pos h; omega
    · exact absurd h.symm (hc _ hi')
  · have e : i + 1 = all.length := by omega
    rw [e] at h
    rcases C.closing with ⟨_, hc⟩ | hc
    · rw [hc] at h
      have := C.distinct 0 C.pos _ hj' h; omega
    · exact absurd h (hc _ hj')
  · omega

theorem Core.noLoops {all : List Feature} {v idx : Nat → Nat} (C : Core all v idx) : NoLoops all := by
  intro f hf p q hj hpq
  subst hpq
  obtain ⟨e, he, rfl⟩ := List.mem_iff_getElem.1 hf
  obtain ⟨i, hi, rfl, _⟩ := (C.isEnd e p).1 ⟨_, p, List.getElem?_eq_getElem he, hj⟩
  obtain ⟨f', hf', hj'⟩ := C.joins i hi
  rw [List.getElem?_eq_getElem he, Option.some.injEq] at hf'; subst hf'
  have heq : v i = v (i + 1) := by
    rcases hj with ⟨a, b⟩ | ⟨a, b⟩ <;> rcases hj' with ⟨a', b'⟩ | ⟨a', b'⟩ <;> rw [a] at a' <;> rw [b] at b' <;> simp_all
  rcases Nat.lt_or_ge (i + 1) all.length with h | h
  · have := C.distinct _ hi _ h heq; omega
  · have e : i + 1 = all.length := by omega
    rw [e] at heq
    rcases C.closing with ⟨h2, hc⟩ | hc
    · rw [hc] at heq
      have := C.distinct _ hi 0 C.pos heq; omega
    · exact hc i hi heq.symm

theorem Core.reverse {all : List Feature} {v idx : Nat → Nat} (C : Core all v idx) :
    Core all (fun i => v (all.length - i)) (fun i => idx (all.length - 1 - i)) where
  pos := C.pos
  idx_lt := fun i hi => C.idx_lt _ (by omega)
  idx_inj := fun i hi j hj h => by have := C.idx_inj _ (by omega) _ (by omega) h; omega
  joins := fun i hi => by
    obtain ⟨f, hf, hj⟩ := C.joins (all.length - 1 - i) (by omega)
    refine ⟨f, hf, ?_⟩
    rw [show all.length - 1 - i + 1 = all.length - i by omega, show all.length - 1 - i = all.length - (i + 1) by omega] at hj
    exact hj.symm
  distinct := fun i hi j hj h => by
    have := C.distinct' (i := all.length - 1 - i) (j := all.length - 1 - j) (by omega) (by omega) (by
      rw [show all.length - 1 - i + 1 = all.length - i by omega, show all.length - 1 - j + 1 = all.length - j by omega]; exact h)
    omega
  closing := by
    rcases C.closing with ⟨h2, hc⟩ | hc
    · refine Or.inl ⟨h2, ?_⟩
      rw [Nat.sub_self, Nat.sub_zero, hc]
    · refine Or.inr fun i hi => ?_
      rw [Nat.sub_self]
      by_cases h0 : i = 0
      · subst h0; rw [Nat.sub_zero]; exact fun h => hc 0 C.pos h.symm
      · intro h
        have := C.distinct 0 C.pos _ (by omega) h; omega

theorem Core.mid {all : List Feature} {v idx : Nat → Nat} (C : Core all v idx) {i : Nat} (hi : i + 1 < all.length) (e : Nat) :
    IsEnd all e (v (i + 1)) ↔ e = idx i ∨ e = idx (i + 1) := by
  rw [C.isEnd]
  constructor
  · rintro ⟨j, hj, rfl, h | h⟩
    · rw [C.distinct _ hi _ hj h]; exact Or.inr rfl
    · rw [C.distinct' (by omega) hj h]; exact Or.inl rfl
  · rintro (rfl | rfl)
    · exact ⟨i, by omega, rfl, Or.inr rfl⟩
    · exact ⟨i + 1, hi, rfl, Or.inl rfl⟩

theorem followPath_core {all : List Feature} {map : HMap Nat (List Nat)} {v idx : Nat → Nat} (hg : ∀ f ∈ all, GoodEdge f)
    (H : MapInv all all.length map) (C : Core all v idx) : ∀ (fuel i : Nat) (path pts : List Nat), i < all.length →
      all.length - i ≤ fuel → (i + 1 = all.length → v all.length ≠ v 0) →
      ∃ pts', followPath all map (v 0) fuel (idx i) (v (i + 1)) path pts =
        .ok (path ++ (List.range' (i + 1) (all.length - 1 - i)).map idx, pts') := by
  intro fuel
  induction fuel with
  | zero => intro i path pts hi hf _; omega
  | succ fuel ih =>
    intro i path pts hi hf hend
    unfold followPath
    obtain ⟨l, h1, h2, h3⟩ := nextEdges_spec (b := v (i + 1)) H (e := idx i) ⟨idx i, (C.isEnd _ _).2 ⟨i, hi, rfl, Or.inr rfl⟩⟩
    have h3 := h3 C.noLoops
    rw [h1, Res.bind_ok]
    rcases Nat.lt_or_ge (i + 1) all.length with hlt | hge
    · have hne : idx (i + 1) ≠ idx i := by intro h; have := C.idx_inj _ hlt _ hi h; omega
      have hl : l = [idx (i + 1)] := by
        have : ∀ e, e ∈ l ↔ e = idx (i + 1) := by
          intro e; rw [h2, C.mid hlt]
          constructor
          · rintro ⟨rfl | rfl, h⟩
            · exact absurd rfl h
            · rfl
          · rintro rfl; exact ⟨Or.inr rfl, hne⟩
        exact List.perm_singleton.1 ((List.perm_ext_iff_of_nodup h3 (by simp)).2 (by simpa using this))
      subst hl
      obtain ⟨f, hf', hj⟩ := C.joins _ hlt
      have hgf := hg f (List.mem_of_getElem? hf')
      rw [if_neg (by simp), show Res.idx [idx (i + 1)] 0 = .ok (idx (i + 1)) from rfl, Res.bind_ok, nextPoint_spec hf' hj, Res.bind_ok,
        otherPoints_spec hf' hgf hj, Res.bind_ok]
      have hr : List.range' (i + 1) (all.length - 1 - i) = (i + 1) :: List.range' (i + 1 + 1) (all.length - 1 - (i + 1)) := by
        rw [show all.length - 1 - i = (all.length - 1 - (i + 1)) + 1 by omega, List.range'_succ]
      by_cases hq : v (i + 1 + 1) = v 0
      · rw [if_pos hq]
        have hn : i + 1 + 1 = all.length := by
          by_contra hn
          have := C.distinct _ (by omega) 0 C.pos hq; omega
        refine ⟨pts ++ (interior f (v (i + 1)) ++ [v (i + 1 + 1)]), ?_⟩
        rw [hr, show all.length - 1 - (i + 1) = 0 by omega]
        rfl
      · rw [if_neg hq]
        obtain ⟨pts', h⟩ := ih (i + 1) (path ++ [idx (i + 1)]) (pts ++ (interior f (v (i + 1)) ++ [v (i + 1 + 1)])) hlt (by omega)
          (by intro h; rw [← h]; exact hq)
        refine ⟨pts', ?_⟩
        rw [h, hr]
        simp
    · have hn : i + 1 = all.length := by omega
      have hc : ∀ j < all.length, v all.length ≠ v j := by
        rcases C.closing with ⟨_, hc⟩ | hc
        · exact absurd hc (hend hn)
        · exact hc
      have hl : l = [] := by
        rw [List.eq_nil_iff_forall_not_mem]
        intro e he
        obtain ⟨he1, he2⟩ := (h2 e).1 he
        obtain ⟨j, hj, rfl, h | h⟩ := (C.isEnd _ _).1 he1
        · rw [hn] at h; exact hc j hj h
        · have := C.distinct' hi hj h; subst this; exact he2 rfl
      subst hl
      refine ⟨pts, ?_⟩
      rw [show all.length - 1 - i = 0 by omega]
      simp

theorem Walk.fin_unique {all : List Feature} {p : Nat} {es pts pts' : List Nat} {q q' : Nat} (h : Walk all p es pts q)
    (h' : Walk all p es pts' q') : q = q' := by
  induction h generalizing pts' with
  | nil p => cases h'; rfl
  | cons h1 h2 _ ih =>
    cases h' with
    | cons h1' h2' h3' =>
      rw [h1, Option.some.injEq] at h1'; subst h1'
      have := h2.other h2'; subst this
      exact ih h3'

theorem Core.walk {all : List Feature} {v idx : Nat → Nat} (C : Core all v idx) : ∀ k ≤ all.length,
    ∃ pts, Walk all (v 0) ((List.range k).map idx) pts (v k) := by
  intro k
  induction k with
  | zero => intro _; exact ⟨[], Walk.nil _⟩
  | succ k ih =>
    intro hk
    obtain ⟨pts, h⟩ := ih (by omega)
    obtain ⟨f, hf, hj⟩ := C.joins k (by omega)
    rw [List.range_succ, List.map_append]
    exact ⟨_, h.snoc hf hj⟩

theorem anyPath_start (all : List Feature) (hg : ∀ f ∈ all, GoodEdge f) (hne : all ≠ []) :
    ∃ map s e f q, MapInv all all.length map ∧ all[e]? = some f ∧ Joins f s q ∧
      ((deg map s = 1 ∧ ∀ p, deg map p = 1 → s ≤ p) ∨ ((∀ p, deg map p ≠ 1) ∧ ∀ p e, IsEnd all e p → s ≤ p)) ∧
      anyPath all = followPath all map s all.length e q [e] (s :: (interior f s ++ [q])) := by
  obtain ⟨map, hm, H⟩ := pathMap_spec all hg
  obtain ⟨s, hs, ⟨e0, he0⟩, hcase⟩ := pathStart_spec hg hne H
  have hlt : e0 < all.length := by obtain ⟨f, q, hf, _⟩ := he0; exact (List.getElem?_eq_some_iff.1 hf).1
  have hm0 := (H.mem s e0).2 ⟨hlt, he0⟩
  cases hget : map.get s with
  | none => rw [hget] at hm0; simp at hm0
  | some l =>
    cases l with
    | nil => exact absurd hget (H.ne s)
    | cons e t =>
      obtain ⟨_, f, q, hf, hj⟩ := (H.mem s e).1 (by rw [hget]; simp)
      refine ⟨map, s, e, f, q, H, hf, hj, hcase, ?_⟩
      unfold anyPath
      rw [if_neg (by simpa using hne), hm, Res.bind_ok, hs, Res.bind_ok, hget, show unwrap (some (e :: t)) = .ok (e :: t) from rfl,
        Res.bind_ok, show Res.idx (e :: t) 0 = .ok e from rfl, Res.bind_ok, nextPoint_spec hf hj, Res.bind_ok,
        otherPoints_spec hf (hg f (List.mem_of_getElem? hf)) hj, Res.bind_ok]

/-- Exactly one edge ends at the point. -/
def Extremity (all : List Feature) (p : Nat) : Prop := ∃ e, ∀ e', IsEnd all e' p ↔ e' = e

theorem deg_one_iff {all : List Feature} {map : HMap Nat (List Nat)} (H : MapInv all all.length map) (hn : NoLoops all) (p : Nat) :
    deg map p = 1 ↔ Extremity all p := by
  have hlt : ∀ e p, IsEnd all e p → e < all.length := by
    rintro e p ⟨f, q, hf, _⟩; exact (List.getElem?_eq_some_iff.1 hf).1
  have hmem : ∀ e, e ∈ (map.get p).getD [] ↔ IsEnd all e p := fun e =>
    ⟨fun h => ((H.mem p e).1 h).2, fun h => (H.mem p e).2 ⟨hlt _ _ h, h⟩⟩
  unfold deg Extremity
  rw [List.length_eq_one_iff]
  constructor
  · rintro ⟨e, he⟩
    refine ⟨e, fun e' => ?_⟩
    rw [← hmem, he, List.mem_singleton]
  · rintro ⟨e, he⟩
    refine ⟨e, ?_⟩
    refine List.perm_singleton.1 ((List.perm_ext_iff_of_nodup (H.nodup hn p) (by simp)).2 fun e' => ?_)
    rw [hmem, he, List.mem_singleton]

/-! ## Theorems -/

/-- C43: no edges, no path. -/
theorem C43_empty : anyPath [] = .ok ([], []) := rfl

/-- C43: for every non-empty collection of edges (lines), the function does not panic and returns a non-empty path that is a walk along
the edges of the collection starting at the first returned point, together with the points met in this order (including interior
points), never turns back through the edge just used, and stops only when it is back at the start, or there is no other edge to take,
or it took `n + 1` edges. -/
theorem C43_walk (all : List Feature) (hg : ∀ f ∈ all, GoodEdge f) (hne : all ≠ []) :
    ∃ start path pts fin, anyPath all = .ok (path, start :: pts) ∧ Walk all start path pts fin ∧ path ≠ [] ∧
      path.length ≤ all.length + 1 ∧ path.IsChain (· ≠ ·) ∧ Stops all start path fin := by
  obtain ⟨map, s, e, f, q, H, hf, hj, _, heq⟩ := anyPath_start all hg hne
  have hw := Walk.cons hf hj (Walk.nil q)
  rw [List.append_nil] at hw
  obtain ⟨path, pts, fin, h⟩ := followPath_walk hg H s all.length e q [e] _ hw rfl ⟨f, s, hf, hj.symm⟩ (by simp) (by simp; omega)
  exact ⟨s, path, pts, fin, by rw [heq]; exact h.1, h.2⟩

/-- C43: the path starts at the smallest extremity, or at the smallest point if there is no extremity. -/
theorem C43_start (all : List Feature) (hg : ∀ f ∈ all, GoodEdge f) (hn : NoLoops all) (path pts : List Nat) (start : Nat)
    (h : anyPath all = .ok (path, start :: pts)) : (∃ e, IsEnd all e start) ∧
    ((Extremity all start ∧ ∀ p, Extremity all p → start ≤ p) ∨
      ((∀ p, ¬ Extremity all p) ∧ ∀ p e, IsEnd all e p → start ≤ p)) := by
  have hne : all ≠ [] := by
    rintro rfl
    have h1 : anyPath [] = .ok ([], []) := rfl
    rw [h1] at h; simp at h
  obtain ⟨map, s, e, f, q, H, hf, hj, hcase, heq⟩ := anyPath_start all hg hne
  have hw := Walk.cons hf hj (Walk.nil q)
  rw [List.append_nil] at hw
  obtain ⟨path', pts', fin, h'⟩ := followPath_walk hg H s all.length e q [e] _ hw rfl ⟨f, s, hf, hj.symm⟩ (by simp) (by simp; omega)
  rw [heq, h'.1] at h
  simp only [Res.ok.injEq, Prod.mk.injEq, List.cons.injEq] at h
  obtain ⟨_, rfl, _⟩ := h
  refine ⟨⟨e, f, q, hf, hj⟩, ?_⟩
  simpa only [ne_eq, deg_one_iff H hn] using hcase

theorem core_result {all : List Feature} {v idx : Nat → Nat} (hg : ∀ f ∈ all, GoodEdge f) {map : HMap Nat (List Nat)}
    (H : MapInv all all.length map) (C : Core all v idx) {f : Feature} (hf : all[idx 0]? = some f) (hj : Joins f (v 0) (v 1)) :
    ∃ pts, followPath all map (v 0) all.length (idx 0) (v 1) [idx 0] (v 0 :: (interior f (v 0) ++ [v 1])) =
      .ok ((List.range all.length).map idx, v 0 :: pts) ∧ Walk all (v 0) ((List.range all.length).map idx) pts (v all.length) := by
  obtain ⟨pts1, h1⟩ := followPath_core hg H C all.length 0 [idx 0] (v 0 :: (interior f (v 0) ++ [v 1])) C.pos (by omega) (by
    intro h1
    rcases C.closing with ⟨h2, _⟩ | hc
    · omega
    · exact hc 0 C.pos)
  have hr : [idx 0] ++ (List.range' (0 + 1) (all.length - 1 - 0)).map idx = (List.range all.length).map idx := by
    have := C.pos
    rw [List.range_eq_range', show all.length = (all.length - 1 - 0) + 1 by omega, List.range'_succ]
    simp
  rw [hr] at h1
  have hw := Walk.cons hf hj (Walk.nil (v 1))
  rw [List.append_nil] at hw
  obtain ⟨path, pts, fin, h2, h3, _⟩ := followPath_walk hg H (v 0) all.length (idx 0) (v 1) [idx 0] _ hw rfl
    ⟨f, v 0, hf, hj.symm⟩ (by simp) (by simp; omega)
  have h1' := h1
  rw [show 0 + 1 = 1 from rfl, h2] at h1
  simp only [Res.ok.injEq, Prod.mk.injEq] at h1
  obtain ⟨rfl, rfl⟩ := h1
  refine ⟨pts, h2, ?_⟩
  obtain ⟨pts', hw'⟩ := C.walk all.length (le_refl _)
  have := h3.fin_unique hw'
  subst this
  exact h3

/-- C43: if the edges form an open chain, in whatever order they are stored and in whatever direction each of them is, the path uses
every edge exactly once and goes from the extremity with the smaller id to the other. -/
theorem C43_chain (all : List Feature) (hg : ∀ f ∈ all, GoodEdge f) (hne : all ≠ []) (v idx : Nat → Nat) (h : IsChain all v idx) :
    ∃ path pts, anyPath all = .ok (path, min (v 0) (v all.length) :: pts) ∧
      Walk all (min (v 0) (v all.length)) path pts (max (v 0) (v all.length)) ∧ path.Perm (List.range all.length) := by
  have hpos : 1 ≤ all.length := List.length_pos_iff.2 hne
  -- wlog the smaller extremity first
  have key : ∀ v idx : Nat → Nat, Core all v idx → (∀ i < all.length, v all.length ≠ v i) → v 0 < v all.length →
      ∃ path pts, anyPath all = .ok (path, v 0 :: pts) ∧ Walk all (v 0) path pts (v all.length) ∧
        path.Perm (List.range all.length) := by
    intro v idx C hcl hlt
    obtain ⟨map, s, e, f, q, H, hf, hj, hcase, heq⟩ := anyPath_start all hg hne
    have hend0 : ∀ e, IsEnd all e (v 0) ↔ e = idx 0 := by
      intro e
      rw [C.isEnd]
      constructor
      · rintro ⟨j, hj, rfl, h | h⟩
        · rw [← C.distinct 0 C.pos _ hj h]
        · exfalso
          rcases Nat.lt_or_ge (j + 1) all.length with hj' | hj'
          · have := C.distinct 0 C.pos _ hj' h; omega
          · have e : j + 1 = all.length := by omega
            rw [e] at h; exact hcl 0 C.pos h.symm
      · rintro rfl; exact ⟨0, C.pos, rfl, Or.inl rfl⟩
    simp only [ne_eq, deg_one_iff H C.noLoops] at hcase
    have hs : s = v 0 := by
      rcases hcase with ⟨⟨e1, h1⟩, h2⟩ | ⟨h1, _⟩
      · have hle := h2 (v 0) ⟨_, hend0⟩
        -- an extremity is the first or the last point
        obtain ⟨i, hi, _, h | h⟩ := (C.isEnd e s).1 ⟨f, q, hf, hj⟩
        · by_cases h0 : i = 0
          · rw [h, h0]
          · exfalso
            obtain ⟨i, rfl⟩ : ∃ k, i = k + 1 := ⟨i - 1, by omega⟩
            rw [h] at h1
            have ha := (h1 _).1 ((C.mid hi _).2 (Or.inl rfl))
            have hb := (h1 _).1 ((C.mid hi _).2 (Or.inr rfl))
            have := C.idx_inj _ (by omega) _ hi (ha.trans hb.symm); omega
        · exfalso
          rcases Nat.lt_or_ge (i + 1) all.length with hj' | hj'
          · rw [h] at h1
            have ha := (h1 _).1 ((C.mid hj' _).2 (Or.inl rfl))
            have hb := (h1 _).1 ((C.mid hj' _).2 (Or.inr rfl))
            have := C.idx_inj _ (by omega) _ hj' (ha.trans hb.symm); omega
          · have e : i + 1 = all.length := by omega
            rw [e] at h; omega
      · exact (h1 (v 0) ⟨_, hend0⟩).elim
    subst hs
    have he := (hend0 e).1 ⟨f, q, hf, hj⟩
    subst he
    obtain ⟨f', hf', hj'⟩ := C.joins 0 C.pos
    rw [hf, Option.some.injEq] at hf'; subst hf'
    have hq := hj.other hj'
    subst hq
    obtain ⟨pts, h1, h2⟩ := core_result hg H C hf hj
    exact ⟨_, pts, heq.trans h1, h2, C.surj⟩
  have hcl : ∀ i < all.length, v all.length ≠ v i := by
    intro i hi hc
    have := h.distinct _ (le_refl _) i (by omega) hc; omega
  have C : Core all v idx := {
    pos := hpos
    idx_lt := h.idx_lt
    idx_inj := h.idx_inj
    joins := h.joins
    distinct := fun i hi j hj hv => h.distinct i (by omega) j (by omega) hv
    closing := Or.inr hcl }
  rcases Nat.lt_or_ge (v 0) (v all.length) with hlt | hge
  · rw [min_eq_left hlt.le, max_eq_right hlt.le]
    exact key v idx C hcl hlt
  · have hne' : v all.length ≠ v 0 := hcl 0 hpos
    rw [min_eq_right hge, max_eq_left hge]
    obtain ⟨path, pts, h1, h2, h3⟩ := key _ _ C.reverse (by
      intro i hi hc
      simp only [Nat.sub_self] at hc
      have := h.distinct 0 (by omega) _ (by omega) hc; omega) (by simp only [Nat.sub_self, Nat.sub_zero]; omega)
    simp only [Nat.sub_self, Nat.sub_zero] at h1 h2
    exact ⟨path, pts, h1, h2, h3⟩

theorem IsRing.core {all : List Feature} {v idx : Nat → Nat} (h : IsRing all v idx) (k : Nat) :
    Core all (fun i => v (i + k)) (fun i => idx (i + k)) := by
  have hn : 0 < all.length := by have := h.two; omega
  have hvm : ∀ i, v (i % all.length) = v i := by
    intro i
    have : ∀ m j, v (j + all.length * m) = v j := by
      intro m
      induction m with
      | zero => intro j; simp
      | succ m ih => intro j; rw [Nat.mul_succ, ← Nat.add_assoc, h.v_per, ih]
    conv_rhs => rw [← Nat.mod_add_div i all.length]
    rw [this]
  have him : ∀ i, idx (i % all.length) = idx i := by
    intro i
    have : ∀ m j, idx (j + all.length * m) = idx j := by
      intro m
      induction m with
      | zero => intro j; simp
      | succ m ih => intro j; rw [Nat.mul_succ, ← Nat.add_assoc, h.idx_per, ih]
    conv_rhs => rw [← Nat.mod_add_div i all.length]
    rw [this]
  have hmod : ∀ i j, i < all.length → j < all.length → (i + k) % all.length = (j + k) % all.length → i = j := by
    intro i j hi hj hh
    have h1 : i + k ≡ j + k [MOD all.length] := hh
    have h2 := Nat.ModEq.add_right_cancel' k h1
    rwa [Nat.ModEq, Nat.mod_eq_of_lt hi, Nat.mod_eq_of_lt hj] at h2
  refine ⟨hn, fun i _ => h.idx_lt _, ?_, ?_, ?_, Or.inl ⟨h.two, ?_⟩⟩
  · intro i hi j hj hh
    rw [← him (i + k), ← him (j + k)] at hh
    exact hmod i j hi hj (h.idx_inj _ (Nat.mod_lt _ hn) _ (Nat.mod_lt _ hn) hh)
  · intro i _
    rw [show i + 1 + k = i + k + 1 by omega]
    exact h.joins _
  · intro i hi j hj hh
    rw [← hvm (i + k), ← hvm (j + k)] at hh
    exact hmod i j hi hj (h.distinct _ (Nat.mod_lt _ hn) _ (Nat.mod_lt _ hn) hh)
  · show v (all.length + k) = v (0 + k)
    rw [Nat.add_comm, h.v_per, Nat.zero_add]

/-- C43: if the edges form a closed ring, in whatever order and direction they are stored, the path starts at the point with the
smallest id, uses every edge exactly once and comes back to the start. -/
theorem C43_ring (all : List Feature) (hg : ∀ f ∈ all, GoodEdge f) (v idx : Nat → Nat) (h : IsRing all v idx) :
    ∃ k path pts, (∀ i, v k ≤ v i) ∧ anyPath all = .ok (path, v k :: pts) ∧ Walk all (v k) path pts (v k) ∧
      path.Perm (List.range all.length) := by
  have hne : all ≠ [] := by rintro rfl; have := h.two; simp at this
  obtain ⟨map, s, e, f, q, H, hf, hj, hcase, heq⟩ := anyPath_start all hg hne
  have C0 : Core all v idx := by simpa using h.core 0
  have h2 := h.two
  simp only [ne_eq, deg_one_iff H C0.noLoops] at hcase
  obtain ⟨k, hk, _, hsk⟩ := (C0.isEnd e s).1 ⟨f, q, hf, hj⟩
  obtain ⟨k, rfl⟩ : ∃ k, s = v k := by rcases hsk with rfl | rfl <;> exact ⟨_, rfl⟩
  have C := h.core k
  have hmin : ∀ i, v k ≤ v i := by
    rcases hcase with ⟨⟨e1, he1⟩, _⟩ | ⟨_, h3⟩
    · exfalso
      have hC := h.core (k + all.length - 1)
      have hm := hC.mid (i := 0) (by omega)
      have hv : v (0 + 1 + (k + all.length - 1)) = v k := by
        rw [show 0 + 1 + (k + all.length - 1) = k + all.length by omega, h.v_per]
      rw [hv] at hm
      have ha := (he1 _).1 ((hm _).2 (Or.inl rfl))
      have hb := (he1 _).1 ((hm _).2 (Or.inr rfl))
      have := hC.idx_inj 0 (by omega) (0 + 1) (by omega) (ha.trans hb.symm)
      omega
    · intro i
      obtain ⟨f', hf', hj'⟩ := h.joins i
      exact h3 _ (idx i) ⟨f', _, hf', hj'⟩
  -- both directions
  have fin : ∀ v' idx' : Nat → Nat, Core all v' idx' → v' 0 = v k → v' all.length = v k → e = idx' 0 →
      ∃ path pts, anyPath all = .ok (path, v k :: pts) ∧ Walk all (v k) path pts (v k) ∧ path.Perm (List.range all.length) := by
    intro v' idx' C' hv0 hvn he
    subst he
    obtain ⟨f', hf', hj'⟩ := C'.joins 0 C'.pos
    rw [hf, Option.some.injEq] at hf'; subst hf'
    rw [hv0] at hj'
    have hq := hj.other hj'
    subst hq
    rw [← hv0] at hj'
    obtain ⟨pts, r1, r2⟩ := core_result hg H C' hf hj'
    rw [hv0] at r1 r2
    rw [hvn] at r2
    exact ⟨_, pts, heq.trans r1, r2, C'.surj⟩
  refine ⟨k, ?_⟩
  obtain ⟨i, hi, he, hv⟩ := (C.isEnd e (v k)).1 ⟨f, q, hf, hj⟩
  have hv0 : v k = v (0 + k) := by rw [Nat.zero_add]
  have hfirst : i = 0 ∨ i + 1 = all.length := by
    rcases hv with hv | hv
    · exact Or.inl (C.distinct 0 C.pos i hi (hv0 ▸ hv)).symm
    · rcases Nat.lt_or_ge (i + 1) all.length with h' | h'
      · have := C.distinct 0 C.pos (i + 1) h' (hv0 ▸ hv); omega
      · exact Or.inr (by omega)
  have hvn : v (all.length + k) = v k := by rw [Nat.add_comm, h.v_per]
  rcases hfirst with rfl | hlast
  · obtain ⟨path, pts, r⟩ := fin _ _ C (by simp) hvn he
    exact ⟨path, pts, hmin, r⟩
  · obtain ⟨path, pts, r⟩ := fin _ _ C.reverse (by simpa using hvn) (by simp) (by
      rw [he, show all.length - 1 - 0 = i by omega])
    exact ⟨path, pts, hmin, r⟩

/-! ## Examples -/

/-- A chain 3 - 1 - 2 of a quadratic and a linear edge stored in reverse order; the quadratic edge is traversed from its second end. -/
def exChain : List Feature := [⟨.lin2, [1, 2], 0⟩, ⟨.lin3, [1, 3, 9], 0⟩]

example : ∀ f ∈ exChain, GoodEdge f := by intro f hf; simp [exChain] at hf; rcases hf with rfl | rfl <;> exact ⟨rfl, rfl⟩
example : IsChain exChain (fun i => if i = 0 then 3 else i) (fun i => 1 - i) where
  idx_lt := by decide
  idx_inj := by decide
  joins := by
    intro i hi
    have : i = 0 ∨ i = 1 := by simp [exChain] at hi; omega
    rcases this with rfl | rfl
    · exact ⟨_, rfl, Or.inr ⟨rfl, rfl⟩⟩
    · exact ⟨_, rfl, Or.inl ⟨rfl, rfl⟩⟩
  distinct := by decide
example : anyPath exChain = .ok ([0, 1], [2, 1, 9, 3]) := by decide +kernel

/-- A triangle. -/
def exRing : List Feature := [⟨.lin2, [5, 4], 0⟩, ⟨.lin2, [5, 7], 0⟩, ⟨.lin2, [7, 4], 0⟩]

example : ∀ f ∈ exRing, GoodEdge f := by intro f hf; simp [exRing] at hf; rcases hf with rfl | rfl | rfl <;> exact ⟨rfl, rfl⟩
example : IsRing exRing (fun i => [4, 5, 7].getD (i % 3) 0) (fun i => i % 3) where
  two := by decide
  v_per := by intro i; show [4, 5, 7].getD ((i + 3) % 3) 0 = _; rw [Nat.add_mod_right]
  idx_per := by intro i; show (i + 3) % 3 = _; rw [Nat.add_mod_right]
  idx_lt := by intro i; exact Nat.mod_lt _ (by decide)
  idx_inj := by decide
  joins := by
    intro i
    have : i % 3 = 0 ∨ i % 3 = 1 ∨ i % 3 = 2 := by omega
    rcases this with h | h | h
    · rw [h, show (i + 1) % 3 = 1 by omega]; exact ⟨_, rfl, Or.inr ⟨rfl, rfl⟩⟩
    · rw [h, show (i + 1) % 3 = 2 by omega]; exact ⟨_, rfl, Or.inl ⟨rfl, rfl⟩⟩
    · rw [h, show (i + 1) % 3 = 0 by omega]; exact ⟨_, rfl, Or.inl ⟨rfl, rfl⟩⟩
  distinct := by decide
example : anyPath exRing = .ok ([0, 1, 2], [4, 5, 7, 4]) := by decide +kernel

/-- For edges that are neither a chain nor a ring the path may use an edge twice (a triangle with a tail: `0 - 1 - 2 - 3 - 1`). -/
theorem C43_tail_revisits :
    anyPath [⟨.lin2, [0, 1], 0⟩, ⟨.lin2, [1, 2], 0⟩, ⟨.lin2, [2, 3], 0⟩, ⟨.lin2, [3, 1], 0⟩] =
      .ok ([0, 1, 2, 3, 0], [0, 1, 2, 3, 1, 0]) := by decide +kernel

end Gemlab.Props.AnyPath
