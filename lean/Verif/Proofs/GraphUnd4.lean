import Verif.Proofs.GraphUnd3
import Verif.Spec.GraphSource

/-! # From user input to adjacency structure -/
namespace Gemlab.GraphUnd
open Gemlab.Spec

theorem maxIdPlusOne_spec (es : List (Nat × Nat)) :
    (∀ e ∈ es, e.1 < maxIdPlusOne es ∧ e.2 < maxIdPlusOne es) ∧
    (maxIdPlusOne es ≠ 0 → ∃ e ∈ es, maxIdPlusOne es = e.1 + 1 ∨ maxIdPlusOne es = e.2 + 1) := by
  induction es with
  | nil => simp [maxIdPlusOne]
  | cons e es ih =>
    have hc : maxIdPlusOne (e :: es) = max (maxIdPlusOne es) (max e.1 e.2 + 1) := rfl
    refine ⟨?_, ?_⟩
    · intro x hx
      rw [hc]
      rcases List.mem_cons.1 hx with rfl | hx
      · omega
      · have := ih.1 x hx; omega
    · intro _
      rcases Nat.lt_or_ge (maxIdPlusOne es) (max e.1 e.2 + 1) with h | h
      · refine ⟨e, by simp, ?_⟩
        rw [hc]; omega
      · obtain ⟨x, hx, hx'⟩ := ih.2 (by omega)
        exact ⟨x, by simp [hx], by rw [hc]; omega⟩

theorem countNodes_wf {es : List (Nat × Nat)} (h : (Source.edges es).WF) : countNodes es = maxIdPlusOne es := by
  obtain ⟨h1, h2⟩ := countNodes_aux es [] (by simp)
  apply nodup_length_eq h1
  intro x
  rw [h2]
  simp only [List.not_mem_nil, false_or]
  constructor
  · rintro ⟨e, he, hx⟩
    have := (maxIdPlusOne_spec es).1 e he
    omega
  · intro hx
    obtain ⟨e, he, hx⟩ := h x hx
    exact ⟨e, he, hx⟩

theorem countNodes_not_wf {es : List (Nat × Nat)} (h : ¬ (Source.edges es).WF) :
    ∃ e ∈ es, ¬ (e.1 < countNodes es ∧ e.2 < countNodes es) := by
  by_contra hc
  push Not at hc
  apply h
  obtain ⟨h1, h2⟩ := countNodes_aux es [] (by simp)
  simp only [List.not_mem_nil, false_or] at h2
  change ∀ x, x ∈ _ ↔ _ at h2
  intro i hi
  have hmax : maxIdPlusOne es ≤ countNodes es := by
    by_cases h0 : maxIdPlusOne es = 0
    · omega
    · obtain ⟨e, he, he'⟩ := (maxIdPlusOne_spec es).2 h0
      have := hc e he; omega
  have := nodup_lt_mem h1 (fun x hx => by
    obtain ⟨e, he, hx⟩ := (h2 x).1 hx
    have h3 := hc e he
    change x < countNodes es
    omega) i (by change i < countNodes es; omega)
  exact (h2 i).1 this

theorem mem_cellPairs {c : List Nat} {a b : Nat} : (a, b) ∈ cellPairs c ↔ a ∈ c ∧ b ∈ c ∧ a ≠ b := by
  unfold cellPairs
  simp only [List.mem_flatMap, List.mem_map, List.mem_filter, Prod.mk.injEq]
  constructor
  · rintro ⟨x, hx, y, ⟨hy, hyx⟩, rfl, rfl⟩
    simp only [ne_eq, decide_not, Bool.not_eq_eq_eq_not, Bool.not_true, decide_eq_false_iff_not] at hyx
    exact ⟨hx, hy, fun h => hyx h.symm⟩
  · rintro ⟨h1, h2, h3⟩
    exact ⟨a, h1, b, ⟨h2, by simp [Ne.symm h3]⟩, rfl, rfl⟩

/-- For acceptable input, the adjacency sets computed by the code, and the call of `from_adjacency_set`. -/
theorem build_adj (src : Source) (h : src.WF) : ∃ adj, adj.length = src.n ∧ AdjSym adj ∧
    (∀ x y, y ∈ nbr adj x ↔ src.Adj x y) ∧ ∀ cd cc, src.build cd cc = fromAdjacencySet adj cd cc := by
  cases src with
  | edges es =>
    obtain ⟨adj, h1, h2, h3, h4⟩ := adjInsertAll_replicate (maxIdPlusOne es) es (maxIdPlusOne_spec es).1
    refine ⟨adj, h2, h4, h3, fun cd cc => ?_⟩
    simp only [Source.build, fromEdges, countNodes_wf h, h1, Res.bind_ok]
  | mesh npoint cells =>
    have hes : ∀ e ∈ cells.flatMap cellPairs, e.1 < npoint ∧ e.2 < npoint := by
      rintro ⟨a, b⟩ he
      obtain ⟨c, hc, hab⟩ := List.mem_flatMap.1 he
      rw [mem_cellPairs] at hab
      exact ⟨h c hc a hab.1, h c hc b hab.2.1⟩
    obtain ⟨adj, h1, h2, h3, h4⟩ := adjInsertAll_replicate npoint _ hes
    refine ⟨adj, h2, h4, ?_, fun cd cc => ?_⟩
    · intro x y
      rw [h3]
      simp only [List.mem_flatMap, mem_cellPairs, Source.Adj]
      constructor
      · rintro (⟨c, hc, h1, h2, h3⟩ | ⟨c, hc, h1, h2, h3⟩)
        · exact ⟨h3, c, hc, h1, h2⟩
        · exact ⟨Ne.symm h3, c, hc, h2, h1⟩
      · rintro ⟨h3, c, hc, h1, h2⟩
        exact Or.inl ⟨c, hc, h1, h2, h3⟩
    · simp only [Source.build, fromMesh, h1, Res.bind_ok]

/-- The stored adjacency of a graph object. -/
structure Facts (src : Source) (cd : Bool) (g : Graph) : Prop where
  len : g.adjacency.length = src.n
  sym : AdjSym g.adjacency
  mem : ∀ x y, y ∈ nbr g.adjacency x ↔ src.Adj x y
  deg : g.degree = if cd then g.adjacency.map List.length else []
  pmin : g.pMinDegree = pMinDegree g.degree
  nedge : g.nedge = (g.adjacency.map List.length).sum / 2
  elen : g.explored.length = g.adjacency.length
  sorted : ∀ a, (nbr g.adjacency a).Pairwise (fun p q =>
    if cd then leByDegree g.degree p q = true else p ≤ q)

theorem fromAdjacencySet_facts {src : Source} {adj : List (List Nat)} (h1 : adj.length = src.n) (h2 : AdjSym adj)
    (h3 : ∀ x y, y ∈ nbr adj x ↔ src.Adj x y) (cd cc : Bool) (hn : cc = true → 0 < src.n) (g : Graph)
    (h : fromAdjacencySet adj cd cc = .ok g) : Facts src cd g := by
  obtain ⟨e, he, h4⟩ := fromAdjacencySet_eq adj h2.ok cd cc (by rw [h1]; exact hn)
  rcases h4 with ⟨_, _, h4⟩ | ⟨_, h4⟩
  · rw [h4] at h; simp at h
  · rw [h4] at h
    injection h with h
    have hdl : (adj.map (sortRow cd adj)).map List.length = adj.map List.length := by
      rw [List.map_map]; apply List.map_congr_left
      intro row _; exact (sortRow_perm cd adj row).length_eq
    have hnbr : ∀ a, nbr (adj.map (sortRow cd adj)) a = sortRow cd adj (nbr adj a) :=
      fun a => nbr_map _ (sortRow_nil cd adj) adj a
    subst h
    constructor
    · simpa using h1
    · constructor
      · intro a b hb
        simp only at hb ⊢
        rw [hnbr, (sortRow_perm cd adj _).mem_iff] at hb
        simpa using h2.ok a b hb
      · intro a b
        simp only
        rw [hnbr, hnbr, (sortRow_perm cd adj _).mem_iff, (sortRow_perm cd adj _).mem_iff]
        exact h2.symm a b
      · intro a
        simp only
        rw [hnbr, (sortRow_perm cd adj _).nodup_iff]
        exact h2.nodup a
    · intro x y
      simp only
      rw [hnbr, (sortRow_perm cd adj _).mem_iff]; exact h3 x y
    · simp only; rw [hdl]
    · rfl
    · simp only; rw [hdl]
    · simpa using he
    · intro a
      simp only
      rw [hnbr]
      cases cd with
      | true =>
        simp only [sortRow, if_true]
        have : Std.Total (fun p q => leByDegree (adj.map List.length) p q = true) :=
          ⟨fun a b => by simpa using leByDegree_total (adj.map List.length) a b⟩
        have : IsTrans Nat (fun p q => leByDegree (adj.map List.length) p q = true) :=
          ⟨fun a b c => leByDegree_trans _ a b c⟩
        exact List.pairwise_insertionSort _ _
      | false =>
        simp only [sortRow, Bool.false_eq_true, if_false]
        exact List.pairwise_insertionSort _ _

theorem build_panic_of_empty {src : Source} (hw : src.WF) (h0 : src.n = 0) (cd : Bool) :
    src.build cd true = .panic := by
  obtain ⟨adj, h1, _, _, h4⟩ := build_adj src hw
  rw [h4]
  have : adj = [] := by rw [h0] at h1; exact List.length_eq_zero_iff.1 h1
  subst this
  simp [fromAdjacencySet, bfs]

theorem _root_.Gemlab.Spec.IsGraphOf.facts {src : Source} {cd : Bool} {g : Graph} (hw : src.WF) (h : IsGraphOf src cd g) :
    Facts src cd g := by
  obtain ⟨cc, g0, hb, e1, e2, e3, e4, e5⟩ := h
  obtain ⟨adj, h1, h2, h3, h4⟩ := build_adj src hw
  have hn : cc = true → 0 < src.n := by
    rintro rfl
    rcases Nat.eq_zero_or_pos src.n with h0 | h0
    · rw [build_panic_of_empty hw h0] at hb; simp at hb
    · exact h0
  rw [h4] at hb
  have F := fromAdjacencySet_facts h1 h2 h3 cd cc hn g0 hb
  constructor
  · rw [e1]; exact F.len
  · rw [e1]; exact F.sym
  · rw [e1]; exact F.mem
  · rw [e1, e2]; exact F.deg
  · rw [e3, e2]; exact F.pmin
  · rw [e4, e1]; exact F.nedge
  · exact e5
  · rw [e1, e2]; exact F.sorted

theorem edge_eq {src : Source} {cd : Bool} {g : Graph} (F : Facts src cd g) : Edge g.adjacency = src.Adj := by
  funext x y; exact propext (F.mem x y)

/-- Result of `calc_distance` in terms of the discovery log. -/
theorem calcDistance_eq {src : Source} {cd : Bool} {g : Graph} (F : Facts src cd g) {root : Nat} (hr : root < src.n) :
    ∃ l e, LogSpec g.adjacency root l ∧ e.length = g.adjacency.length ∧
      calcDistance g root = .ok ({ g with explored := e, queue := [], distance := (List.range src.n).map (gDist l) },
        ((List.range src.n).map (gDist l)).foldl (fun m d => if d > m then d else m) 0) := by
  have hr' : root < g.adjacency.length := by rw [F.len]; exact hr
  obtain ⟨l, e, hl, he, _, hrun⟩ := bfs_log F.sym.ok hr'
  refine ⟨l, e, hl, he, ?_⟩
  unfold calcDistance
  simp only
  rw [if_neg (by rw [F.elen]; omega), hrun, replay_dist l hl.bounds]
  simp only [Res.bind_ok, F.len]

theorem isDistance_unique {E : Nat → Nat → Prop} {a b k j : Nat} (h1 : IsDistance E a b k) (h2 : IsDistance E a b j) :
    k = j := by
  obtain ⟨⟨w, hw, hl⟩, hk⟩ := h1
  obtain ⟨⟨w', hw', hl'⟩, hj⟩ := h2
  have := hk w' hw'; have := hj w hw; omega

theorem isDistance_symm {E : Nat → Nat → Prop} (hs : ∀ x y, E x y → E y x) {a b k : Nat}
    (h : IsDistance E a b k) : IsDistance E b a k := by
  obtain ⟨h1, h2⟩ := h
  refine isDistance_of ((walkN_iff.2 h1).symm hs) ?_
  intro j hj
  obtain ⟨w, hw, hl⟩ := walkN_iff.1 (hj.symm hs)
  have := h2 w hw; omega

end Gemlab.GraphUnd
