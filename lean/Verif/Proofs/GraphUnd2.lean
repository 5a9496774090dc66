import Verif.Proofs.GraphUnd

/-! # Helper lemmas for the undirected graph: back-tracking, construction, histories -/
namespace Gemlab.GraphUnd
open Gemlab.Spec

theorem gDist_le_length (l : List (Nat × Nat)) (x : Nat) : gDist l x ≤ l.length := by
  induction l using List.reverseRecOn generalizing x with
  | nil => simp [gDist]
  | append_singleton l ba ih =>
    obtain ⟨b, a⟩ := ba
    rw [gDist_snoc]
    by_cases hx : x = b
    · subst hx; simp [ih]
    · rw [Function.update_of_ne hx]; have := ih x; simp; omega

theorem backtrack_walk {adj : List (List Nat)} {r : Nat} {l : List (Nat × Nat)} (h : LogSpec adj r l)
    (fuel u : Nat) (path : List Nat) (hu : u ∈ r :: l.map Prod.fst) (hf : gDist l u ≤ fuel) :
    ∃ w, backtrack ((List.range adj.length).map (gPar l)) fuel u path = some (.ok (w ++ path)) ∧
      IsWalk (Edge adj) (w ++ [u]) r u ∧ w.length = gDist l u := by
  have hlt := h.lt u hu
  have hget : ((List.range adj.length).map (gPar l))[u]? = some (gPar l u) := by simp [hlt]
  have hroot : gPar l r = none := by
    rw [gPar_eq_none]; exact (List.nodup_cons.1 h.nodup).1
  induction fuel generalizing u path with
  | zero =>
    rcases List.mem_cons.1 hu with rfl | hu'
    · refine ⟨[], ?_, by simp [IsWalk], by simp [h.root]⟩
      rw [backtrack, hget, hroot]; simp
    · obtain ⟨ba, hba, rfl⟩ := List.mem_map.1 hu'
      have := (h.par ba hba).2.2; omega
  | succ fuel ih =>
    cases hp : gPar l u with
    | none =>
      rcases List.mem_cons.1 hu with rfl | hu'
      · refine ⟨[], ?_, by simp [IsWalk], by simp [h.root]⟩
        rw [backtrack, hget, hroot]; simp
      · rw [gPar_eq_none] at hp; exact absurd hu' hp
    | some p =>
      have hm := gPar_eq_some hp
      obtain ⟨h1, h2, h3⟩ := h.par _ hm
      simp only at h1 h2 h3
      have hplt := h.lt p h1
      obtain ⟨w, hw1, hw2, hw3⟩ := ih p (p :: path) h1 (by omega) hplt (by simp [hplt])
      refine ⟨w ++ [p], ?_, ?_, by simp [hw3, h3]⟩
      · rw [backtrack, hget, hp]; simp only; rw [hw1]; simp
      · obtain ⟨a1, a2, a3⟩ := hw2
        refine ⟨by cases w <;> simp_all, by simp, ?_⟩
        rw [List.isChain_append]
        refine ⟨a3, by simp, ?_⟩
        intro x hx y hy
        rw [a2] at hx; simp at hx hy; subst hx; subst hy; exact h2

theorem backtrack_unreached {adj : List (List Nat)} {r : Nat} {l : List (Nat × Nat)}
    (fuel u : Nat) (path : List Nat) (hu : u ∉ r :: l.map Prod.fst) (hlt : u < adj.length) :
    backtrack ((List.range adj.length).map (gPar l)) fuel u path = some (.ok path) := by
  have hp : gPar l u = none := by
    rw [gPar_eq_none]; intro hx; exact hu (List.mem_cons_of_mem _ hx)
  have hget : ((List.range adj.length).map (gPar l))[u]? = some none := by simp [hlt, hp]
  cases fuel <;> rw [backtrack, hget]

/-! ### construction -/

/-- Symmetric adjacency between existing nodes, without repetition. -/
structure AdjSym (adj : List (List Nat)) : Prop where
  ok : AdjOk adj
  symm : ∀ a b, b ∈ nbr adj a → a ∈ nbr adj b
  nodup : ∀ a, (nbr adj a).Nodup

/-- The graph-theoretic part of the structure never changes; `explored` keeps its length. -/
structure Valid (g : Graph) : Prop where
  adj : AdjSym g.adjacency
  elen : g.explored.length = g.adjacency.length

theorem nbr_map (f : List Nat → List Nat) (hf : f [] = []) (adj : List (List Nat)) (a : Nat) :
    nbr (adj.map f) a = f (nbr adj a) := by
  unfold nbr
  by_cases h : a < adj.length
  · simp [List.getD, h]
  · simp [List.getD, h, hf]

/-- The function that sorts the rows (by degree or by id). -/
def sortRow (calcDegree : Bool) (adjSet : List (List Nat)) (row : List Nat) : List Nat :=
  if calcDegree then row.insertionSort (fun p q => leByDegree (adjSet.map List.length) p q = true)
  else row.insertionSort (fun p q => p ≤ q)

theorem sortRow_perm (cd : Bool) (adjSet : List (List Nat)) (row : List Nat) :
    (sortRow cd adjSet row).Perm row := by
  unfold sortRow; split <;> exact List.perm_insertionSort _ _

@[simp] theorem sortRow_nil (cd : Bool) (adjSet : List (List Nat)) : sortRow cd adjSet [] = [] := by
  have := sortRow_perm cd adjSet []; simpa using this

theorem leByDegree_trans (d : List Nat) (a b c : Nat) (h1 : leByDegree d a b = true) (h2 : leByDegree d b c = true) :
    leByDegree d a c = true := by
  simp [leByDegree] at *; omega

theorem leByDegree_total (d : List Nat) (a b : Nat) : (leByDegree d a b || leByDegree d b a) = true := by
  simp [leByDegree]; omega

/-- What `from_adjacency_set` returns. -/
theorem fromAdjacencySet_eq (adjSet : List (List Nat)) (hok : AdjOk adjSet) (cd cc : Bool)
    (hn : cc = true → 0 < adjSet.length) :
    ∃ e : List Bool, e.length = adjSet.length ∧
      ((cc = true ∧ ¬ (∀ u, u < adjSet.length → Reach (Edge adjSet) 0 u) ∧
        fromAdjacencySet adjSet cd cc = .err msgDisconnected) ∨
      ((cc = false ∨ (∀ u, u < adjSet.length → Reach (Edge adjSet) 0 u)) ∧
        fromAdjacencySet adjSet cd cc = .ok
          { adjacency := adjSet.map (sortRow cd adjSet), queue := [], explored := e,
            nedge := (adjSet.map List.length).sum / 2,
            degree := if cd then adjSet.map List.length else [],
            pMinDegree := pMinDegree (if cd then adjSet.map List.length else []), distance := [], parent := [] })) := by
  have hlen : (List.map List.length (adjSet.map (sortRow cd adjSet))) = adjSet.map List.length := by
    rw [List.map_map]; apply List.map_congr_left
    intro row _; exact (sortRow_perm cd adjSet row).length_eq
  have hadj : (if cd then adjSet.map (fun row => row.insertionSort (fun p q => leByDegree (adjSet.map List.length) p q = true))
      else adjSet.map (fun row => row.insertionSort (fun p q => p ≤ q))) = adjSet.map (sortRow cd adjSet) := by
    cases cd <;> simp [sortRow]
  have hadj' : ∀ d : List Nat, d = (if cd then adjSet.map List.length else []) →
      (if cd then adjSet.map (fun row => row.insertionSort (fun p q => leByDegree d p q = true))
      else adjSet.map (fun row => row.insertionSort (fun p q => p ≤ q))) = adjSet.map (sortRow cd adjSet) := by
    rintro d rfl; rw [← hadj]; cases cd <;> simp
  cases cc with
  | false =>
    refine ⟨List.replicate adjSet.length false, by simp, Or.inr ⟨Or.inl rfl, ?_⟩⟩
    simp only [fromAdjacencySet, Bool.false_eq_true, if_false]
    rw [hadj' _ rfl, hlen]
  | true =>
    obtain ⟨l, e, hl, he, hex, hrun⟩ := bfs_log hok (hn rfl)
    have hb : bfs (fun _ _ (u : Unit) => .ok u) adjSet 0 () = .ok ⟨e, [], ()⟩ := by
      rw [hrun]
      have : ∀ l : List (Nat × Nat), replay (fun _ _ (u : Unit) => .ok u) l () = .ok () := by
        intro l; induction l with
        | nil => rfl
        | cons x xs ih => simp [ih]
      rw [this]; rfl
    have hall : e.all id = true ↔ ∀ u, u < adjSet.length → Reach (Edge adjSet) 0 u := by
      rw [List.all_eq_true]
      constructor
      · intro h u hu
        have h1 := hex u hu
        have h2 := h _ (List.mem_of_getElem? h1)
        simp only [id, decide_eq_true_eq] at h2
        exact hl.mem_iff.1 h2
      · intro h x hx
        obtain ⟨i, hi, rfl⟩ := List.mem_iff_getElem.1 hx
        have h1 := hex i (by omega)
        rw [List.getElem?_eq_getElem hi] at h1
        injection h1 with h1
        rw [h1]
        simp only [id, decide_eq_true_eq]
        exact hl.mem_iff.2 (h i (by omega))
    refine ⟨e, he, ?_⟩
    by_cases hc : e.all id = true
    · refine Or.inr ⟨Or.inr (hall.1 hc), ?_⟩
      simp only [fromAdjacencySet, if_true, hb, hc]
      rw [hadj' _ rfl, hlen]
    · refine Or.inl ⟨rfl, fun h => hc (hall.2 h), ?_⟩
      simp only [fromAdjacencySet, if_true, hb, hc]
      rfl

theorem setInsert_mem {s : List Nat} {x y : Nat} : y ∈ setInsert s x ↔ y ∈ s ∨ y = x := by
  unfold setInsert; split
  · constructor
    · exact Or.inl
    · rintro (h | rfl) <;> assumption
  · simp

theorem setInsert_nodup {s : List Nat} {x : Nat} (h : s.Nodup) : (setInsert s x).Nodup := by
  unfold setInsert; split
  · exact h
  · rename_i hx
    rw [List.nodup_append]
    refine ⟨h, by simp, ?_⟩
    intro a ha b hb
    simp at hb; subst hb; rintro rfl; exact hx ha

theorem adjInsert_ok {adj : List (List Nat)} {a b : Nat} (ha : a < adj.length) :
    adjInsert adj a b = .ok (adj.set a (setInsert (nbr adj a) b)) := by
  unfold adjInsert
  have : Res.idx adj a = .ok (nbr adj a) := by rw [Res.idx_eq_ok]; exact nbr_eq ha
  rw [this]; simp only [Res.bind_ok]; exact Res.setIdx_of_lt ha

theorem nbr_set {adj : List (List Nat)} {a x : Nat} {row : List Nat} (ha : a < adj.length) :
    nbr (adj.set a row) x = if x = a then row else nbr adj x := by
  unfold nbr
  simp only [List.getD, List.getElem?_set]
  by_cases hx : a = x
  · subst hx; simp [ha]
  · simp [hx, Ne.symm hx]

theorem adjInsert2_ok {adj : List (List Nat)} {a b : Nat} (ha : a < adj.length) (hb : b < adj.length) :
    ∃ adj', adjInsert2 adj a b = .ok adj' ∧ adj'.length = adj.length ∧
      (∀ x y, y ∈ nbr adj' x ↔ y ∈ nbr adj x ∨ (x = a ∧ y = b) ∨ (x = b ∧ y = a)) ∧
      ((∀ x, (nbr adj x).Nodup) → ∀ x, (nbr adj' x).Nodup) := by
  unfold adjInsert2
  rw [adjInsert_ok ha]
  simp only [Res.bind_ok]
  rw [adjInsert_ok (by simpa using hb)]
  refine ⟨_, rfl, by simp, ?_, ?_⟩
  · intro x y
    rw [nbr_set (by simpa using hb)]
    split
    · rename_i hx; subst hx
      rw [setInsert_mem, nbr_set ha]
      split
      · rename_i hx; subst hx; rw [setInsert_mem]; tauto
      · rename_i hx; tauto
    · rename_i hx
      rw [nbr_set ha]
      split
      · rename_i hx; subst hx; rw [setInsert_mem]; tauto
      · tauto
  · intro hn x
    rw [nbr_set (by simpa using hb)]
    split
    · apply setInsert_nodup
      rw [nbr_set ha]; split
      · exact setInsert_nodup (hn _)
      · exact hn _
    · rw [nbr_set ha]; split
      · exact setInsert_nodup (hn _)
      · exact hn _

theorem adjInsertAll_ok (es : List (Nat × Nat)) (adj : List (List Nat))
    (hes : ∀ e ∈ es, e.1 < adj.length ∧ e.2 < adj.length) :
    ∃ adj', adjInsertAll adj es = .ok adj' ∧ adj'.length = adj.length ∧
      (∀ x y, y ∈ nbr adj' x ↔ y ∈ nbr adj x ∨ (x, y) ∈ es ∨ (y, x) ∈ es) ∧
      ((∀ x, (nbr adj x).Nodup) → ∀ x, (nbr adj' x).Nodup) := by
  induction es generalizing adj with
  | nil => exact ⟨adj, rfl, rfl, by simp, fun h => h⟩
  | cons e es ih =>
    obtain ⟨a, b⟩ := e
    obtain ⟨ha, hb⟩ := hes (a, b) (by simp)
    obtain ⟨adj1, h1, h2, h3, h4⟩ := adjInsert2_ok ha hb
    obtain ⟨adj2, k1, k2, k3, k4⟩ := ih adj1 (fun e he => by rw [h2]; exact hes e (by simp [he]))
    refine ⟨adj2, ?_, by rw [k2, h2], ?_, fun h => k4 (h4 h)⟩
    · rw [adjInsertAll, h1]; exact k1
    · intro x y
      rw [k3, h3]
      simp only [List.mem_cons, Prod.mk.injEq]
      tauto

/-- If some id is out of range the construction panics. -/
theorem adjInsertAll_panic (es : List (Nat × Nat)) (adj : List (List Nat))
    (hes : ∃ e ∈ es, ¬ (e.1 < adj.length ∧ e.2 < adj.length)) : adjInsertAll adj es = .panic := by
  induction es generalizing adj with
  | nil => simp at hes
  | cons e es ih =>
    obtain ⟨a, b⟩ := e
    rw [adjInsertAll]
    by_cases hab : a < adj.length ∧ b < adj.length
    · obtain ⟨adj1, h1, h2, _⟩ := adjInsert2_ok hab.1 hab.2
      rw [h1]; simp only [Res.bind_ok]
      apply ih
      rw [h2]
      obtain ⟨e, he, hne⟩ := hes
      rcases List.mem_cons.1 he with rfl | he
      · exact absurd hab hne
      · exact ⟨e, he, hne⟩
    · have : adjInsert2 adj a b = .panic := by
        unfold adjInsert2
        by_cases ha : a < adj.length
        · rw [adjInsert_ok ha]; simp only [Res.bind_ok]
          have hb : ¬ b < adj.length := fun hb => hab ⟨ha, hb⟩
          unfold adjInsert
          have : Res.idx (adj.set a (setInsert (nbr adj a) b)) b = .panic := by
            unfold Res.idx; simp [Nat.le_of_not_lt hb]
          rw [this]; rfl
        · unfold adjInsert
          have : Res.idx adj a = .panic := by unfold Res.idx; simp [Nat.le_of_not_lt ha]
          rw [this]; rfl
      rw [this]; rfl

theorem nbr_replicate (n x : Nat) : nbr (List.replicate n []) x = [] := by
  unfold nbr
  by_cases h : x < n <;> simp [List.getD, h]

/-- The set of pairs gives a symmetric adjacency. -/
theorem adjInsertAll_replicate (n : Nat) (es : List (Nat × Nat)) (hes : ∀ e ∈ es, e.1 < n ∧ e.2 < n) :
    ∃ adj', adjInsertAll (List.replicate n []) es = .ok adj' ∧ adj'.length = n ∧
      (∀ x y, y ∈ nbr adj' x ↔ (x, y) ∈ es ∨ (y, x) ∈ es) ∧ AdjSym adj' := by
  obtain ⟨adj', h1, h2, h3, h4⟩ := adjInsertAll_ok es (List.replicate n []) (by simpa using hes)
  have h2' : adj'.length = n := by simpa using h2
  have h3' : ∀ x y, y ∈ nbr adj' x ↔ (x, y) ∈ es ∨ (y, x) ∈ es := by
    intro x y; rw [h3, nbr_replicate]; simp
  refine ⟨adj', h1, h2', h3', ?_, ?_, h4 (fun x => by rw [nbr_replicate]; simp)⟩
  · intro a b hb
    rw [h3'] at hb
    rcases hb with hb | hb
    · have := (hes _ hb).2; simpa [h2'] using this
    · have := (hes _ hb).1; simpa [h2'] using this
  · intro a b; rw [h3', h3']; tauto

end Gemlab.GraphUnd
