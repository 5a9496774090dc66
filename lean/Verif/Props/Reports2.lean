import Verif.Props.Reports
import Verif.Props.GraphDir
import Verif.Proofs.MeshText3
import Verif.Proofs.Features2

/-!
# C82 — statistics and printed summaries (directed graphs; edges and faces)
-/
namespace Gemlab.Reports
open Gemlab Gemlab.MeshText Gemlab.Spec Gemlab.GraphDir

/-! ## Directed graphs -/

/-- **C82.** After any history of calls, the numbers of edges and nodes are those of the table of edges. -/
theorem C82_directed_counts {W : Type} [LinearOrder W] [Add W] [Zero W] [One W] (big : W) (edges : List (Nat × Nat)) (ops : List (Op W))
    (g : GraphDir.Graph W) (hg : runOps big edges ops = .ok g) :
    dirNedge g = edges.length ∧ dirNnode g = (Finset.image Prod.fst edges.toFinset ∪ Finset.image Prod.snd edges.toFinset).card := by
  have H := Props.GraphDir.stateOf_run ops hg
  refine ⟨congrArg List.length H.hedges, ?_⟩
  unfold dirNnode
  rw [H.nnode]
  unfold countNodes
  rw [← List.card_toFinset]
  congr 1
  ext a
  simp only [List.mem_toFinset, List.mem_flatMap, List.mem_cons, List.not_mem_nil, or_false, Finset.mem_union, Finset.mem_image]
  constructor
  · rintro ⟨e, he, h | h⟩
    · exact Or.inl ⟨e, he, h.symm⟩
    · exact Or.inr ⟨e, he, h.symm⟩
  · rintro (⟨e, he, h⟩ | ⟨e, he, h⟩)
    · exact ⟨e, he, Or.inl h.symm⟩
    · exact ⟨e, he, Or.inr h.symm⟩

theorem wordsGo_blanks (k : Nat) (r cur : Text) :
    wordsGo (List.replicate (k + 1) ' ' ++ r) cur = (if cur = [] then [] else [cur.reverse]) ++ wordsGo r [] := by
  induction k generalizing cur with
  | zero =>
    rw [List.replicate_one, List.singleton_append, wordsGo.eq_def]
    simp only [show isWs ' ' = true from by decide, if_true]
    split <;> simp
  | succ k ih =>
    rw [List.replicate_succ, List.cons_append, wordsGo.eq_def]
    simp only [show isWs ' ' = true from by decide, if_true]
    split
    · rw [ih]; simp [*]
    · rw [ih]; simp

theorem words_padded (width : Nat) (es : List Text) (h : ∀ e ∈ es, IsWord e ∧ e.length < width) (cur : Text) (hc : cur ≠ []) :
    wordsGo (es.flatMap (fun e => padLeft e width) ++ [' ', '│']) cur = cur.reverse :: es ++ [['│']] := by
  induction es generalizing cur with
  | nil =>
    have := wordsGo_blanks 0 ['│'] cur
    simp only [List.flatMap_nil, List.nil_append]
    rw [show ([' ', '│'] : Text) = List.replicate (0 + 1) ' ' ++ ['│'] from rfl, this, if_neg hc]
    rfl
  | cons e es ih =>
    obtain ⟨h1, h2⟩ := h e (by simp)
    obtain ⟨k, hk⟩ : ∃ k, width - e.length = k + 1 := ⟨width - e.length - 1, by omega⟩
    rw [List.flatMap_cons]
    unfold padLeft
    rw [hk, List.append_assoc, List.append_assoc, wordsGo_blanks, if_neg hc, wordsGo_word e h1.2, List.append_nil]
    have := ih (fun e he => h e (by simp [he])) e.reverse (by simpa using h1.1)
    unfold padLeft at this
    rw [this]
    simp

theorem flatMap_lead (s : Text) (f : Nat → Text) (n : Nat) (hn : 0 < n) :
    ((List.range n).flatMap fun i => (if i > 0 then s else []) ++ f i) ++ s = (List.range n).flatMap fun i => f i ++ s := by
  induction n with
  | zero => omega
  | succ n ih =>
    rw [List.range_succ, List.flatMap_append, List.flatMap_append]
    by_cases h : 0 < n
    · rw [← ih h]; simp [h]
    · have : n = 0 := by omega
      subst this; simp

theorem flatMap_first (f : Nat → Text) (n : Nat) (hn : 0 < n) :
    ((List.range n).flatMap fun j => (if j = 0 then ['│'] else []) ++ f j) = '│' :: (List.range n).flatMap f := by
  obtain ⟨m, rfl⟩ : ∃ m, n = m + 1 := ⟨n - 1, by omega⟩
  rw [List.range_succ_eq_map, List.flatMap_cons, List.flatMap_cons, List.flatMap_map, List.flatMap_map]
  simp

theorem foldl_max_le (n : Nat) (f : Nat → Nat) (w : Nat) :
    let r := (List.range n).foldl (fun w j => max (f j) w) w
    w ≤ r ∧ (∀ j < n, f j ≤ r) ∧ (r = w ∨ ∃ j < n, r = f j) := by
  induction n with
  | zero => simp
  | succ n ih =>
    obtain ⟨h1, h2, h3⟩ := ih
    simp only [List.range_succ, List.foldl_append, List.foldl_cons, List.foldl_nil]
    refine ⟨by omega, ?_, ?_⟩
    · intro j hj
      rcases Nat.lt_succ_iff_lt_or_eq.1 hj with h | rfl
      · have := h2 j h; omega
      · omega
    · rcases max_choice (f n) ((List.range n).foldl (fun w j => max (f j) w) w) with h | h
      · right; exact ⟨n, by omega, h⟩
      · rw [h]
        rcases h3 with h3 | ⟨j, hj, h3⟩
        · left; exact h3
        · right; exact ⟨j, by omega, h3⟩

theorem foldl2_max (n m : Nat) (f : Nat → Nat → Nat) (w : Nat) :
    let r := (List.range n).foldl (fun w i => (List.range m).foldl (fun w j => max (f i j) w) w) w
    w ≤ r ∧ (∀ i < n, ∀ j < m, f i j ≤ r) ∧ (r = w ∨ ∃ i < n, ∃ j < m, r = f i j) := by
  induction n with
  | zero => simp
  | succ n ih =>
    obtain ⟨h1, h2, h3⟩ := ih
    simp only [List.range_succ, List.foldl_append, List.foldl_cons, List.foldl_nil]
    obtain ⟨g1, g2, g3⟩ := foldl_max_le m (f n) ((List.range n).foldl (fun w i => (List.range m).foldl (fun w j => max (f i j) w) w) w)
    refine ⟨by omega, ?_, ?_⟩
    · intro i hi j hj
      rcases Nat.lt_succ_iff_lt_or_eq.1 hi with h | rfl
      · have := h2 i h j hj; omega
      · exact g2 j hj
    · rcases g3 with h | ⟨j, hj, h⟩
      · rw [h]
        rcases h3 with h3 | ⟨i, hi, j, hj, h3⟩
        · left; exact h3
        · right; exact ⟨i, by omega, j, hj, h3⟩
      · right; exact ⟨n, by omega, j, hj, h⟩

/-- The text is a table with a frame: `n` rows of `n` columns, right-aligned in columns one blank wider than the widest entry `w`; the
words of row `i` are a bar, the `n` entries `e i 0, e i 1, …` and a bar. -/
structure IsTable (n : Nat) (e : Nat → Nat → Text) (t : Text) : Prop where
  table : ∃ w, (∀ i < n, ∀ j < n, (e i j).length ≤ w) ∧ (∃ i < n, ∃ j < n, (e i j).length = w) ∧ ∃ rows : List Text, rows.length = n ∧
    t = ['┌'] ++ List.replicate ((w + 1) * n + 1) ' ' ++ ['┐', '\n'] ++ (rows.flatMap fun r => r ++ ['\n']) ++
      ['└'] ++ List.replicate ((w + 1) * n + 1) ' ' ++ ['┘'] ∧
    ∀ (i : Nat) r, rows[i]? = some r → r.length = (w + 1) * n + 3 ∧
      words r = [['│']] ++ (List.range n).map (e i) ++ [['│']] ∧
      ∀ j < n, (r.drop (1 + (w + 1) * j)).take (w + 1) = List.replicate (w + 1 - (e i j).length) ' ' ++ e i j

theorem flatMap_const_length (l : List Nat) (f : Nat → Text) (k : Nat) (h : ∀ i ∈ l, (f i).length = k) : (l.flatMap f).length = k * l.length := by
  induction l with
  | nil => simp
  | cons a l ih =>
    rw [List.flatMap_cons, List.length_append, h a (by simp), ih (fun i hi => h i (by simp [hi])), List.length_cons]; ring

theorem flatMap_block (n k : Nat) (f : Nat → Text) (h : ∀ i < n, (f i).length = k) (j : Nat) (hj : j < n) (r : Text) :
    (((List.range n).flatMap f ++ r).drop (k * j)).take k = f j := by
  have hs : List.range n = List.range j ++ (j :: (List.range' (j + 1) (n - j - 1))) := by
    rw [List.range_eq_range', List.range_eq_range', ← List.range'_succ, show n - j - 1 + 1 = n - j by omega]
    have := List.range'_append_1 (s := 0) (m := j) (n := n - j)
    rw [show 0 + j = j by omega, show j + (n - j) = n by omega] at this
    exact this.symm
  have hl : ((List.range j).flatMap f).length = k * j := by
    rw [flatMap_const_length _ _ k (fun i hi => h i (by rw [List.mem_range] at hi; omega)), List.length_range]
  rw [hs, List.flatMap_append, List.flatMap_cons, List.append_assoc, ← hl, List.drop_left, List.append_assoc, ← h j hj, List.take_left]

theorem strMat_table {W : Type} [DecidableEq W] (fmt : W → Text) (big : W) (nextMat : Bool) (g : GraphDir.Graph W) (hn : 0 < g.nnode)
    (hwd : ∀ i j, IsWord (entry fmt big nextMat g i j)) :
    IsTable g.nnode (entry fmt big nextMat g) (strMat fmt big nextMat g) := by
  obtain ⟨_, h2, h3⟩ := foldl2_max g.nnode g.nnode (fun i j => (entry fmt big nextMat g i j).length) 0
  change ∀ i < _, ∀ j < _, _ ≤ maxWidth fmt big nextMat g at h2
  change maxWidth fmt big nextMat g = 0 ∨ ∃ i < _, ∃ j < _, maxWidth fmt big nextMat g = _ at h3
  refine ⟨maxWidth fmt big nextMat g, h2, ?_, (List.range g.nnode).map fun i => '│' :: ((List.range g.nnode).flatMap fun j =>
    padLeft (entry fmt big nextMat g i j) (maxWidth fmt big nextMat g + 1)) ++ [' ', '│'], by simp, ?_, ?_⟩
  · rcases h3 with h3 | ⟨i, hi, j, hj, h3⟩
    · have := h2 0 hn 0 hn
      exact ⟨0, hn, 0, hn, by omega⟩
    · exact ⟨i, hi, j, hj, h3.symm⟩
  · unfold strMat matBody
    have hb : blanks ((maxWidth fmt big nextMat g + 1) * g.nnode + 1) = List.replicate ((maxWidth fmt big nextMat g + 1) * g.nnode + 1) ' ' := by
      unfold blanks; congr 1; omega
    simp only [hb]
    have hin : ∀ i, ((List.range g.nnode).flatMap fun j => (if j = 0 then ['│'] else []) ++
        padLeft (entry fmt big nextMat g i j) (maxWidth fmt big nextMat g + 1)) = '│' :: (List.range g.nnode).flatMap fun j =>
        padLeft (entry fmt big nextMat g i j) (maxWidth fmt big nextMat g + 1) := fun i => flatMap_first _ _ hn
    simp only [hin]
    have := flatMap_lead " │\n".toList (fun i => '│' :: (List.range g.nnode).flatMap fun j =>
        padLeft (entry fmt big nextMat g i j) (maxWidth fmt big nextMat g + 1)) g.nnode hn
    rw [List.append_assoc (['┌'] ++ _ ++ _), List.append_assoc] at *
    rw [List.flatMap_map]
    simp only [List.append_assoc] at this ⊢
    rw [← List.append_assoc (List.flatMap _ _) " │\n".toList, this]
    simp
  · intro i r hr
    rw [List.getElem?_map, Option.map_eq_some_iff] at hr
    obtain ⟨i', hi', rfl⟩ := hr
    have hii : i < g.nnode ∧ i' = i := by
      obtain ⟨h, h'⟩ := List.getElem?_eq_some_iff.1 hi'
      simp at h h'
      exact ⟨h, h'.symm⟩
    obtain ⟨hi, rfl⟩ := hii
    have hlen : ∀ j < g.nnode, (padLeft (entry fmt big nextMat g i' j) (maxWidth fmt big nextMat g + 1)).length =
        maxWidth fmt big nextMat g + 1 := by
      intro j hj
      have := h2 i' hi j hj
      unfold padLeft
      rw [List.length_append, List.length_replicate]
      omega
    refine ⟨?_, ?_, ?_⟩
    · rw [List.length_append, List.length_cons, flatMap_const_length _ _ (maxWidth fmt big nextMat g + 1)
        (fun j hj => hlen j (List.mem_range.1 hj)), List.length_range]
      rfl
    · have := words_padded (maxWidth fmt big nextMat g + 1) ((List.range g.nnode).map (entry fmt big nextMat g i')) (by
        intro e he
        rw [List.mem_map] at he
        obtain ⟨j, hj, rfl⟩ := he
        have := h2 i' hi j (List.mem_range.1 hj)
        exact ⟨hwd i' j, by omega⟩) ['│'] (by simp)
      rw [List.flatMap_map] at this
      unfold words
      rw [List.cons_append, wordsGo.eq_def]
      simp only [show isWs '│' = false from by decide]
      exact this
    · intro j hj
      rw [show 1 + (maxWidth fmt big nextMat g + 1) * j = (maxWidth fmt big nextMat g + 1) * j + 1 by ring, List.cons_append,
        List.drop_succ_cons, flatMap_block g.nnode _ _ hlen j hj]
      rfl

/-- **C82.** The table of distances after any history of calls ending with `shortest_paths_fw`: for different nodes `i`, `j`, the entry is
`∞` if no walk from `i` to `j` weighs less than `big` (= `f64::MAX`), and otherwise the formatted least weight of a walk; on the diagonal
it is the formatted zero. Exact arithmetic; no parallel edges, no self-loops. `fmt` (the formatting of floating-point numbers) yields
words. -/
theorem C82_distances {K : Type} [AddCommGroup K] [LinearOrder K] [IsOrderedAddMonoid K] [One K] (fmt : K → Text)
    (hf : ∀ v, IsWord (fmt v)) (big : K) (hb : 0 < big) (h1 : 0 ≤ (1 : K)) (edges : List (Nat × Nat)) (hne : edges ≠ [])
    (hids : Props.GraphDir.GoodIds edges) (hpar : NoParallel edges) (hloop : NoSelfLoop edges) (ops : List (Op K))
    (hw : ∀ w ∈ Props.GraphDir.weightsAfter edges.length ops, w < big) (g : GraphDir.Graph K)
    (hg : runOps big edges (ops ++ [.shortestPathsFw]) = .ok g) :
    ∃ e : Nat → Nat → Text, IsTable (countNodes edges) e (strMat fmt big false g) ∧
      ∀ i j, i < countNodes edges → j < countNodes edges →
        let weights := {s : K | ∃ l, Path (GivenArc edges (Props.GraphDir.weightsAfter edges.length ops)) l i j s}
        ((¬ ∃ s ∈ weights, s < big) → e i j = ['∞']) ∧ (∀ s, IsLeast weights s → s < big → e i j = fmt s) ∧ (i = j → e i j = fmt 0) := by
  have hn := (Props.GraphDir.stateOf_run _ hg).nnode
  have hpos : 0 < g.nnode := by
    rw [hn]
    obtain ⟨e, es, rfl⟩ := List.exists_cons_of_ne_nil hne
    have := (hids e (by simp)).1
    omega
  have hwd : ∀ i j, IsWord (entry fmt big false g i j) := by
    intro i j
    unfold entry
    simp only [Bool.false_eq_true, if_false]
    split
    · exact ⟨by simp, by decide⟩
    · exact hf _
  refine ⟨entry fmt big false g, hn ▸ strMat_table fmt big false g hpos hwd, ?_⟩
  intro i j hi hj weights
  obtain ⟨ha, hb', hc⟩ := Props.GraphDir.C09_floyd_warshall big hb.le h1 edges hids hpar hloop ops hw g hg i j hi hj
  refine ⟨?_, ?_, ?_⟩
  · intro h
    have := hb' h
    unfold entry
    simp [this]
  · intro s hs hlt
    have h2 := ha ⟨s, hs.1, hlt⟩
    have h3 : g.dist i j = s := h2.unique hs
    unfold entry
    simp only [Bool.false_eq_true, if_false, h3]
    rw [if_neg hlt.ne]
  · intro h
    have := hc h
    unfold entry
    simp only [Bool.false_eq_true, if_false, this]
    rw [if_neg hb.ne]

/-- **C82.** The table of next hops after any history of calls ending with `shortest_paths_fw`: for different nodes `i`, `j`, the entry is
`∞` exactly if no walk from `i` to `j` weighs less than `big`; otherwise it is the second node of a walk from `i` to `j` of least weight. -/
theorem C82_next_hops {K : Type} [AddCommGroup K] [LinearOrder K] [IsOrderedAddMonoid K] [One K] (fmt : K → Text)
    (big : K) (hb : 0 < big) (h1 : 0 ≤ (1 : K)) (edges : List (Nat × Nat)) (hne : edges ≠ [])
    (hids : Props.GraphDir.GoodIds edges) (hpar : NoParallel edges) (ops : List (Op K))
    (hw : ∀ w ∈ Props.GraphDir.weightsAfter edges.length ops, w < big) (g : GraphDir.Graph K)
    (hg : runOps big edges (ops ++ [.shortestPathsFw]) = .ok g) :
    ∃ e : Nat → Nat → Text, IsTable (countNodes edges) e (strMat fmt big true g) ∧
      ∀ i j, i < countNodes edges → j < countNodes edges → i ≠ j →
        let A := GivenArc edges (Props.GraphDir.weightsAfter edges.length ops)
        ((¬ ∃ l s, Path A l i j s ∧ s < big) → e i j = ['∞']) ∧
        ((∃ l s, Path A l i j s ∧ s < big) → ∃ v l s, e i j = showNat v ∧ Path A (i :: v :: l) i j s ∧
          ∀ l' s', Path A l' i j s' → s ≤ s') := by
  have hn := (Props.GraphDir.stateOf_run _ hg).nnode
  have hpos : 0 < g.nnode := by
    rw [hn]
    obtain ⟨e, es, rfl⟩ := List.exists_cons_of_ne_nil hne
    have := (hids e (by simp)).1
    omega
  have hwd : ∀ i j, IsWord (entry fmt big true g i j) := by
    intro i j
    unfold entry
    simp only [if_true]
    split
    · exact ⟨by simp, by decide⟩
    · exact showNat_word _
  refine ⟨entry fmt big true g, hn ▸ strMat_table fmt big true g hpos hwd, ?_⟩
  intro i j hi hj hij A
  obtain ⟨hex, _, _, _, hA⟩ := Props.GraphDir.fw_ex hb.le h1 hids ops hw hg
  rw [Props.GraphDir.effArc_of_noParallel hpar] at hex hA
  obtain ⟨d1, d2, d3⟩ := Props.GraphDir.dist_least hex hA hi hj hij
  cases hnx : g.next i j with
  | none =>
    have hbig := hex.none_big i j hi hj hij hnx
    refine ⟨fun _ => by unfold entry; simp [hnx], ?_⟩
    rintro ⟨l, s, hp, hlt⟩
    have := d1 l s hp
    change g.dist i j ≤ s at this
    change g.dist i j = big at hbig
    rw [hbig] at this
    exact absurd hlt (not_lt.2 this)
  | some v =>
    obtain ⟨hlt, w, hw1, hw2, hw3⟩ := hex.some_lt i j v hi hj hij hnx
    refine ⟨?_, ?_⟩
    · intro hno
      obtain ⟨l, hp⟩ := d2 hlt
      exact absurd ⟨l, _, hp, hlt⟩ hno
    · intro _
      have hent : entry fmt big true g i j = showNat v := by unfold entry; simp [hnx]
      by_cases hvj : v = j
      · subst hvj
        refine ⟨v, [], w + 0, hent, .cons hw1 (.here v), ?_⟩
        intro l' s' hp
        rw [add_zero]
        exact (hw2 rfl).trans (d1 l' s' hp)
      · have hv := (hA i v w hw1).2
        have hle := hw3 hvj
        obtain ⟨_, e2, _⟩ := Props.GraphDir.dist_least hex hA hv hj hvj
        have hlt' : g.dist v j < big := lt_of_le_of_lt (le_trans (le_add_of_nonneg_left (hA i v w hw1).1) hle) hlt
        obtain ⟨l, hp⟩ := e2 hlt'
        change w + g.dist v j ≤ _ at hle
        change Path _ l v j (g.dist v j) at hp
        generalize g.dist v j = d at hle hp
        cases hp with
        | here => exact absurd rfl hvj
        | cons hq hp =>
          refine ⟨v, _, _, hent, .cons hw1 (.cons hq hp), ?_⟩
          intro l' s' hp'
          exact hle.trans (d1 l' s' hp')

/-- Witness: the text of an empty graph is not a table (its single row has no left bar), and `[]` goes to the console. -/
theorem C82_empty_graph (fmt : ℤ → Text) : strMat fmt 9 false (GraphDir.new [] : GraphDir.Graph ℤ) = "┌ ┐\n │\n└ ┘".toList ∧
    strMatConsole (GraphDir.new [] : GraphDir.Graph ℤ) = "[]".toList := ⟨rfl, rfl⟩

example : ((runOps (9 : ℤ) [(0, 1), (1, 2), (3, 0)] [.setWeight 1 4, .shortestPathsFw]).bind fun g => .ok (strMat showInt 9 false g)) =
    .ok ("┌         ┐\n│ 0 1 5 ∞ │\n│ ∞ 0 4 ∞ │\n│ ∞ ∞ 0 ∞ │\n│ 1 2 6 0 │\n└         ┘".toList) := by decide +kernel

example : Props.GraphDir.GoodIds [(0, 1), (1, 2), (3, 0)] ∧ NoParallel [(0, 1), (1, 2), (3, 0)] ∧ NoSelfLoop [(0, 1), (1, 2), (3, 0)] ∧
    ∀ w ∈ Props.GraphDir.weightsAfter 3 [Op.setWeight 1 (4 : ℤ)], w < 9 := by
  refine ⟨?_, ?_, ?_, ?_⟩
  · unfold Props.GraphDir.GoodIds; decide
  · unfold NoParallel; decide
  · unfold NoSelfLoop; decide
  · decide

end Gemlab.Reports
