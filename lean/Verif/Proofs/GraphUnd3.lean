import Verif.Proofs.GraphUnd2
import Mathlib.Data.List.Range
import Mathlib.Algebra.BigOperators.Group.Finset.Sigma
import Mathlib.Algebra.BigOperators.Group.Finset.Basic
import Mathlib.Algebra.BigOperators.Intervals
import Mathlib.Data.Finset.Card
import Mathlib.Data.Finset.Prod

/-! # Helper lemmas: argmin scans, counting, bandwidth, permutations -/
namespace Gemlab.GraphUnd
open Gemlab.Spec

/-! ### argmin scan of `pMinDegree` -/

theorem pMinDegree_aux (degree : List Nat) : 
    let st := degree.zipIdx.foldl (fun (acc : Nat × Option Nat) (dp : Nat × Nat) =>
      match acc.2 with
      | none => (dp.2, some dp.1)
      | some m => if dp.1 < m then (dp.2, some dp.1) else acc) (0, none)
    (degree = [] → st = (0, none)) ∧
    (degree ≠ [] → ∃ m, st.2 = some m ∧ degree[st.1]? = some m ∧ (∀ (j d : Nat), degree[j]? = some d → m ≤ d) ∧
      (∀ (j d : Nat), j < st.1 → degree[j]? = some d → m < d)) := by
  induction degree using List.reverseRecOn with
  | nil => simp
  | append_singleton xs x ih =>
    simp only [List.zipIdx_append, List.foldl_append, List.zipIdx_cons, List.zipIdx_nil, List.foldl_cons, List.foldl_nil]
    simp only at ih
    generalize List.foldl _ (0, none) xs.zipIdx = st at ih ⊢
    obtain ⟨ih1, ih2⟩ := ih
    refine ⟨by simp, fun _ => ?_⟩
    by_cases hx : xs = []
    · subst hx
      rw [ih1 rfl]
      refine ⟨x, rfl, by simp, ?_, by simp⟩
      intro j d hj
      cases j <;> simp_all
    · obtain ⟨m, h1, h2, h3, h4⟩ := ih2 hx
      have hlt : st.1 < xs.length := (List.getElem?_eq_some_iff.1 h2).1
      simp only [h1]
      by_cases hxm : x < m
      · rw [if_pos hxm]
        refine ⟨x, rfl, by simp, ?_, ?_⟩
        · intro j d hj
          rw [List.getElem?_append] at hj
          split at hj
          · have := h3 j d hj; omega
          · have := List.getElem?_eq_some_iff.1 hj
            simp at this; omega
        · intro j d hjl hj
          simp at hjl
          rw [List.getElem?_append_left hjl] at hj
          have := h3 j d hj; omega
      · rw [if_neg hxm]
        refine ⟨m, h1, by rw [List.getElem?_append_left hlt]; exact h2, ?_, ?_⟩
        · intro j d hj
          rw [List.getElem?_append] at hj
          split at hj
          · exact h3 j d hj
          · have := List.getElem?_eq_some_iff.1 hj
            simp at this; omega
        · intro j d hjl hj
          rw [List.getElem?_append_left (by omega)] at hj
          exact h4 j d hjl hj

/-- `p_min_degree` is the first node of minimum degree. -/
theorem pMinDegree_spec (degree : List Nat) (h : degree ≠ []) :
    ∃ m, degree[pMinDegree degree]? = some m ∧ (∀ (j d : Nat), degree[j]? = some d → m ≤ d) ∧
      (∀ (j d : Nat), j < pMinDegree degree → degree[j]? = some d → m < d) := by
  obtain ⟨m, _, h2, h3, h4⟩ := (pMinDegree_aux degree).2 h
  exact ⟨m, h2, h3, h4⟩

/-! ### argmin scan of `nextRoot` -/

theorem nextRoot_aux (xs : List (Nat × Nat)) (D : Nat) :
    let st := xs.zipIdx.foldl (fun (acc : Option (Nat × Nat)) (x : (Nat × Nat) × Nat) =>
      if x.1.1 = D then
        match acc with
        | none => some (x.1.2, x.2)
        | some (m, i) => if x.1.2 < m then some (x.1.2, x.2) else some (m, i)
      else acc) none
    (st = none → ∀ (j : Nat) (y : Nat × Nat), xs[j]? = some y → y.1 ≠ D) ∧
    (∀ m i, st = some (m, i) → xs[i]? = some (D, m) ∧ ∀ (j : Nat) (y : Nat × Nat), xs[j]? = some y → y.1 = D → m ≤ y.2) := by
  induction xs using List.reverseRecOn with
  | nil => simp
  | append_singleton xs x ih =>
    simp only [List.zipIdx_append, List.foldl_append, List.zipIdx_cons, List.zipIdx_nil, List.foldl_cons, List.foldl_nil]
    simp only at ih
    generalize List.foldl _ none xs.zipIdx = st at ih ⊢
    obtain ⟨ih1, ih2⟩ := ih
    have key : ∀ (j : Nat) (y : Nat × Nat), (xs ++ [x])[j]? = some y → xs[j]? = some y ∨ (j = xs.length ∧ y = x) := by
      intro j y hj
      rw [List.getElem?_append] at hj
      split at hj
      · exact Or.inl hj
      · right
        have := List.getElem?_eq_some_iff.1 hj
        simp at this
        exact ⟨by omega, this.2.symm⟩
    by_cases hx : x.1 = D
    · rw [if_pos hx]
      match st, ih1, ih2 with
      | none, ih1, ih2 =>
        refine ⟨by simp, ?_⟩
        rintro m i h
        simp at h
        obtain ⟨rfl, rfl⟩ := h
        refine ⟨by simp [← hx], ?_⟩
        intro j y hj hy
        rcases key j y hj with h | ⟨_, rfl⟩
        · exact absurd hy (ih1 rfl j y h)
        · exact Nat.le_refl _
      | some (m0, i0), ih1, ih2 =>
        obtain ⟨h1, h2⟩ := ih2 m0 i0 rfl
        simp only
        by_cases hlt : x.2 < m0
        · rw [if_pos hlt]
          refine ⟨by simp, ?_⟩
          rintro m i h
          simp at h
          obtain ⟨rfl, rfl⟩ := h
          refine ⟨by simp [← hx], ?_⟩
          intro j y hj hy
          rcases key j y hj with h | ⟨_, rfl⟩
          · have := h2 j y h hy; omega
          · exact Nat.le_refl _
        · rw [if_neg hlt]
          refine ⟨by simp, ?_⟩
          rintro m i h
          simp at h
          obtain ⟨rfl, rfl⟩ := h
          refine ⟨?_, ?_⟩
          · rw [List.getElem?_append_left (List.getElem?_eq_some_iff.1 h1).1]; exact h1
          · intro j y hj hy
            rcases key j y hj with h | ⟨_, rfl⟩
            · exact h2 j y h hy
            · omega
    · rw [if_neg hx]
      refine ⟨?_, ?_⟩
      · intro hst j y hj
        rcases key j y hj with h | ⟨_, rfl⟩
        · exact ih1 hst j y h
        · exact hx
      · intro m i hst
        obtain ⟨h1, h2⟩ := ih2 m i hst
        refine ⟨?_, ?_⟩
        · rw [List.getElem?_append_left (List.getElem?_eq_some_iff.1 h1).1]; exact h1
        · intro j y hj hy
          rcases key j y hj with h | ⟨_, rfl⟩
          · exact h2 j y h hy
          · exact absurd hy hx

theorem nextRoot_none {distance degree : List Nat} {D : Nat} (hl : distance.length = degree.length)
    (h : nextRoot distance degree D = none) : ∀ j : Nat, distance[j]? ≠ some D := by
  unfold nextRoot at h
  rw [Option.map_eq_none_iff] at h
  intro j hj
  have hlt := (List.getElem?_eq_some_iff.1 hj).1
  have h1 := (nextRoot_aux (distance.zip degree) D).1 h j (D, degree[j]'(by omega))
  apply h1 _ rfl
  rw [List.getElem?_zip_eq_some]
  exact ⟨hj, by simp⟩

theorem nextRoot_some {distance degree : List Nat} {D r : Nat}
    (h : nextRoot distance degree D = some r) :
    distance[r]? = some D ∧ ∃ m, degree[r]? = some m ∧
      ∀ j dj : Nat, distance[j]? = some D → degree[j]? = some dj → m ≤ dj := by
  unfold nextRoot at h
  rw [Option.map_eq_some_iff] at h
  obtain ⟨⟨m, i⟩, h1, h2⟩ := h
  simp only at h2; subst h2
  obtain ⟨h3, h4⟩ := (nextRoot_aux (distance.zip degree) D).2 m i h1
  rw [List.getElem?_zip_eq_some] at h3
  refine ⟨h3.1, m, h3.2, ?_⟩
  intro j dj hj hdj
  exact h4 j (D, dj) (by rw [List.getElem?_zip_eq_some]; exact ⟨hj, hdj⟩) rfl

/-! ### running maximum -/

theorem foldl_max_spec (l : List Nat) (m0 : Nat) :
    let m := l.foldl (fun m d => if d > m then d else m) m0
    m0 ≤ m ∧ (∀ d ∈ l, d ≤ m) ∧ (m = m0 ∨ m ∈ l) := by
  induction l generalizing m0 with
  | nil => simp
  | cons x xs ih =>
    simp only [List.foldl_cons]
    obtain ⟨h1, h2, h3⟩ := ih (if x > m0 then x else m0)
    generalize List.foldl _ _ xs = m at *
    split at h1 <;> rename_i hx
    · simp only [hx, if_true] at h3
      refine ⟨by omega, ?_, ?_⟩
      · intro d hd; rcases List.mem_cons.1 hd with rfl | hd
        · exact h1
        · exact h2 d hd
      · right; rcases h3 with h3 | h3 <;> simp [h3]
    · simp only [hx, if_false] at h3
      refine ⟨h1, ?_, ?_⟩
      · intro d hd; rcases List.mem_cons.1 hd with rfl | hd
        · omega
        · exact h2 d hd
      · rcases h3 with h3 | h3
        · exact Or.inl h3
        · exact Or.inr (by simp [h3])

/-! ### number of nodes -/

/-- The distinct ids collected by `from_edges`. -/
theorem countNodes_aux (edges : List (Nat × Nat)) (s0 : List Nat) (h0 : s0.Nodup) :
    let s := edges.foldl (fun s (ab : Nat × Nat) => setInsert (setInsert s ab.1) ab.2) s0
    s.Nodup ∧ ∀ x, x ∈ s ↔ x ∈ s0 ∨ ∃ e ∈ edges, e.1 = x ∨ e.2 = x := by
  induction edges generalizing s0 with
  | nil => simp [h0]
  | cons e es ih =>
    obtain ⟨h1, h2⟩ := ih (setInsert (setInsert s0 e.1) e.2) (setInsert_nodup (setInsert_nodup h0))
    simp only [List.foldl_cons]
    refine ⟨h1, fun x => ?_⟩
    rw [h2, setInsert_mem, setInsert_mem]
    simp only [List.mem_cons, exists_eq_or_imp]
    constructor
    · rintro ((h | h) | h)
      · rcases h with h | h
        · exact Or.inl h
        · exact Or.inr (Or.inl (Or.inl h.symm))
      · exact Or.inr (Or.inl (Or.inr h.symm))
      · exact Or.inr (Or.inr h)
    · rintro (h | h | h)
      · exact Or.inl (Or.inl (Or.inl h))
      · rcases h with h | h
        · exact Or.inl (Or.inl (Or.inr h.symm))
        · exact Or.inl (Or.inr h.symm)
      · exact Or.inr h

theorem nodup_length_eq {s : List Nat} {n : Nat} (hs : s.Nodup) (h : ∀ x, x ∈ s ↔ x < n) : s.length = n := by
  have : s.Perm (List.range n) := by
    rw [List.perm_ext_iff_of_nodup hs List.nodup_range]
    intro a; simp [h]
  simpa using this.length_eq

/-- A duplicate-free list of numbers all smaller than its length contains every such number. -/
theorem nodup_lt_mem {s : List Nat} (hs : s.Nodup) (h : ∀ x ∈ s, x < s.length) (x : Nat) (hx : x < s.length) :
    x ∈ s := by
  have hsub : s ⊆ List.range s.length := by intro y hy; simpa using h y hy
  have hp := (List.subperm_of_subset hs hsub).perm_of_length_le (by simp)
  exact hp.mem_iff.2 (by simpa using hx)

theorem perm_range_of_nodup {s : List Nat} {n : Nat} (hs : s.Nodup) (hl : s.length = n) (h : ∀ x ∈ s, x < n) :
    s.Perm (List.range n) := by
  subst hl
  have hsub : s ⊆ List.range s.length := by intro y hy; simpa using h y hy
  exact (List.subperm_of_subset hs hsub).perm_of_length_le (by simp)

/-! ### counting edges -/

theorem sum_row_lengths (adj : List (List Nat)) (hs : AdjSym adj) (hl : ∀ a, a ∉ nbr adj a) :
    (adj.map List.length).sum = 2 * (adj.zipIdx.flatMap (fun (ra : List Nat × Nat) =>
      (ra.1.filter (fun b => decide (ra.2 < b))).map (fun b => (ra.2, b)))).length := by
  classical
  -- both sides as sums over `range n`
  have hadj : adj = (List.range adj.length).map (nbr adj) := by
    apply List.ext_getElem?
    intro i
    by_cases hi : i < adj.length
    · rw [nbr_eq hi]; simp [hi]
    · simp [hi]
  have hsum : ∀ (f : Nat → Nat) (n : Nat), ((List.range n).map f).sum = ∑ i ∈ Finset.range n, f i := by
    intro f n
    induction n with
    | zero => simp
    | succ n ih => rw [List.range_succ, List.map_append, List.sum_append, ih, Finset.sum_range_succ]; simp
  have h1 : (adj.map List.length).sum = ∑ i ∈ Finset.range adj.length, (nbr adj i).length := by
    conv_lhs => rw [hadj]
    rw [List.map_map, hsum]; rfl
  have hz : adj.zipIdx = (List.range adj.length).map (fun i => (nbr adj i, i)) := by
    apply List.ext_getElem?
    intro i
    by_cases hi : i < adj.length
    · rw [List.getElem?_zipIdx, nbr_eq hi]; simp [hi]
    · simp [hi]
  have h2 : (adj.zipIdx.flatMap (fun (ra : List Nat × Nat) =>
      (ra.1.filter (fun b => decide (ra.2 < b))).map (fun b => (ra.2, b)))).length =
      ∑ i ∈ Finset.range adj.length, ((nbr adj i).filter (fun b => decide (i < b))).length := by
    rw [hz, List.length_flatMap, List.map_map, hsum]
    apply Finset.sum_congr rfl
    intro i _
    simp
  rw [h1, h2]
  -- split rows into larger and smaller neighbours
  have hsplit : ∀ i, (nbr adj i).length = ((nbr adj i).filter (fun b => decide (i < b))).length +
      ((nbr adj i).filter (fun b => decide (b < i))).length := by
    intro i
    have h3 := List.length_eq_length_filter_add (l := nbr adj i) (fun b => decide (i < b))
    rw [h3]; congr 2
    apply List.filter_congr
    intro b hb
    have : b ≠ i := by rintro rfl; exact hl _ hb
    rw [← decide_not, decide_eq_decide]; omega
  have hcard : ∀ (i : Nat) (p : Nat → Bool), ((nbr adj i).filter p).length =
      ((Finset.range adj.length).filter (fun b => b ∈ nbr adj i ∧ p b = true)).card := by
    intro i p
    rw [← List.toFinset_card_of_nodup ((hs.nodup i).filter _)]
    congr 1
    ext b
    simp only [List.mem_toFinset, List.mem_filter, Finset.mem_filter, Finset.mem_range]
    constructor
    · rintro ⟨h, h'⟩; exact ⟨hs.ok i b h, h, h'⟩
    · rintro ⟨_, h, h'⟩; exact ⟨h, h'⟩
  have hswap : ∑ i ∈ Finset.range adj.length, ((nbr adj i).filter (fun b => decide (b < i))).length =
      ∑ i ∈ Finset.range adj.length, ((nbr adj i).filter (fun b => decide (i < b))).length := by
    simp only [hcard]
    simp only [Finset.card_eq_sum_ones, Finset.sum_filter]
    rw [Finset.sum_comm]
    apply Finset.sum_congr rfl
    intro i _
    apply Finset.sum_congr rfl
    intro j _
    have : (i ∈ nbr adj j ∧ decide (i < j) = true) ↔ (j ∈ nbr adj i ∧ decide (i < j) = true) := by
      constructor
      · rintro ⟨h, h'⟩; exact ⟨hs.symm _ _ h, h'⟩
      · rintro ⟨h, h'⟩; exact ⟨hs.symm _ _ h, h'⟩
    simp only [this]
  simp only [hsplit, Finset.sum_add_distrib, hswap]
  omega

end Gemlab.GraphUnd
