import Verif.Proofs.CuthillMckee2

/-! # The discovery order of the model is an order of Cuthill and McKee -/
namespace Gemlab.GraphUnd
open Gemlab.Spec

open Classical in
theorem facts_degree {src : Source} {cd : Bool} {g : Graph} (F : Facts src cd g) (x : Nat) :
    (nbr g.adjacency x).length = src.degree x := by
  unfold Source.degree
  rw [List.countP_eq_length_filter]
  apply List.Perm.length_eq
  rw [List.perm_ext_iff_of_nodup (F.sym.nodup x) (List.nodup_range.filter _)]
  intro y
  simp only [List.mem_filter, List.mem_range, decide_eq_true_eq, F.mem]
  constructor
  · intro h
    have := F.sym.ok x y ((F.mem x y).2 h)
    rw [F.len] at this
    exact ⟨this, h⟩
  · exact fun h => h.2

theorem facts_row {src : Source} {g : Graph} (F : Facts src true g) (a : Nat) :
    (nbr g.adjacency a).Pairwise (fun x y => src.degree x < src.degree y ∨ (src.degree x = src.degree y ∧ x < y)) := by
  have h := F.sorted a
  have hnd : (nbr g.adjacency a).Pairwise (· ≠ ·) := F.sym.nodup a
  refine List.Pairwise.imp ?_ (h.and hnd)
  rintro x y ⟨h1, h2⟩
  simp only [if_true, leByDegree, Bool.or_eq_true, Bool.and_eq_true, decide_eq_true_eq] at h1
  have hd : ∀ z, g.degree.getD z 0 = src.degree z := by
    intro z
    rw [← facts_degree F z, F.deg, if_pos rfl]
    simp only [nbr, List.getD_eq_getElem?_getD, List.getElem?_map]
    cases g.adjacency[z]? <;> simp
  rw [hd, hd] at h1
  omega

theorem ordInv_isCuthillMckee {src : Source} {g : Graph} (F : Facts src true g) {r : Nat} {seq : List Nat} {l : List (Nat × Nat)}
    (hseq : seq = r :: l.map Prod.fst) (hperm : seq.Perm (List.range src.n)) (ho : OrdInv g.adjacency r seq l) :
    IsCuthillMckee src r seq := by
  obtain ⟨K, h1, h2, h3, h4⟩ := ho
  have hnd : seq.Nodup := hperm.nodup_iff.2 List.nodup_range
  have hself : seq = r :: seq.flatMap K := by
    conv_lhs => rw [hseq, h1, map_fst_blocks]
  have inj : ∀ {a b z : Nat}, seq[a]? = some z → seq[b]? = some z → a = b := by
    intro a b z ha hb
    obtain ⟨h1, h1'⟩ := List.getElem?_eq_some_iff.1 ha
    obtain ⟨h2, h2'⟩ := List.getElem?_eq_some_iff.1 hb
    exact (List.Nodup.getElem_inj_iff hnd).1 (h1'.trans h2'.symm)
  -- a node found from `c` has `c` as its first neighbour
  have hfirst : ∀ (p c v : Nat), seq[p]? = some c → v ∈ K c → FirstNeighbour src.Adj seq v p := by
    intro p c v hp hv
    refine ⟨⟨c, hp, (F.mem c v).1 ((h2 c (List.mem_of_getElem? hp)).subset hv)⟩, ?_⟩
    intro q u hq huv
    by_contra hlt
    push Not at hlt
    obtain ⟨hql, hqe⟩ := List.getElem?_eq_some_iff.1 hq
    have hsplit : seq = seq.take q ++ u :: seq.drop (q + 1) := by
      rw [← hqe, ← List.drop_eq_getElem_cons hql, List.take_append_drop]
    have hmem := h3 _ _ _ hsplit v ((F.mem u v).2 huv)
    -- the list splits into the part up to `u` and the rest, which contains `c`
    have hc : c ∈ seq.drop (q + 1) := by
      apply List.mem_iff_getElem?.2
      refine ⟨p - (q + 1), ?_⟩
      rw [List.getElem?_drop, show q + 1 + (p - (q + 1)) = p by omega]
      exact hp
    have hnd' := hnd
    rw [hself] at hnd'
    rw [show seq.flatMap K = (seq.take q ++ [u]).flatMap K ++ (seq.drop (q + 1)).flatMap K by
      conv_lhs => rw [hsplit]
      simp [List.flatMap_append, List.flatMap_cons]] at hnd'
    rw [← List.cons_append, List.nodup_append] at hnd'
    exact hnd'.2.2 v hmem v (List.mem_flatMap.2 ⟨c, hc, hv⟩) rfl
  -- every later node is found from some node
  have hblock : ∀ (i x : Nat), 0 < i → seq[i]? = some x → ∃ p c : Nat, p < i ∧ seq[p]? = some c ∧ x ∈ K c := by
    intro i x hi hx
    rw [hseq] at hx
    obtain ⟨k, rfl⟩ : ∃ k, i = k + 1 := ⟨i - 1, by omega⟩
    rw [List.getElem?_cons_succ, List.getElem?_map] at hx
    obtain ⟨⟨b, c⟩, hbc, hx⟩ := Option.map_eq_some_iff.1 hx
    simp only at hx
    subst hx
    obtain ⟨hkl, hke⟩ := List.getElem?_eq_some_iff.1 hbc
    have hsplit : l = l.take k ++ (b, c) :: l.drop (k + 1) := by
      rw [← hke, ← List.drop_eq_getElem_cons hkl, List.take_append_drop]
    obtain ⟨p, hp⟩ := List.mem_iff_getElem?.1 (h4 _ _ _ _ hsplit)
    have hpl := (List.getElem?_eq_some_iff.1 hp).1
    simp only [List.length_cons, List.length_map, List.length_take] at hpl
    refine ⟨p, c, by omega, ?_, ?_⟩
    · have hs : seq = (r :: (l.take k).map Prod.fst) ++ ((b, c) :: l.drop (k + 1)).map Prod.fst := by
        rw [hseq]
        conv_lhs => rw [hsplit]
        simp
      rw [hs, List.getElem?_append_left (by simp; omega)]
      exact hp
    · have := List.mem_of_getElem? hbc
      rw [h1] at this
      obtain ⟨c', _, hc'⟩ := List.mem_flatMap.1 this
      obtain ⟨b', hb', e⟩ := List.mem_map.1 hc'
      injection e with e1 e2
      subst e1; subst e2
      exact hb'
  -- the order of the blocks
  have hpw : (seq.flatMap K).Pairwise (fun x y => ∀ p q, FirstNeighbour src.Adj seq x p → FirstNeighbour src.Adj seq y q →
      p < q ∨ (p = q ∧ (src.degree x < src.degree y ∨ (src.degree x = src.degree y ∧ x < y)))) := by
    rw [List.pairwise_flatMap]
    constructor
    · intro c hc
      obtain ⟨p0, hp0⟩ := List.mem_iff_getElem?.1 hc
      refine List.Pairwise.imp_of_mem ?_ ((facts_row F c).sublist (h2 c hc))
      intro x y hx hy hxy p q fp fq
      have e1 := first_unique fp (hfirst p0 c x hp0 hx)
      have e2 := first_unique fq (hfirst p0 c y hp0 hy)
      exact Or.inr ⟨by omega, hxy⟩
    · rw [List.pairwise_iff_getElem]
      intro a b ha hb hab x hx y hy p q fp fq
      have e1 := first_unique fp (hfirst a _ x (List.getElem?_eq_getElem ha) hx)
      have e2 := first_unique fq (hfirst b _ y (List.getElem?_eq_getElem hb) hy)
      exact Or.inl (by omega)
  refine ⟨hperm, by rw [hseq]; rfl, ?_, ?_⟩
  · intro i x hi hx
    obtain ⟨p, c, hpi, hp, hxc⟩ := hblock i x hi hx
    exact ⟨p, hpi, hfirst p c x hp hxc⟩
  · intro i j x y p q hi hij hx hy fp fq
    rw [hself] at hx hy
    obtain ⟨a, rfl⟩ : ∃ k, i = k + 1 := ⟨i - 1, by omega⟩
    obtain ⟨b, rfl⟩ : ∃ k, j = k + 1 := ⟨j - 1, by omega⟩
    rw [List.getElem?_cons_succ] at hx hy
    obtain ⟨ha, ha'⟩ := List.getElem?_eq_some_iff.1 hx
    obtain ⟨hb, hb'⟩ := List.getElem?_eq_some_iff.1 hy
    have := List.pairwise_iff_getElem.1 hpw a b ha hb (by omega)
    rw [ha', hb'] at this
    exact this p q fp fq

end Gemlab.GraphUnd
