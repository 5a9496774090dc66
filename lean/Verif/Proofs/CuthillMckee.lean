import Verif.Proofs.GraphUnd4
import Verif.Spec.CuthillMckee
import Mathlib.Data.List.Flatten

/-! # The order in which the breadth-first loop discovers nodes -/
namespace Gemlab.GraphUnd
open Gemlab.Spec

/-- What one row adds to the discovery log. -/
theorem visitRow_kept (a : Nat) (row : List Nat) (s s' : Bfs (List (Nat × Nat)))
    (h : visitRow visitLog a row s = .ok s') :
    ∃ kept : List Nat, kept.Sublist row ∧ s'.data = s.data ++ kept.map (fun b => (b, a)) := by
  induction row generalizing s with
  | nil => simp [visitRow] at h; subst h; exact ⟨[], by simp, by simp⟩
  | cons b bs ih =>
    unfold visitRow at h
    split at h
    · simp at h
    · obtain ⟨k, h1, h2⟩ := ih s h
      exact ⟨k, h1.cons b, h2⟩
    · simp only [visitLog] at h
      obtain ⟨k, h1, h2⟩ := ih _ h
      exact ⟨b :: k, h1.cons₂ b, by rw [h2]; simp⟩

/-- The log is made of blocks: for every node taken out of the queue, the neighbours found from it, in row order; and
every neighbour of a node taken out is the root or in a block up to the one of that node. -/
def OrdInv (adj : List (List Nat)) (r : Nat) (C : List Nat) (data : List (Nat × Nat)) : Prop :=
  ∃ K : Nat → List Nat, data = C.flatMap (fun c => (K c).map (fun b => (b, c))) ∧
    (∀ c ∈ C, (K c).Sublist (nbr adj c)) ∧
    (∀ C1 u C2, C = C1 ++ u :: C2 → ∀ v ∈ nbr adj u, v ∈ r :: (C1 ++ [u]).flatMap K) ∧
    ∀ l1 b c l2, data = l1 ++ (b, c) :: l2 → c ∈ r :: l1.map Prod.fst

theorem flatMap_congr' {α β : Type} {l : List α} {f g : α → List β} (h : ∀ x ∈ l, f x = g x) :
    l.flatMap f = l.flatMap g := by
  induction l with
  | nil => rfl
  | cons x xs ih => rw [List.flatMap_cons, List.flatMap_cons, h x (by simp), ih (fun y hy => h y (by simp [hy]))]

theorem map_fst_blocks (C : List Nat) (K : Nat → List Nat) :
    (C.flatMap (fun c => (K c).map (fun b => (b, c)))).map Prod.fst = C.flatMap K := by
  rw [List.map_flatMap]
  apply flatMap_congr'
  intro c _
  simp [List.map_map, Function.comp_def]

theorem OrdInv.snoc {adj : List (List Nat)} {r a : Nat} {C kept : List Nat} {data : List (Nat × Nat)}
    (h : OrdInv adj r C data) (ha : a ∉ C) (ha' : a ∈ r :: data.map Prod.fst) (hk : kept.Sublist (nbr adj a))
    (hrow : ∀ v ∈ nbr adj a, v ∈ r :: (data ++ kept.map (fun b => (b, a))).map Prod.fst) :
    OrdInv adj r (C ++ [a]) (data ++ kept.map (fun b => (b, a))) := by
  obtain ⟨K, h1, h2, h3, h4⟩ := h
  have hK : ∀ c ∈ C, Function.update K a kept c = K c := by
    intro c hc
    rw [Function.update_of_ne]; rintro rfl; exact ha hc
  have hdata : data ++ kept.map (fun b => (b, a)) =
      (C ++ [a]).flatMap (fun c => (Function.update K a kept c).map (fun b => (b, c))) := by
    rw [List.flatMap_append, h1]
    congr 1
    · apply flatMap_congr'; intro c hc; rw [hK c hc]
    · simp
  refine ⟨Function.update K a kept, hdata, ?_, ?_, ?_⟩
  · intro c hc
    rcases List.mem_append.1 hc with hc | hc
    · rw [hK c hc]; exact h2 c hc
    · simp at hc; subst hc; simpa using hk
  · intro C1 u C2 hC v hv
    rcases List.eq_nil_or_concat C2 with rfl | ⟨C3, z, rfl⟩
    · obtain ⟨e1, e2⟩ := List.append_inj' hC (by simp)
      simp at e2; subst e1; subst e2
      have := hrow v hv
      rw [hdata, map_fst_blocks] at this
      exact this
    · have hC' : C ++ [a] = (C1 ++ u :: C3) ++ [z] := by rw [hC]; simp
      obtain ⟨e1, e2⟩ := List.append_inj' hC' (by simp)
      have := h3 C1 u C3 e1 v hv
      rw [show (C1 ++ [u]).flatMap (Function.update K a kept) = (C1 ++ [u]).flatMap K from
        flatMap_congr' fun c hc => hK c (by
          rw [e1]
          rcases List.mem_append.1 hc with hc | hc
          · simp [hc]
          · simp at hc; simp [hc])]
      exact this
  · intro l1 b c l2 hl
    rcases List.append_eq_append_iff.1 hl with ⟨t, e1, e2⟩ | ⟨t, e1, e2⟩
    · have hc : (b, c) ∈ kept.map (fun b => (b, a)) := by rw [e2]; simp
      obtain ⟨z, _, hz⟩ := List.mem_map.1 hc
      injection hz with _ hz
      subst hz
      rw [e1, List.map_append, ← List.cons_append]
      exact List.mem_append_left _ ha'
    · cases t with
      | nil =>
        simp only [List.nil_append] at e2
        have hc : (b, c) ∈ kept.map (fun b => (b, a)) := by rw [← e2]; simp
        obtain ⟨z, _, hz⟩ := List.mem_map.1 hc
        injection hz with _ hz
        subst hz
        simp only [List.append_nil] at e1
        rw [← e1]; exact ha'
      | cons x t =>
        rw [List.cons_append] at e2
        injection e2 with e2 e3
        subst e2
        exact h4 l1 b c t e1

theorem OrdInv.loop {adj : List (List Nat)} (hadj : AdjOk adj) {r : Nat} (C : List Nat) (s s' : Bfs (List (Nat × Nat)))
    (h : Inv adj r C s) (ho : OrdInv adj r C s.data) (hs : bfsLoop visitLog adj s = .ok s') :
    ∃ C', Inv adj r C' s' ∧ s'.queue = [] ∧ OrdInv adj r C' s'.data := by
  fun_induction bfsLoop visitLog adj s generalizing C with
  | case1 s hq => simp at hs; subst hs; exact ⟨C, h, hq, ho⟩
  | case2 => simp at hs
  | case3 s a q hq row hrow s1 hr ih =>
    have ha : a < adj.length := h.lt a (by simp [hq])
    rw [nbr_eq ha] at hrow; injection hrow with hrow; subst hrow
    have hI : Inv adj r C ⟨s.explored, a :: q, s.data⟩ := by rw [← hq]; exact h
    obtain ⟨s2, h1, h2, h3, _⟩ := MidInv.row (nbr adj a) _ hI.toMid (fun b hb => ⟨hb, hadj a b hb⟩)
    obtain ⟨kept, k1, k2⟩ := visitRow_kept a _ _ _ hr
    rw [h1] at hr; injection hr with hr; subst hr
    have haC : a ∉ C := by
      have := hI.nodup
      rw [List.nodup_append] at this
      intro hc; exact this.2.2 a hc a (by simp) rfl
    refine ih (C ++ [a]) (h2.toInv h3) ?_ hs
    simp only at k2
    rw [k2]
    refine ho.snoc haC (by rw [hI.ord]; simp) k1 ?_
    intro v hv
    rw [← k2, h2.ord]; exact h3 v hv
  | case4 => simp at hs
  | case5 => simp at hs

/-- `bfs_log` with the order of the discoveries. -/
theorem bfs_log_ord {adj : List (List Nat)} (hadj : AdjOk adj) {r : Nat} (hr : r < adj.length) {l : List (Nat × Nat)}
    {e : List Bool} (hrun : ∀ {σ : Type} (visit : Nat → Nat → σ → Res σ) (d : σ),
        bfs visit adj r d = (replay visit l d >>= fun d' => .ok ⟨e, [], d'⟩)) :
    OrdInv adj r (r :: l.map Prod.fst) l := by
  have hl : ∀ (l d : List (Nat × Nat)), replay visitLog l d = .ok (d ++ l) := by
    intro l
    induction l with
    | nil => simp
    | cons x xs ih => intro d; simp [visitLog, ih]
  have h0 : Inv adj r [] ⟨(List.replicate adj.length false).set r true, [r], []⟩ := by
    constructor
    · simp
    · simp
    · simp
    · simpa using hr
    · intro i hi
      rw [List.getElem?_set]
      split
      · rename_i h; subst h; simp [hr]
      · rename_i h
        simp [hi, Ne.symm h]
    · simp
    · simp [gDist]
    · simp
    · simp
    · simp
    · simp
  have h1 := hrun visitLog []
  rw [hl, bfs, if_pos hr] at h1
  simp only [Res.bind_ok, List.nil_append] at h1
  obtain ⟨C, h2, h3, h4⟩ := OrdInv.loop hadj [] _ _ h0 ⟨fun _ => [], by simp, by simp, by simp, by simp⟩ h1
  have hC : r :: l.map Prod.fst = C := by
    have := h2.ord; simpa using this
  rw [hC]; exact h4

end Gemlab.GraphUnd
