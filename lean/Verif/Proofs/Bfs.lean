import Verif.Model.GraphUnd
import Mathlib.Logic.Function.Basic
import Mathlib.Data.List.Nodup
import Mathlib.Data.List.Perm.Subperm
import Mathlib.Logic.Relation

/-! # The breadth-first loop: discovery log, invariants, and what the log says about distances -/

namespace Gemlab.GraphUnd

/-- Neighbour list of a node. -/
def nbr (adj : List (List Nat)) (a : Nat) : List Nat := adj.getD a []

/-- All neighbours are existing nodes. -/
def AdjOk (adj : List (List Nat)) : Prop := ∀ a, ∀ b ∈ nbr adj a, b < adj.length

theorem nbr_eq {adj : List (List Nat)} {a : Nat} (h : a < adj.length) : adj[a]? = some (nbr adj a) := by
  simp [nbr, List.getD, h]

/-- Discovery step that records `(discovered, from)`. -/
def visitLog (a b : Nat) (l : List (Nat × Nat)) : Res (List (Nat × Nat)) := .ok (l ++ [(b, a)])

/-- Replay a discovery log with another discovery step. -/
def replay {σ : Type} (visit : Nat → Nat → σ → Res σ) (l : List (Nat × Nat)) (d : σ) : Res σ :=
  l.foldlM (fun d ba => visit ba.2 ba.1 d) d

@[simp] theorem replay_nil {σ : Type} (visit : Nat → Nat → σ → Res σ) (d : σ) : replay visit [] d = .ok d := rfl
@[simp] theorem replay_cons {σ : Type} (visit : Nat → Nat → σ → Res σ) (ba : Nat × Nat) (l) (d : σ) :
    replay visit (ba :: l) d = (visit ba.2 ba.1 d >>= fun d' => replay visit l d') := rfl

theorem replay_append {σ : Type} (visit : Nat → Nat → σ → Res σ) (l l') (d : σ) :
    replay visit (l ++ l') d = (replay visit l d >>= fun d' => replay visit l' d') := by
  simp [replay, List.foldlM_append]

theorem visitRow_of_log (a : Nat) (row : List Nat) (e : List Bool) (q : List Nat) (l : List (Nat × Nat))
    (s' : Bfs (List (Nat × Nat))) (h : visitRow visitLog a row ⟨e, q, l⟩ = .ok s') :
    ∃ l', s'.data = l ++ l' ∧ ∀ {σ : Type} (visit : Nat → Nat → σ → Res σ) (d : σ),
      visitRow visit a row ⟨e, q, d⟩ = (replay visit l' d >>= fun d' => .ok ⟨s'.explored, s'.queue, d'⟩) := by
  induction row generalizing e q l with
  | nil =>
    simp [visitRow] at h; subst h
    exact ⟨[], by simp, fun visit d => by simp [visitRow]⟩
  | cons b bs ih =>
    unfold visitRow at h
    simp only at h
    split at h
    · simp at h
    · rename_i hb
      obtain ⟨l', h1, h2⟩ := ih e q l h
      refine ⟨l', h1, fun visit d => ?_⟩
      rw [visitRow]; simp only [hb]; exact h2 visit d
    · rename_i hb
      simp only [visitLog] at h
      obtain ⟨l', h1, h2⟩ := ih _ _ _ h
      refine ⟨(b, a) :: l', by simp [h1], fun visit d => ?_⟩
      rw [visitRow]; simp only [hb]
      cases hv : visit a b d with
      | ok d' => simp only [replay_cons, hv, Res.bind_ok]; exact h2 visit d'
      | err m => simp [hv]
      | panic => simp [hv]

theorem bfsLoop_of_log (adj : List (List Nat)) (s0 s' : Bfs (List (Nat × Nat)))
    (h : bfsLoop visitLog adj s0 = .ok s') :
    ∃ l', s'.data = s0.data ++ l' ∧ ∀ {σ : Type} (visit : Nat → Nat → σ → Res σ) (d : σ),
      bfsLoop visit adj ⟨s0.explored, s0.queue, d⟩ =
        (replay visit l' d >>= fun d' => .ok ⟨s'.explored, s'.queue, d'⟩) := by
  fun_induction bfsLoop visitLog adj s0 with
  | case1 s hq =>
    simp at h; subst h
    refine ⟨[], by simp, fun visit d => ?_⟩
    rw [bfsLoop]; split
    · simp
    · simp_all
  | case2 => simp at h
  | case3 s a q hq row hrow s1 hr ih =>
    obtain ⟨l1, h1, h2⟩ := visitRow_of_log a row s.explored q s.data s1 hr
    obtain ⟨l2, h3, h4⟩ := ih h
    refine ⟨l1 ++ l2, by rw [h3, h1, List.append_assoc], fun visit d => ?_⟩
    rw [bfsLoop]; split
    · simp_all
    · rename_i a' q' hq'
      simp only at hq'
      rw [hq] at hq'
      injection hq' with e1 e2
      subst e1; subst e2
      simp only [hrow]
      have h2' := h2 visit d
      rw [replay_append]
      cases hrp : replay visit l1 d with
      | ok d' =>
        rw [hrp] at h2'
        simp only [Res.bind_ok] at h2'
        simp only [Res.bind_ok]
        rw [← h4 visit d']
        split
        · rename_i hx; rw [h2'] at hx; injection hx with hx; subst hx; rfl
        · rename_i hx; rw [h2'] at hx; simp at hx
        · rename_i hx; rw [h2'] at hx; simp at hx
      | err m =>
        rw [hrp] at h2'
        simp only [Res.bind_err] at h2' ⊢
        split
        · rename_i hx; rw [h2'] at hx; simp at hx
        · rename_i hx; rw [h2'] at hx; injection hx with hx; subst hx; rfl
        · rename_i hx; rw [h2'] at hx; simp at hx
      | panic =>
        rw [hrp] at h2'
        simp only [Res.bind_panic] at h2' ⊢
        split
        · rename_i hx; rw [h2'] at hx; simp at hx
        · rename_i hx; rw [h2'] at hx; simp at hx
        · rfl
  | case4 => simp at h
  | case5 => simp at h

/-- Distances recorded by a discovery log. -/
def gDist (l : List (Nat × Nat)) : Nat → Nat :=
  l.foldl (fun d ba => Function.update d ba.1 (d ba.2 + 1)) (fun _ => 0)

theorem gDist_snoc (l : List (Nat × Nat)) (b a : Nat) :
    gDist (l ++ [(b, a)]) = Function.update (gDist l) b (gDist l a + 1) := by
  simp [gDist]

/-- Invariant of the loop while the row of `a` (last of `P`) is being scanned; `C` are the nodes whose
rows are completely scanned. -/
structure MidInv (adj : List (List Nat)) (r : Nat) (C : List Nat) (a : Nat) (s : Bfs (List (Nat × Nat))) : Prop where
  elen : s.explored.length = adj.length
  ord : r :: s.data.map Prod.fst = C ++ [a] ++ s.queue
  nodup : (C ++ [a] ++ s.queue).Nodup
  lt : ∀ x ∈ C ++ [a] ++ s.queue, x < adj.length
  expl : ∀ i, i < adj.length → s.explored[i]? = some (decide (i ∈ C ++ [a] ++ s.queue))
  par : ∀ ba ∈ s.data, ba.2 ∈ C ++ [a] ∧ ba.1 ∈ nbr adj ba.2 ∧ gDist s.data ba.1 = gDist s.data ba.2 + 1
  root : gDist s.data r = 0
  sorted : s.queue.Pairwise (fun x y => gDist s.data x ≤ gDist s.data y)
  low : ∀ p ∈ C ++ [a], gDist s.data p ≤ gDist s.data a
  span : ∀ q ∈ s.queue, gDist s.data a ≤ gDist s.data q ∧ gDist s.data q ≤ gDist s.data a + 1
  closed : ∀ u ∈ C, ∀ v ∈ nbr adj u, v ∈ C ++ [a] ++ s.queue ∧ gDist s.data v ≤ gDist s.data u + 1

/-- Invariant of the outer loop; `C` are the nodes already taken out of the queue. -/
structure Inv (adj : List (List Nat)) (r : Nat) (C : List Nat) (s : Bfs (List (Nat × Nat))) : Prop where
  elen : s.explored.length = adj.length
  ord : r :: s.data.map Prod.fst = C ++ s.queue
  nodup : (C ++ s.queue).Nodup
  lt : ∀ x ∈ C ++ s.queue, x < adj.length
  expl : ∀ i, i < adj.length → s.explored[i]? = some (decide (i ∈ C ++ s.queue))
  par : ∀ ba ∈ s.data, ba.2 ∈ C ∧ ba.1 ∈ nbr adj ba.2 ∧ gDist s.data ba.1 = gDist s.data ba.2 + 1
  root : gDist s.data r = 0
  sorted : s.queue.Pairwise (fun x y => gDist s.data x ≤ gDist s.data y)
  low : ∀ p ∈ C, ∀ q ∈ s.queue, gDist s.data p ≤ gDist s.data q
  span : ∀ p ∈ s.queue, ∀ q ∈ s.queue, gDist s.data q ≤ gDist s.data p + 1
  closed : ∀ u ∈ C, ∀ v ∈ nbr adj u, v ∈ C ++ s.queue ∧ gDist s.data v ≤ gDist s.data u + 1

theorem MidInv.step {adj : List (List Nat)} {r : Nat} {C : List Nat} {a : Nat} {s : Bfs (List (Nat × Nat))}
    (h : MidInv adj r C a s) {b : Nat} (hb : b ∈ nbr adj a) (hbn : b < adj.length)
    (he : s.explored[b]? = some false) :
    MidInv adj r C a ⟨s.explored.set b true, s.queue ++ [b], s.data ++ [(b, a)]⟩ := by
  have hnb : b ∉ C ++ [a] ++ s.queue := by
    have := h.expl b hbn; rw [he] at this; simpa using this
  have hup : ∀ x ∈ C ++ [a] ++ s.queue, gDist (s.data ++ [(b, a)]) x = gDist s.data x := by
    intro x hx
    rw [gDist_snoc, Function.update_of_ne]
    rintro rfl; exact hnb hx
  have hb' : gDist (s.data ++ [(b, a)]) b = gDist s.data a + 1 := by
    rw [gDist_snoc, Function.update_self]
  have hr : r ∈ C ++ [a] ++ s.queue := by rw [← h.ord]; simp
  have hfst : ∀ ba ∈ s.data, ba.1 ∈ C ++ [a] ++ s.queue := by
    intro ba hba; rw [← h.ord]
    exact List.mem_cons_of_mem _ (List.mem_map_of_mem hba)
  have hP : ∀ x ∈ C ++ [a], x ∈ C ++ [a] ++ s.queue := fun x hx => List.mem_append_left _ hx
  have hQ : ∀ x ∈ s.queue, x ∈ C ++ [a] ++ s.queue := fun x hx => List.mem_append_right _ hx
  have ha : a ∈ C ++ [a] ++ s.queue := by simp
  have hassoc : C ++ [a] ++ (s.queue ++ [b]) = (C ++ [a] ++ s.queue) ++ [b] := by simp
  constructor
  · simpa using h.elen
  · simp only [List.map_append, List.map_cons, List.map_nil]
    rw [hassoc, ← h.ord]; simp
  · simp only
    rw [hassoc, List.nodup_append]
    refine ⟨h.nodup, by simp, ?_⟩
    intro x hx y hy
    simp at hy; subst hy
    rintro rfl; exact hnb hx
  · simp only
    rw [hassoc]
    intro x hx
    rcases List.mem_append.1 hx with hx | hx
    · exact h.lt x hx
    · simp at hx; omega
  · simp only
    rw [hassoc]
    intro i hi
    rw [List.getElem?_set]
    split
    · rename_i hbi; subst hbi
      rw [h.elen]; simp [hi]
    · rename_i hbi
      rw [h.expl i hi]
      congr 1
      simp only [decide_eq_decide, List.mem_append, List.mem_singleton]
      constructor
      · intro hx; exact Or.inl hx
      · rintro (hx | hx)
        · exact hx
        · exact absurd hx.symm hbi
  · intro ba hba
    simp only [List.mem_append, List.mem_singleton] at hba
    rcases hba with hba | rfl
    · obtain ⟨h1, h2, h3⟩ := h.par ba hba
      refine ⟨h1, h2, ?_⟩
      simp only
      rw [hup _ (hfst _ hba), hup _ (hP _ h1), h3]
    · refine ⟨by simp, hb, ?_⟩
      simp only
      rw [hb', hup _ ha]
  · simp only; rw [hup _ hr, h.root]
  · simp only
    rw [List.pairwise_append]
    refine ⟨?_, by simp, ?_⟩
    · refine List.Pairwise.imp_of_mem ?_ h.sorted
      intro x y hx hy hxy
      rw [hup _ (hQ _ hx), hup _ (hQ _ hy)]; exact hxy
    · intro x hx y hy
      simp at hy; subst hy
      rw [hb', hup _ (hQ _ hx)]; exact (h.span x hx).2
  · intro p hp
    simp only
    rw [hup _ (hP _ hp), hup _ ha]; exact h.low p hp
  · simp only
    intro q hq
    rcases List.mem_append.1 hq with hq | hq
    · rw [hup _ ha, hup _ (hQ _ hq)]; exact h.span q hq
    · simp at hq; subst hq
      rw [hb', hup _ ha]; omega
  · simp only
    intro u hu v hv
    obtain ⟨h1, h2⟩ := h.closed u hu v hv
    refine ⟨by rw [hassoc]; exact List.mem_append_left _ h1, ?_⟩
    rw [hup _ h1, hup _ (hP _ (List.mem_append_left _ hu))]; exact h2

theorem MidInv.row {adj : List (List Nat)} {r : Nat} {C : List Nat} {a : Nat} (row : List Nat)
    (s : Bfs (List (Nat × Nat))) (h : MidInv adj r C a s) (hrow : ∀ b ∈ row, b ∈ nbr adj a ∧ b < adj.length) :
    ∃ s', visitRow visitLog a row s = .ok s' ∧ MidInv adj r C a s' ∧
      (∀ b ∈ row, b ∈ C ++ [a] ++ s'.queue) ∧ (∀ x ∈ s.queue, x ∈ s'.queue) := by
  induction row generalizing s with
  | nil => exact ⟨s, rfl, h, by simp, fun x hx => hx⟩
  | cons b bs ih =>
    have hb := hrow b (by simp)
    have hbs : ∀ b ∈ bs, b ∈ nbr adj a ∧ b < adj.length := fun x hx => hrow x (by simp [hx])
    unfold visitRow
    by_cases hm : b ∈ C ++ [a] ++ s.queue
    · have he : s.explored[b]? = some true := by rw [h.expl b hb.2, decide_eq_true hm]
      rw [he]
      obtain ⟨s', h1, h2, h3, h4⟩ := ih s h hbs
      refine ⟨s', h1, h2, ?_, h4⟩
      intro x hx
      rcases List.mem_cons.1 hx with rfl | hx
      · rcases List.mem_append.1 hm with hm | hm
        · exact List.mem_append_left _ hm
        · exact List.mem_append_right _ (h4 _ hm)
      · exact h3 x hx
    · have he : s.explored[b]? = some false := by rw [h.expl b hb.2, decide_eq_false hm]
      rw [he]
      simp only [visitLog]
      obtain ⟨s', h1, h2, h3, h4⟩ := ih _ (h.step hb.1 hb.2 he) hbs
      refine ⟨s', h1, h2, ?_, fun x hx => h4 x (by simp [hx])⟩
      intro x hx
      rcases List.mem_cons.1 hx with rfl | hx
      · exact List.mem_append_right _ (h4 _ (by simp))
      · exact h3 x hx

theorem Inv.toMid {adj : List (List Nat)} {r : Nat} {C : List Nat} {a : Nat} {q : List Nat} {e : List Bool}
    {d : List (Nat × Nat)} (h : Inv adj r C ⟨e, a :: q, d⟩) : MidInv adj r C a ⟨e, q, d⟩ := by
  have hassoc : C ++ [a] ++ q = C ++ a :: q := by simp
  constructor
  · exact h.elen
  · simp only; rw [hassoc]; exact h.ord
  · simp only; rw [hassoc]; exact h.nodup
  · simp only; rw [hassoc]; exact h.lt
  · simp only; rw [hassoc]; exact h.expl
  · intro ba hba
    obtain ⟨h1, h2⟩ := h.par ba hba
    exact ⟨List.mem_append_left _ h1, h2⟩
  · exact h.root
  · exact (List.pairwise_cons.1 h.sorted).2
  · intro p hp
    rcases List.mem_append.1 hp with hp | hp
    · exact h.low p hp a (by simp)
    · simp at hp; subst hp; exact Nat.le_refl _
  · intro x hx
    exact ⟨(List.pairwise_cons.1 h.sorted).1 x hx, h.span a (by simp) x (by simp only at hx; simp [hx])⟩
  · simp only; rw [hassoc]; exact h.closed

theorem MidInv.toInv {adj : List (List Nat)} {r : Nat} {C : List Nat} {a : Nat} {s : Bfs (List (Nat × Nat))}
    (h : MidInv adj r C a s) (hrow : ∀ b ∈ nbr adj a, b ∈ C ++ [a] ++ s.queue) : Inv adj r (C ++ [a]) s := by
  constructor
  · exact h.elen
  · exact h.ord
  · exact h.nodup
  · exact h.lt
  · exact h.expl
  · exact h.par
  · exact h.root
  · exact h.sorted
  · intro p hp q hq
    exact Nat.le_trans (h.low p hp) (h.span q hq).1
  · intro p hp q hq
    have := (h.span p hp).1; have := (h.span q hq).2; omega
  · intro u hu v hv
    rcases List.mem_append.1 hu with hu | hu
    · exact h.closed u hu v hv
    · simp at hu; subst hu
      have hm := hrow v hv
      refine ⟨hm, ?_⟩
      rcases List.mem_append.1 hm with hm | hm
      · have := h.low v hm; omega
      · exact (h.span v hm).2

theorem Inv.loop {adj : List (List Nat)} (hadj : AdjOk adj) {r : Nat} (C : List Nat) (s : Bfs (List (Nat × Nat)))
    (h : Inv adj r C s) : ∃ s' C', bfsLoop visitLog adj s = .ok s' ∧ Inv adj r C' s' ∧ s'.queue = [] := by
  fun_induction bfsLoop visitLog adj s generalizing C with
  | case1 s hq => exact ⟨s, C, rfl, h, hq⟩
  | case2 s a q hq hrow =>
    have ha : a < adj.length := h.lt a (by simp [hq])
    rw [nbr_eq ha] at hrow; simp at hrow
  | case3 s a q hq row hrow s1 hr ih =>
    have ha : a < adj.length := h.lt a (by simp [hq])
    rw [nbr_eq ha] at hrow; injection hrow with hrow; subst hrow
    have hs : Inv adj r C ⟨s.explored, a :: q, s.data⟩ := by rw [← hq]; exact h
    obtain ⟨s', h1, h2, h3, _⟩ := MidInv.row (nbr adj a) _ hs.toMid (fun b hb => ⟨hb, hadj a b hb⟩)
    rw [h1] at hr; injection hr with hr; subst hr
    exact ih (C ++ [a]) (h2.toInv h3)
  | case4 s a q hq row hrow m hr =>
    have ha : a < adj.length := h.lt a (by simp [hq])
    rw [nbr_eq ha] at hrow; injection hrow with hrow; subst hrow
    have hs : Inv adj r C ⟨s.explored, a :: q, s.data⟩ := by rw [← hq]; exact h
    obtain ⟨s', h1, _⟩ := MidInv.row (nbr adj a) _ hs.toMid (fun b hb => ⟨hb, hadj a b hb⟩)
    rw [h1] at hr; simp at hr
  | case5 s a q hq row hrow hr =>
    have ha : a < adj.length := h.lt a (by simp [hq])
    rw [nbr_eq ha] at hrow; injection hrow with hrow; subst hrow
    have hs : Inv adj r C ⟨s.explored, a :: q, s.data⟩ := by rw [← hq]; exact h
    obtain ⟨s', h1, _⟩ := MidInv.row (nbr adj a) _ hs.toMid (fun b hb => ⟨hb, hadj a b hb⟩)
    rw [h1] at hr; simp at hr

/-- Edge relation of an adjacency list. -/
def Edge (adj : List (List Nat)) (a b : Nat) : Prop := b ∈ nbr adj a

/-- `WalkN E k a b`: there is a walk with `k` steps from `a` to `b`. -/
inductive WalkN (E : Nat → Nat → Prop) : Nat → Nat → Nat → Prop
  | refl (a : Nat) : WalkN E 0 a a
  | snoc {k a b c : Nat} : WalkN E k a b → E b c → WalkN E (k + 1) a c

/-- Everything the discovery log of a finished search says. -/
structure LogSpec (adj : List (List Nat)) (r : Nat) (l : List (Nat × Nat)) : Prop where
  nodup : (r :: l.map Prod.fst).Nodup
  lt : ∀ x ∈ r :: l.map Prod.fst, x < adj.length
  root : gDist l r = 0
  par : ∀ ba ∈ l, ba.2 ∈ r :: l.map Prod.fst ∧ ba.1 ∈ nbr adj ba.2 ∧ gDist l ba.1 = gDist l ba.2 + 1
  closed : ∀ u ∈ r :: l.map Prod.fst, ∀ v ∈ nbr adj u, v ∈ r :: l.map Prod.fst ∧ gDist l v ≤ gDist l u + 1

theorem bfs_log {adj : List (List Nat)} (hadj : AdjOk adj) {r : Nat} (hr : r < adj.length) :
    ∃ l e, LogSpec adj r l ∧ e.length = adj.length ∧
      (∀ i, i < adj.length → e[i]? = some (decide (i ∈ r :: l.map Prod.fst))) ∧
      ∀ {σ : Type} (visit : Nat → Nat → σ → Res σ) (d : σ),
        bfs visit adj r d = (replay visit l d >>= fun d' => .ok ⟨e, [], d'⟩) := by
  have h0 : Inv adj r [] ⟨(List.replicate adj.length false).set r true, [r], []⟩ := by
    constructor
    · simp
    · simp
    · simp
    · simpa using hr
    · intro i hi
      rw [List.getElem?_set]
      split
      · rename_i h; subst h; simp [hr]
      · rename_i h
        simp [hi, Ne.symm h]
    · simp
    · simp [gDist]
    · simp
    · simp
    · simp
    · simp
  obtain ⟨s', C, h1, h2, h3⟩ := Inv.loop hadj [] _ h0
  obtain ⟨l, h4, h5⟩ := bfsLoop_of_log adj _ s' h1
  simp at h4
  have hC : r :: l.map Prod.fst = C := by
    have := h2.ord; rw [h3, h4] at this; simpa using this
  have hQ : C ++ s'.queue = C := by simp [h3]
  refine ⟨l, s'.explored, ?_, h2.elen, ?_, ?_⟩
  · constructor
    · have := h2.nodup; rw [hQ] at this; rw [hC]; exact this
    · have := h2.lt; rw [hQ] at this; rw [hC]; exact this
    · have := h2.root; rw [h4] at this; exact this
    · have := h2.par; rw [h4] at this; rw [hC]; exact this
    · have := h2.closed; rw [h4, hQ] at this; rw [hC]; exact this
  · have := h2.expl; rw [hQ] at this; rw [hC]; exact this
  · intro σ visit d
    rw [bfs, if_pos hr]
    have := h5 visit d
    simp only at this
    rw [this, h3]

theorem LogSpec.walk {adj : List (List Nat)} {r : Nat} {l : List (Nat × Nat)} (h : LogSpec adj r l) {u : Nat}
    (hu : u ∈ r :: l.map Prod.fst) : WalkN (Edge adj) (gDist l u) r u := by
  generalize hk : gDist l u = k
  induction k generalizing u with
  | zero =>
    rcases List.mem_cons.1 hu with rfl | hu
    · exact .refl _
    · obtain ⟨ba, hba, rfl⟩ := List.mem_map.1 hu
      have := (h.par ba hba).2.2; omega
  | succ k ih =>
    rcases List.mem_cons.1 hu with rfl | hu
    · have := h.root; omega
    · obtain ⟨ba, hba, rfl⟩ := List.mem_map.1 hu
      obtain ⟨h1, h2, h3⟩ := h.par ba hba
      exact .snoc (ih h1 (by omega)) h2

theorem LogSpec.le {adj : List (List Nat)} {r : Nat} {l : List (Nat × Nat)} (h : LogSpec adj r l) {k u : Nat}
    (hw : WalkN (Edge adj) k r u) : u ∈ r :: l.map Prod.fst ∧ gDist l u ≤ k := by
  induction hw with
  | refl a => exact ⟨by simp, Nat.le_of_eq h.root⟩
  | snoc _ he ih =>
    obtain ⟨h1, h2⟩ := ih h
    obtain ⟨h3, h4⟩ := h.closed _ h1 _ he
    exact ⟨h3, by omega⟩

end Gemlab.GraphUnd
