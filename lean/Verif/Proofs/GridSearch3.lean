import Verif.Proofs.GridSearch2
import Verif.Spec.Euclid

/-! # Proofs about `GridSearch::insert`, `search` and the entity queries -/
namespace Gemlab
noncomputable section
open Classical

namespace GridSearch

/-- Entry of an item in a container. -/
def get2 (cs : HMap Nat (HMap Nat (List ℝ))) (k id : Nat) : Option (List ℝ) := (cs.get k).bind (fun c => c.get id)

/-- No repeated keys, in the outer map and in the containers. -/
def CWF (cs : HMap Nat (HMap Nat (List ℝ))) : Prop := HMap.WF cs ∧ ∀ e ∈ cs, HMap.WF e.2

theorem get2_upd (cs : HMap Nat (HMap Nat (List ℝ))) (k id : Nat) (x : List ℝ) (k' id' : Nat) :
    get2 (cs.insert k (((cs.get k).getD []).insert id x)) k' id' = if k' = k ∧ id' = id then some x else get2 cs k' id' := by
  unfold get2
  rw [HMap.get_insert]
  by_cases hk : k' = k
  · subst hk
    rw [if_pos rfl]
    simp only [Option.bind_some, true_and]
    rw [HMap.get_insert]
    split
    · rfl
    · cases h : cs.get k' <;> simp
  · rw [if_neg hk, if_neg (by tauto)]

theorem cwf_upd {cs : HMap Nat (HMap Nat (List ℝ))} (h : CWF cs) (k id : Nat) (x : List ℝ) :
    CWF (cs.insert k (((cs.get k).getD []).insert id x)) := by
  refine ⟨HMap.wf_insert _ _ _ h.1, ?_⟩
  intro e he
  rcases HMap.mem_insert he with rfl | he
  · apply HMap.wf_insert
    cases hg : cs.get k with
    | none => exact HMap.wf_nil
    | some c => exact h.2 _ (HMap.mem_of_get hg)
  · exact h.2 e he

theorem mem_get2 {cs : HMap Nat (HMap Nat (List ℝ))} (h : CWF cs) {k : Nat} {c : HMap Nat (List ℝ)} (hk : cs.get k = some c)
    {id : Nat} {x : List ℝ} : (id, x) ∈ c ↔ get2 cs k id = some x := by
  unfold get2
  rw [hk]
  exact (HMap.get_eq_some_iff (h.2 _ (HMap.mem_of_get hk))).symm

/-- The keys under which a point is stored. -/
def IsKey (g : GridSearch) (x : List ℝ) (k : Nat) : Prop :=
  k = keyOf g x ∨ ∃ c ∈ setHalo g x, Inside g c ∧ keyOf g c = k

theorem insert_fold (g : GridSearch) (id : Nat) (x : List ℝ) (key : Nat) (L : List (List ℝ))
    (cs : HMap Nat (HMap Nat (List ℝ))) (hcs : CWF cs) :
    ∃ cs', L.foldl (fun g' corner =>
          match calcContainerKey g' corner with
          | some keyCorner => if keyCorner ≠ key then updateOrInsert g' keyCorner id x else g'
          | none => g') { g with containers := cs } = { g with containers := cs' } ∧ CWF cs' ∧
      ∀ k id', get2 cs' k id' = if id' = id ∧ k ≠ key ∧ (∃ c ∈ L, Inside g c ∧ keyOf g c = k) then some x else get2 cs k id' := by
  induction L generalizing cs with
  | nil => exact ⟨cs, rfl, hcs, by simp⟩
  | cons c L ih =>
    rw [List.foldl_cons]
    have hck : calcContainerKey { g with containers := cs } c = calcContainerKey g c := rfl
    rw [hck, calcContainerKey_eq]
    by_cases hin : Inside g c
    · rw [if_pos hin]
      dsimp only
      by_cases hk : keyOf g c ≠ key
      · rw [if_pos hk]
        obtain ⟨cs', e1, e2, e3⟩ := ih (cs.insert (keyOf g c) (((cs.get (keyOf g c)).getD []).insert id x)) (cwf_upd hcs _ _ _)
        refine ⟨cs', e1, e2, ?_⟩
        intro k id'
        rw [e3, get2_upd]
        by_cases hid : id' = id
        · by_cases hk2 : k = keyOf g c
          · rw [hk2]
            have : ∃ c' ∈ c :: L, Inside g c' ∧ keyOf g c' = keyOf g c := ⟨c, by simp, hin, rfl⟩
            rw [if_pos (⟨hid, hk, this⟩ : id' = id ∧ keyOf g c ≠ key ∧ _)]
            rw [if_pos (⟨rfl, hid⟩ : keyOf g c = keyOf g c ∧ id' = id)]
            split <;> rfl
          · have h1 : (∃ c' ∈ c :: L, Inside g c' ∧ keyOf g c' = k) ↔ ∃ c' ∈ L, Inside g c' ∧ keyOf g c' = k := by
              constructor
              · rintro ⟨c', hc', h⟩
                rcases List.mem_cons.1 hc' with rfl | hc'
                · exact absurd h.2.symm hk2
                · exact ⟨c', hc', h⟩
              · rintro ⟨c', hc', h⟩; exact ⟨c', List.mem_cons_of_mem _ hc', h⟩
            rw [if_neg (fun h => hk2 h.1 : ¬(k = keyOf g c ∧ id' = id))]
            simp only [h1]
        · simp [hid]
      · rw [if_neg hk]
        obtain ⟨cs', e1, e2, e3⟩ := ih cs hcs
        refine ⟨cs', e1, e2, ?_⟩
        rw [not_not] at hk
        intro k id'
        rw [e3]
        have h1 : (k ≠ key ∧ ∃ c' ∈ c :: L, Inside g c' ∧ keyOf g c' = k) ↔ k ≠ key ∧ ∃ c' ∈ L, Inside g c' ∧ keyOf g c' = k := by
          constructor
          · rintro ⟨h0, c', hc', h⟩
            rcases List.mem_cons.1 hc' with rfl | hc'
            · exact absurd (h.2.symm.trans hk) h0
            · exact ⟨h0, c', hc', h⟩
          · rintro ⟨h0, c', hc', h⟩; exact ⟨h0, c', List.mem_cons_of_mem _ hc', h⟩
        simp only [h1]
    · rw [if_neg hin]
      dsimp only
      obtain ⟨cs', e1, e2, e3⟩ := ih cs hcs
      refine ⟨cs', e1, e2, ?_⟩
      intro k id'
      rw [e3]
      have h1 : (∃ c' ∈ c :: L, Inside g c' ∧ keyOf g c' = k) ↔ ∃ c' ∈ L, Inside g c' ∧ keyOf g c' = k := by
        constructor
        · rintro ⟨c', hc', h⟩
          rcases List.mem_cons.1 hc' with rfl | hc'
          · exact absurd h.1 hin
          · exact ⟨c', hc', h⟩
        · rintro ⟨c', hc', h⟩; exact ⟨c', List.mem_cons_of_mem _ hc', h⟩
      simp only [h1]

/-- Effect of `insert`. -/
theorem insert_spec {g : GridSearch} (hcs : CWF g.containers) (id : Nat) (x : List ℝ) :
    (x.length = g.ndim ∧ Inside g x → ∃ cs', insert g id x = .ok { g with containers := cs' } ∧ CWF cs' ∧
      ∀ k id', get2 cs' k id' = if id' = id ∧ IsKey g x k then some x else get2 g.containers k id') ∧
    (¬(x.length = g.ndim ∧ Inside g x) → ∃ e, insert g id x = .err e) := by
  unfold insert
  rw [calcContainerKey_eq]
  constructor
  · rintro ⟨hl, hin⟩
    rw [if_neg (not_not.2 hl), if_pos hin]
    obtain ⟨cs', e1, e2, e3⟩ := insert_fold g id x (keyOf g x) (setHalo g x)
      (g.containers.insert (keyOf g x) (((g.containers.get (keyOf g x)).getD []).insert id x)) (cwf_upd hcs _ _ _)
    refine ⟨cs', congrArg Res.ok e1, e2, ?_⟩
    intro k id'
    rw [e3, get2_upd]
    unfold IsKey
    by_cases hid : id' = id <;> by_cases hk : k = keyOf g x <;> simp [hid, hk]
  · intro h
    by_cases hl : x.length = g.ndim
    · have : ¬ Inside g x := fun hin => h ⟨hl, hin⟩
      rw [if_neg (not_not.2 hl), if_neg this]; exact ⟨_, rfl⟩
    · rw [if_pos hl]; exact ⟨_, rfl⟩

/-- `(id, x)` is the last insertion of `id` in the history. -/
def Current (hist : List (Nat × List ℝ)) (id : Nat) (x : List ℝ) : Prop :=
  ∃ pre suf, hist = pre ++ (id, x) :: suf ∧ ∀ y, (id, y) ∉ suf

/-- Invariant of the grid. -/
structure Inv (g : GridSearch) (hist : List (Nat × List ℝ)) : Prop where
  wf : WF g
  cwf : CWF g.containers
  sound : ∀ k id x, get2 g.containers k id = some x → (id, x) ∈ hist ∧ x.length = g.ndim ∧ Inside g x
  cur : ∀ id x, Current hist id x → x.length = g.ndim ∧ Inside g x ∧ ∀ k, IsKey g x k → get2 g.containers k id = some x

theorem current_append {hist : List (Nat × List ℝ)} {id id' : Nat} {x y : List ℝ} (h : Current (hist ++ [(id, x)]) id' y) :
    (id' = id ∧ y = x) ∨ (id' ≠ id ∧ Current hist id' y) := by
  obtain ⟨pre, suf, e, hs⟩ := h
  rcases List.eq_nil_or_concat suf with rfl | ⟨suf', a, rfl⟩
  · have := List.append_inj_right' e (by simp)
    simp only [List.cons.injEq, Prod.mk.injEq, and_true] at this
    exact Or.inl ⟨this.1.symm, this.2.symm⟩
  · right
    have e' : hist ++ [(id, x)] = (pre ++ (id', y) :: suf') ++ [a] := by rw [e]; simp
    have h1 := List.append_inj_left' e' (by simp)
    have h2 := List.append_inj_right' e' (by simp)
    simp only [List.cons.injEq, and_true] at h2
    subst h2
    refine ⟨?_, pre, suf', h1, ?_⟩
    · rintro rfl
      exact hs x (by simp)
    · intro z hz; exact hs z (by simp [hz])

theorem inv_new {xmin xmax : List ℝ} {ndiv : Option Nat} {tol btol : Option ℝ} {g : GridSearch}
    (h : new xmin xmax ndiv tol btol = .ok g) : Inv g [] := by
  obtain ⟨h1, h2, _⟩ := new_ok h
  refine ⟨h1, ?_, ?_, ?_⟩
  · rw [h2]; exact ⟨HMap.wf_nil, by simp⟩
  · intro k id x; rw [h2]; simp [get2]
  · rintro id x ⟨pre, suf, e, _⟩; simp at e

theorem inv_insert {g g' : GridSearch} {hist : List (Nat × List ℝ)} {id : Nat} {x : List ℝ} (hi : Inv g hist)
    (h : insert g id x = .ok g') : Inv g' (hist ++ [(id, x)]) ∧ ∃ cs, g' = { g with containers := cs } := by
  by_cases hv : x.length = g.ndim ∧ Inside g x
  · obtain ⟨cs', e1, e2, e3⟩ := (insert_spec hi.cwf id x).1 hv
    rw [h] at e1
    simp only [Res.ok.injEq] at e1
    subst e1
    have hwf : WF { g with containers := cs' } := { hi.wf with }
    refine ⟨⟨hwf, e2, ?_, ?_⟩, cs', rfl⟩
    · intro k id' y hy
      dsimp only at hy
      rw [e3] at hy
      split at hy
      · rename_i hc
        simp only [Option.some.injEq] at hy
        rw [hc.1, ← hy]
        exact ⟨by simp, hv.1, hv.2⟩
      · obtain ⟨a, b, c⟩ := hi.sound k id' y hy
        exact ⟨by simp [a], b, c⟩
    · intro id' y hc
      dsimp only
      rcases current_append hc with ⟨rfl, rfl⟩ | ⟨hne, hc⟩
      · refine ⟨hv.1, hv.2, ?_⟩
        intro k hk
        rw [e3, if_pos ⟨rfl, hk⟩]
      · obtain ⟨a, b, c⟩ := hi.cur id' y hc
        refine ⟨a, b, ?_⟩
        intro k hk
        rw [e3, if_neg (fun h => hne h.1)]
        exact c k hk
  · obtain ⟨e, he⟩ := (insert_spec hi.cwf id x).2 hv
    rw [he] at h; simp at h

/-! ## search -/

theorem searchLoop_spec (tolDist : ℝ) (q : List ℝ) (hq : q.length = 2 ∨ q.length = 3) (l : List (Nat × List ℝ))
    (hl : ∀ e ∈ l, e.2.length = q.length) :
    ∃ r, searchLoop tolDist q l = .ok r ∧ (∀ id, r = some id → ∃ x, (id, x) ∈ l ∧ d3 x q ≤ tolDist) ∧
      (r = none → ∀ e ∈ l, tolDist < d3 e.2 q) := by
  induction l with
  | nil => exact ⟨none, rfl, by simp, by simp⟩
  | cons e l ih =>
    obtain ⟨id, xo⟩ := e
    have hlen := hl (id, xo) (by simp)
    unfold searchLoop
    dsimp only at hlen
    rw [pointPointDistance_eq (by omega) (by omega), Res.bind_ok]
    by_cases hd : d3 xo q ≤ tolDist
    · rw [if_pos hd]
      refine ⟨_, rfl, ?_, by simp⟩
      intro id' h
      simp only [Option.some.injEq] at h
      exact ⟨xo, by simp [h], hd⟩
    · rw [if_neg hd]
      obtain ⟨r, h1, h2, h3⟩ := ih (fun e he => hl e (List.mem_cons_of_mem _ he))
      refine ⟨r, h1, ?_, ?_⟩
      · intro id' h
        obtain ⟨x, hx, hx'⟩ := h2 id' h
        exact ⟨x, List.mem_cons_of_mem _ hx, hx'⟩
      · intro h e he
        rcases List.mem_cons.1 he with rfl | he
        · exact not_le.1 hd
        · exact h3 h e he

theorem search_spec {g : GridSearch} {hist : List (Nat × List ℝ)} (hi : Inv g hist)
    {iter : List (Nat × List ℝ) → List (Nat × List ℝ)} (hiter : IterOrder iter) {q : List ℝ} (hq : q.length = g.ndim)
    (hin : Inside g q) :
    ∃ r, search iter g q = .ok r ∧ (∀ id, r = some id → ∃ x, (id, x) ∈ hist ∧ x.length = g.ndim ∧ d3 x q ≤ g.tolDist) ∧
      (r = none → ∀ id x, get2 g.containers (keyOf g q) id = some x → g.tolDist < d3 x q) := by
  unfold search
  rw [if_neg (not_not.2 hq), calcContainerKey_eq, if_pos hin]
  dsimp only
  cases hg : g.containers.get (keyOf g q) with
  | none =>
    refine ⟨none, rfl, by simp, ?_⟩
    intro _ id x h
    unfold get2 at h
    rw [hg] at h; simp at h
  | some c =>
    dsimp only
    have hmem : ∀ e ∈ iter c, get2 g.containers (keyOf g q) e.1 = some e.2 := by
      intro e he
      exact (mem_get2 hi.cwf hg).1 (hiter.mem.1 he)
    obtain ⟨r, h1, h2, h3⟩ := searchLoop_spec g.tolDist q (by rw [hq]; exact hi.wf.ndim) (iter c)
      (fun e he => by rw [hq]; exact (hi.sound _ _ _ (hmem e he)).2.1)
    refine ⟨r, h1, ?_, ?_⟩
    · intro id h
      obtain ⟨x, hx, hd⟩ := h2 id h
      obtain ⟨a, b, _⟩ := hi.sound _ _ _ (hmem _ hx)
      exact ⟨x, a, b, hd⟩
    · intro h id x hx
      exact h3 h (id, x) (hiter.mem.2 ((mem_get2 hi.cwf hg).2 hx))

/-- Per-direction tolerance implies the distance tolerance. -/
theorem d3_le_tolDist {g : GridSearch} (hw : WF g) {x q : List ℝ} (hx : x.length = g.ndim) (hq : q.length = g.ndim)
    (h : ∀ i < g.ndim, |at' q i - at' x i| ≤ g.tolerance) : d3 x q ≤ g.tolDist := by
  have ht := hw.tolPos
  have hsq : Real.sqrt (g.ndim : ℝ) * Real.sqrt (g.ndim : ℝ) = (g.ndim : ℝ) := Real.mul_self_sqrt (by positivity)
  have hrr : g.tolDist * g.tolDist = (g.ndim : ℝ) * (g.tolerance * g.tolerance) := by
    rw [hw.tolDist]
    calc _ = (Real.sqrt (g.ndim : ℝ) * Real.sqrt (g.ndim : ℝ)) * (g.tolerance * g.tolerance) := by ring
      _ = _ := by rw [hsq]
  have hrad : 0 ≤ g.tolDist := by rw [hw.tolDist]; positivity
  have sqle : ∀ u v : ℝ, |u - v| ≤ g.tolerance → (v - u) * (v - u) ≤ g.tolerance * g.tolerance := by
    intro u v huv
    rw [abs_le] at huv
    nlinarith
  apply n3_le_of_sq hrad
  rw [hrr]
  have e0 := sqle _ _ (h 0 (by have := hw.ndim; omega))
  have e1 := sqle _ _ (h 1 (by have := hw.ndim; omega))
  rcases hw.ndim with h2 | h3
  · have hn : (g.ndim : ℝ) = 2 := by rw [h2]; norm_num
    rw [hn, at'_of_ge (v := x) (i := 2) (by omega), at'_of_ge (v := q) (i := 2) (by omega)]
    nlinarith
  · have e2 := sqle _ _ (h 2 (by omega))
    have hn : (g.ndim : ℝ) = 3 := by rw [h3]; norm_num
    rw [hn]
    nlinarith

/-! ## Entity queries -/

theorem mem_foldl_append_ite {α : Type} (p : α → Prop) [DecidablePred p] (f : α → Nat) (l : List α) (acc : List Nat) (k : Nat) :
    k ∈ l.foldl (fun acc e => if p e then acc ++ [f e] else acc) acc ↔ k ∈ acc ∨ ∃ e ∈ l, p e ∧ f e = k := by
  induction l generalizing acc with
  | nil => simp
  | cons a l ih =>
    rw [List.foldl_cons, ih]
    by_cases h : p a
    · rw [if_pos h]; simp [h, or_assoc, eq_comm]
    · rw [if_neg h]; simp [h]

theorem containersNear_ok {g : GridSearch} {iterO : List (Nat × HMap Nat (List ℝ)) → List (Nat × HMap Nat (List ℝ))}
    (hiter : IterOrder iterO) {dist : List ℝ → Res ℝ} {D : List ℝ → ℝ}
    (hd : ∀ x, x.length = g.ndim → dist x = .ok (D x))
    (hlen : ∀ k, (containerCenter g (pivotIndices g k)).length = g.ndim) :
    ∃ near, containersNear iterO g dist = .ok near ∧ ∀ k, k ∈ near ↔
      (∃ c, (k, c) ∈ g.containers) ∧ D (containerCenter g (pivotIndices g k)) ≤ g.radius + g.tolDist := by
  unfold containersNear
  refine ⟨_, Res.foldlM_eq_foldl _ (fun acc (e : Nat × HMap Nat (List ℝ)) => if D (containerCenter g (pivotIndices g e.1)) ≤ g.radius + g.tolDist
    then acc ++ [e.1] else acc) _ _ ?_, ?_⟩
  · intro e _ s
    rw [hd _ (hlen _)]; rfl
  · intro k
    rw [mem_foldl_append_ite (fun e : Nat × HMap Nat (List ℝ) => D (containerCenter g (pivotIndices g e.1)) ≤ g.radius + g.tolDist) (fun e => e.1)]
    constructor
    · rintro (h | ⟨e, he, h1, rfl⟩)
      · simp at h
      · exact ⟨⟨e.2, hiter.mem.1 he⟩, h1⟩
    · rintro ⟨⟨c, hc⟩, h⟩
      exact Or.inr ⟨(k, c), hiter.mem.2 hc, h, rfl⟩

theorem mem_foldl_cons_ite {α : Type} (p : α → Prop) [DecidablePred p] (f : α → Nat) (l : List α) (acc : List Nat) (k : Nat) :
    k ∈ l.foldl (fun acc e => if p e then f e :: acc else acc) acc ↔ k ∈ acc ∨ ∃ e ∈ l, p e ∧ f e = k := by
  induction l generalizing acc with
  | nil => simp
  | cons a l ih =>
    rw [List.foldl_cons, ih]
    by_cases h : p a
    · rw [if_pos h]; simp only [List.mem_cons, exists_eq_or_imp, h, true_and]
      constructor
      · rintro ((rfl | h) | h)
        · exact Or.inr (Or.inl rfl)
        · exact Or.inl h
        · exact Or.inr (Or.inr h)
      · rintro (h | h | h)
        · exact Or.inl (Or.inr h)
        · exact Or.inl (Or.inl h.symm)
        · exact Or.inr h
    · rw [if_neg h]; simp [h]

theorem collect_ok {g : GridSearch} {hist : List (Nat × List ℝ)} (hi : Inv g hist)
    {iter : List (Nat × List ℝ) → List (Nat × List ℝ)}
    (hiter : IterOrder iter) {dist : List ℝ → Res ℝ} {D : List ℝ → ℝ} (hd : ∀ x, x.length = g.ndim → dist x = .ok (D x))
    (absolute : Bool) (filter : List ℝ → Bool) (near : List Nat) (hnear : ∀ k ∈ near, ∃ c, (k, c) ∈ g.containers) :
    ∃ ids, collect iter g near dist absolute filter = .ok ids ∧ ∀ id, id ∈ ids ↔
      ∃ k ∈ near, ∃ x, get2 g.containers k id = some x ∧ (if absolute then |D x| else D x) ≤ g.tolDist ∧ filter x = true := by
  unfold collect
  obtain ⟨ids, h1, h2⟩ := Res.foldlM_list (fun (ids : List Nat) key =>
      match g.containers.get key with
      | none => Res.panic
      | some c =>
        (iter c).foldlM
          (fun ids (e : Nat × List ℝ) => do
            let d ← dist e.2
            .ok (if (if absolute then |d| else d) ≤ g.tolDist ∧ filter e.2 = true then e.1 :: ids else ids)) ids)
    near [] (fun pre ids => ∀ id, id ∈ ids ↔
      ∃ k ∈ pre, ∃ x, get2 g.containers k id = some x ∧ (if absolute then |D x| else D x) ≤ g.tolDist ∧ filter x = true)
    (by simp) (by
      intro pre k s hk _ hs
      obtain ⟨c, hc⟩ := hnear k hk
      have hg := HMap.get_of_mem hi.cwf.1 hc
      rw [hg]
      dsimp only
      refine ⟨_, Res.foldlM_eq_foldl _ (fun ids (e : Nat × List ℝ) => if (if absolute then |D e.2| else D e.2) ≤ g.tolDist ∧ filter e.2 = true
        then e.1 :: ids else ids) _ _ ?_, ?_⟩
      · intro e he s
        have := (hi.sound _ _ _ ((mem_get2 hi.cwf hg).1 (hiter.mem.1 he))).2.1
        rw [hd _ this]; rfl
      · intro id
        rw [mem_foldl_cons_ite (fun e : Nat × List ℝ => (if absolute then |D e.2| else D e.2) ≤ g.tolDist ∧ filter e.2 = true) (fun e => e.1), hs]
        constructor
        · rintro (⟨k', hk', x, hx⟩ | ⟨e, he, hp, rfl⟩)
          · exact ⟨k', by simp [hk'], x, hx⟩
          · exact ⟨k, by simp, e.2, (mem_get2 hi.cwf hg).1 (hiter.mem.1 he), hp⟩
        · rintro ⟨k', hk', x, hx, hp⟩
          rcases List.mem_append.1 hk' with hk' | hk'
          · exact Or.inl ⟨k', hk', x, hx, hp⟩
          · rw [List.mem_singleton] at hk'
            subst hk'
            exact Or.inr ⟨(id, x), hiter.mem.2 ((mem_get2 hi.cwf hg).2 hx), hp, rfl⟩)
  exact ⟨ids, h1, h2⟩

/-- Generic entity query: the pre-selection of containers loses nothing when the distance is 1-Lipschitz. -/
theorem entity_query {g : GridSearch} {hist : List (Nat × List ℝ)} (hi : Inv g hist)
    {iterO : List (Nat × HMap Nat (List ℝ)) → List (Nat × HMap Nat (List ℝ))} (hiterO : IterOrder iterO)
    {iter : List (Nat × List ℝ) → List (Nat × List ℝ)}
    (hiter : IterOrder iter) {dist : List ℝ → Res ℝ} {D : List ℝ → ℝ} (hd : ∀ x, x.length = g.ndim → dist x = .ok (D x))
    (hlip : ∀ x c, x.length = g.ndim → c.length = g.ndim → D c ≤ D x + d3 c x)
    (absolute : Bool) (filter : List ℝ → Bool) :
    ∃ ids, (do let near ← containersNear iterO g dist; collect iter g near dist absolute filter) = .ok ids ∧
      (∀ id ∈ ids, ∃ x, (id, x) ∈ hist ∧ x.length = g.ndim ∧ (if absolute then |D x| else D x) ≤ g.tolDist ∧ filter x = true) ∧
      (∀ id x, Current hist id x → (if absolute then |D x| else D x) ≤ g.tolDist → filter x = true → id ∈ ids) := by
  have hlen : ∀ k, (containerCenter g (pivotIndices g k)).length = g.ndim := by
    intro k
    unfold containerCenter
    rcases hi.wf.ndim with h | h
    · rw [if_neg (by omega), h]; rfl
    · rw [if_pos h, h]; rfl
  obtain ⟨near, n1, n2⟩ := containersNear_ok hiterO hd hlen
  obtain ⟨ids, c1, c2⟩ := collect_ok hi hiter hd absolute filter near (fun k hk => ((n2 k).1 hk).1)
  refine ⟨ids, by rw [n1, Res.bind_ok, c1], ?_, ?_⟩
  · intro id hid
    obtain ⟨k, _, x, hx, hp⟩ := (c2 id).1 hid
    obtain ⟨a, b, _⟩ := hi.sound _ _ _ hx
    exact ⟨x, a, b, hp⟩
  · intro id x hc hD hf
    obtain ⟨hl, hin, hkeys⟩ := hi.cur id x hc
    have hget := hkeys _ (Or.inl rfl)
    refine (c2 id).2 ⟨keyOf g x, ?_, x, hget, hD, hf⟩
    rw [n2]
    constructor
    · unfold get2 at hget
      cases hg : g.containers.get (keyOf g x) with
      | none => rw [hg] at hget; simp at hget
      | some c => exact ⟨c, HMap.mem_of_get hg⟩
    · obtain ⟨q1, q2⟩ := center_dist hi.wf hin hl
      have := hlip x _ hl q1
      have hD' : D x ≤ g.tolDist := by
        cases absolute
        · simpa using hD
        · simp only [if_true] at hD; exact (le_abs_self _).trans hD
      linarith

end GridSearch
end
end Gemlab
