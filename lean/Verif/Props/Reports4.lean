import Verif.Model.Reports
import Verif.Props.GridSearch
import Verif.Lib.ResList

/-!
# C83 — the summaries of the grids (`Display` of `GridSearch`)
-/
namespace Gemlab.Reports
open Gemlab Gemlab.MeshText Gemlab.Mesh Gemlab.GridSearch

/-! ## Specification -/

/-- A list of numbers as printed. -/
def idsText (ids : List Nat) : Text := "[".toList ++ sepBy ", ".toList (ids.map showNat) ++ "]".toList

/-- The lines of the containers: `key: [ids]`. -/
def containersText (keys : List Nat) (idsAt : Nat → List Nat) : Text :=
  keys.flatMap fun k => showNat k ++ ": ".toList ++ idsText (idsAt k) ++ "\n".toList

/-- The point or one of the points obtained by moving every coordinate by the tolerance lies in the container `k`. -/
def Touches (g : GridSearch) (x : List ℝ) (k : Nat) : Prop :=
  ∃ y : List ℝ, y.length = g.ndim ∧ (y = x ∨ ∀ i < g.ndim, y.getD i 0 = x.getD i 0 - g.tolerance ∨ y.getD i 0 = x.getD i 0 + g.tolerance) ∧
    calcContainerKey g y = some k

/-! ## Sorting and sets -/

theorem sortIds_mem (l : List Nat) (a : Nat) : a ∈ sortIds l ↔ a ∈ l := List.mem_insertionSort _

theorem sortIds_strict {l : List Nat} (h : l.Nodup) : (sortIds l).Pairwise (· < ·) := by
  have h1 := List.pairwise_insertionSort (· ≤ ·) l
  have h2 : (sortIds l).Nodup := (List.perm_insertionSort (· ≤ ·) l).nodup_iff.2 h
  exact List.Pairwise.imp₂ (fun a b hab hne => lt_of_le_of_ne hab hne) h1 h2

theorem strict_ext {l l' : List Nat} (h : l.Pairwise (· < ·)) (h' : l'.Pairwise (· < ·)) (he : ∀ a, a ∈ l ↔ a ∈ l') : l = l' := by
  have hn : l.Nodup := h.imp (fun h => ne_of_lt h)
  have hn' : l'.Nodup := h'.imp (fun h => ne_of_lt h)
  exact List.Perm.eq_of_pairwise' (r := (· ≤ ·)) (h.imp le_of_lt) (h'.imp le_of_lt) ((List.perm_ext_iff_of_nodup hn hn').2 he)

theorem hset_insert_nodup {l : List Nat} (h : l.Nodup) (a : Nat) : (HSet.insert l a).Nodup := by
  unfold HSet.insert
  split
  · exact h
  · rename_i ha
    rw [List.nodup_append]
    exact ⟨h, by simp, by intro x hx y hy; simp only [List.mem_singleton] at hy; subst hy; rintro rfl; exact ha hx⟩

theorem hset_insert_mem (l : List Nat) (a x : Nat) : x ∈ HSet.insert l a ↔ x ∈ l ∨ x = a := by
  unfold HSet.insert
  split
  · rename_i ha
    constructor
    · exact Or.inl
    · rintro (h | rfl)
      · exact h
      · exact ha
  · simp

theorem hset_fold (ids l : List Nat) (h : l.Nodup) :
    (ids.foldl HSet.insert l).Nodup ∧ ∀ x, x ∈ ids.foldl HSet.insert l ↔ x ∈ l ∨ x ∈ ids := by
  induction ids generalizing l with
  | nil => simp [h]
  | cons a ids ih =>
    obtain ⟨h1, h2⟩ := ih _ (hset_insert_nodup h a)
    refine ⟨h1, fun x => ?_⟩
    rw [List.foldl_cons, h2, hset_insert_mem, List.mem_cons]
    tauto

theorem showContainers_ok {C : Type} (idsOf : C → List Nat) (cs : HMap Nat C) (idsAt : Nat → List Nat) (keys : List Nat)
    (hk : ∀ k ∈ keys, ∃ c, cs.get k = some c ∧ sortIds (idsOf c) = idsAt k) (s : Text × List Nat) (hs : s.2.Nodup) :
    ∃ u : List Nat, showContainers idsOf cs keys s = .ok (s.1 ++ containersText keys idsAt, u) ∧ u.Nodup ∧
      ∀ x, x ∈ u ↔ x ∈ s.2 ∨ ∃ k ∈ keys, x ∈ idsAt k := by
  induction keys generalizing s with
  | nil => exact ⟨s.2, by simp [showContainers, containersText], hs, by simp⟩
  | cons k keys ih =>
    obtain ⟨c, hc, he⟩ := hk k (by simp)
    obtain ⟨f1, f2⟩ := hset_fold (idsAt k) s.2 hs
    obtain ⟨u, h1, h2, h3⟩ := ih (fun k hk' => hk k (by simp [hk'])) (s.1 ++ containerLine k (idsAt k), (idsAt k).foldl HSet.insert s.2) f1
    refine ⟨u, ?_, h2, ?_⟩
    · unfold showContainers
      simp only [hc, unwrap, Res.bind_ok, he, h1]
      have : containerLine k (idsAt k) = showNat k ++ ": ".toList ++ idsText (idsAt k) ++ "\n".toList := by
        unfold containerLine showList idsText
        simp
      rw [this]
      simp [containersText]
    · intro x
      rw [h3, f2]
      simp only [List.mem_cons, exists_eq_or_imp]
      tauto

/-! ## What the containers of a grid hold -/

variable {xmin xmax : List ℝ} {ndiv : Option Nat} {tol btol : Option ℝ} {g : GridSearch} {hist : List (Nat × List ℝ)}

theorem mem_halo {g : GridSearch} (hd : g.ndim = 2 ∨ g.ndim = 3) (x y : List ℝ) (hy : y.length = g.ndim) :
    y ∈ setHalo g x ↔ ∀ i < g.ndim, y.getD i 0 = x.getD i 0 - g.tolerance ∨ y.getD i 0 = x.getD i 0 + g.tolerance := by
  rcases hd with hd | hd
  · rw [hd] at hy ⊢
    match y, hy with
    | [a, b], _ =>
      unfold setHalo
      simp only [hd, if_true, List.mem_cons, List.cons.injEq, and_true, List.not_mem_nil, or_false]
      constructor
      · intro h i hi
        interval_cases i <;> simp [at'] at * <;> tauto
      · intro h
        have h0 := h 0 (by omega)
        have h1 := h 1 (by omega)
        simp [at'] at *
        tauto
  · rw [hd] at hy ⊢
    match y, hy with
    | [a, b, c], _ =>
      unfold setHalo
      simp only [hd, show ¬ (3 = 2) from by decide, if_false, List.mem_cons, List.cons.injEq, and_true, List.not_mem_nil, or_false]
      constructor
      · intro h i hi
        interval_cases i <;> simp [at'] at * <;> tauto
      · intro h
        have h0 := h 0 (by omega)
        have h1 := h 1 (by omega)
        have h2 := h 2 (by omega)
        simp [at'] at *
        rcases h0 with h0 | h0 <;> rcases h1 with h1 | h1 <;> rcases h2 with h2 | h2 <;> simp [h0, h1, h2]

theorem halo_length {g : GridSearch} (hd : g.ndim = 2 ∨ g.ndim = 3) (x y : List ℝ) (h : y ∈ setHalo g x) : y.length = g.ndim := by
  unfold setHalo at h
  rcases hd with hd | hd
  · simp only [hd, if_true, List.mem_cons, List.not_mem_nil, or_false] at h ⊢
    rcases h with rfl | rfl | rfl | rfl <;> rfl
  · simp only [hd, show ¬ (3 = 2) from by decide, if_false, List.mem_cons, List.not_mem_nil, or_false] at h ⊢
    rcases h with rfl | rfl | rfl | rfl | rfl | rfl | rfl | rfl <;> rfl

theorem isKey_iff {g : GridSearch} (hd : g.ndim = 2 ∨ g.ndim = 3) (x : List ℝ) (hx : x.length = g.ndim) (hin : Inside g x) (k : Nat) :
    IsKey g x k ↔ Touches g x k := by
  unfold IsKey Touches
  constructor
  · rintro (rfl | ⟨c, hc, hci, rfl⟩)
    · exact ⟨x, hx, Or.inl rfl, by rw [calcContainerKey_eq, if_pos hin]⟩
    · have hl := halo_length hd x c hc
      exact ⟨c, hl, Or.inr ((mem_halo hd x c hl).1 hc), by rw [calcContainerKey_eq, if_pos hci]⟩
  · rintro ⟨y, hy, hor, hk⟩
    rw [calcContainerKey_eq] at hk
    split at hk
    · rename_i hyi
      injection hk with hk
      rcases hor with rfl | h
      · exact Or.inl hk.symm
      · exact Or.inr ⟨y, (mem_halo hd x y hy).2 h, hyi, hk⟩
    · cases hk

theorem isKey_containers {g : GridSearch} (cs : HMap Nat (HMap Nat (List ℝ))) (x : List ℝ) (k : Nat) :
    IsKey { g with containers := cs } x k ↔ IsKey g x k := Iff.rfl

theorem reached_held (h : Reached xmin xmax ndiv tol btol g hist) :
    (∀ k id, get2 g.containers k id ≠ none ↔ ∃ x, (id, x) ∈ hist ∧ IsKey g x k) ∧ ∀ e ∈ g.containers, e.2 ≠ [] := by
  induction h with
  | new h =>
    obtain ⟨_, h2, _⟩ := new_ok h
    rw [h2]
    refine ⟨fun k id => by simp [get2], by simp⟩
  | @insert g g' hist id x hr hi ih =>
    obtain ⟨i1, i2⟩ := ih
    have hinv := hr.inv.1
    have hv : x.length = g.ndim ∧ Inside g x := by
      by_contra hc
      obtain ⟨e, he⟩ := (insert_spec hinv.cwf id x).2 hc
      rw [he] at hi; cases hi
    constructor
    · obtain ⟨cs', e1, e2, e3⟩ := (insert_spec hinv.cwf id x).1 hv
      rw [hi] at e1
      injection e1 with e1
      subst e1
      intro k id'
      dsimp only
      rw [e3]
      constructor
      · intro hne
        split at hne
        · rename_i hc
          obtain ⟨rfl, hc⟩ := hc
          exact ⟨x, by simp, hc⟩
        · obtain ⟨y, hy, hk⟩ := (i1 k id').1 hne
          exact ⟨y, by simp [hy], hk⟩
      · rintro ⟨y, hy, hk⟩
        split
        · simp
        · rename_i hc
          rw [List.mem_append] at hy
          rcases hy with hy | hy
          · exact (i1 k id').2 ⟨y, hy, hk⟩
          · simp only [List.mem_singleton, Prod.mk.injEq] at hy
            obtain ⟨rfl, rfl⟩ := hy
            exact absurd ⟨rfl, hk⟩ hc
    · have hup : ∀ (g : GridSearch) (key : Nat), (∀ e ∈ g.containers, e.2 ≠ []) → ∀ e ∈ (updateOrInsert g key id x).containers, e.2 ≠ [] := by
        intro g key hg e he
        unfold updateOrInsert at he
        rcases HMap.mem_insert he with rfl | he
        · dsimp only
          intro h0
          have h1 := HMap.get_insert ((g.containers.get key).getD []) id id x
          rw [h0] at h1
          simp at h1
        · exact hg e he
      have hfold : ∀ (L : List (List ℝ)) (key : Nat) (g : GridSearch), (∀ e ∈ g.containers, e.2 ≠ []) →
          ∀ e ∈ (L.foldl (fun g' corner =>
          match calcContainerKey g' corner with
          | some keyCorner => if keyCorner ≠ key then updateOrInsert g' keyCorner id x else g'
          | none => g') g).containers, e.2 ≠ [] := by
        intro L key
        induction L with
        | nil => intro g hg; exact hg
        | cons c L ihL =>
          intro g hg
          rw [List.foldl_cons]
          apply ihL
          split
          · split
            · exact hup g _ hg
            · exact hg
          · exact hg
      unfold GridSearch.insert at hi
      rw [if_neg (not_not.2 hv.1), calcContainerKey_eq, if_pos hv.2] at hi
      injection hi with hi
      rw [← hi]
      exact hfold _ _ _ (hup g _ i2)

/-- **C83.** The summary of a grid search structure, after any history of insertions: one line for each non-empty container, in ascending
order, listing in ascending order the ids inserted with a point that touches the container; then all ids inserted, their number, the
number of containers and the numbers of divisions. The text does not depend on the orders of iteration of the hash maps and sets. -/
theorem C83_grid_search (h : Reached xmin xmax ndiv tol btol g hist) :
    ∃ (keys ids : List Nat) (idsAt : Nat → List Nat),
      keys.Pairwise (· < ·) ∧ (∀ k, k ∈ keys ↔ ∃ id x, (id, x) ∈ hist ∧ Touches g x k) ∧
      (∀ k ∈ keys, (idsAt k).Pairwise (· < ·) ∧ ∀ id, id ∈ idsAt k ↔ ∃ x, (id, x) ∈ hist ∧ Touches g x k) ∧
      ids.Pairwise (· < ·) ∧ (∀ id, id ∈ ids ↔ ∃ x, (id, x) ∈ hist) ∧
      ∀ iter iterC iterS, IterOrder iter → IterOrder iterC → IterOrder iterS →
        showGrid iter iterC iterS g = .ok (containersText keys idsAt ++ "ids = ".toList ++ idsText ids ++
          "\nnitem = ".toList ++ showNat ids.length ++ "\nncontainer = ".toList ++ showNat keys.length ++
          "\nndiv = ".toList ++ idsText g.ndiv ++ "\n".toList) := by
  have hinv := h.inv.1
  obtain ⟨hheld, hne⟩ := reached_held h
  have hcur : ∀ id x, (id, x) ∈ hist → x.length = g.ndim ∧ Inside g x := by
    clear hheld hne hinv
    induction h with
    | new _ => intro id x hm; simp at hm
    | @insert g g' hist id x hr hi ih =>
      have hinv := hr.inv.1
      have hv : x.length = g.ndim ∧ Inside g x := by
        by_contra hc
        obtain ⟨e, he⟩ := (insert_spec hinv.cwf id x).2 hc
        rw [he] at hi; cases hi
      obtain ⟨_, cs, rfl⟩ := inv_insert hinv hi
      intro id' y hy
      rw [List.mem_append] at hy
      rcases hy with hy | hy
      · exact ih id' y hy
      · simp only [List.mem_singleton, Prod.mk.injEq] at hy
        obtain ⟨rfl, rfl⟩ := hy
        exact hv
  have hheld' : ∀ k id, get2 g.containers k id ≠ none ↔ ∃ x, (id, x) ∈ hist ∧ Touches g x k := by
    intro k id
    rw [hheld]
    constructor
    · rintro ⟨x, hx, hk⟩
      exact ⟨x, hx, (isKey_iff hinv.wf.ndim x (hcur id x hx).1 (hcur id x hx).2 k).1 hk⟩
    · rintro ⟨x, hx, hk⟩
      exact ⟨x, hx, (isKey_iff hinv.wf.ndim x (hcur id x hx).1 (hcur id x hx).2 k).2 hk⟩
  have hin : ∀ (k : Nat) c, g.containers.get k = some c → ∀ id, id ∈ c.map (·.1) ↔ ∃ x, (id, x) ∈ hist ∧ Touches g x k := by
    intro k c hc id
    rw [← hheld']
    unfold get2
    rw [hc]
    simp only [Option.bind_some, ne_eq, HMap.get_eq_none_iff, not_not]
  have hkeys : ∀ k, k ∈ g.containers.map (·.1) ↔ ∃ id x, (id, x) ∈ hist ∧ Touches g x k := by
    intro k
    constructor
    · intro hk
      obtain ⟨⟨k', c⟩, hm, rfl⟩ := List.mem_map.1 hk
      have hg := HMap.get_of_mem hinv.cwf.1 hm
      obtain ⟨e, c', hc⟩ := List.exists_cons_of_ne_nil (hne _ hm)
      dsimp only at hc
      have := (hin k' c hg e.1).1 (by rw [hc]; simp)
      exact ⟨e.1, this⟩
    · rintro ⟨id, hx⟩
      have := (hheld' k id).2 hx
      unfold get2 at this
      by_contra hc
      rw [(HMap.get_eq_none_iff).2 hc] at this
      exact this rfl
  have hself : ∀ id x, (id, x) ∈ hist → Touches g x (keyOf g x) := by
    intro id x hx
    exact ⟨x, (hcur id x hx).1, Or.inl rfl, by rw [calcContainerKey_eq, if_pos (hcur id x hx).2]⟩
  set keys := sortIds (g.containers.map (·.1)) with hkeysd
  set idsAt : Nat → List Nat := fun k => sortIds (((g.containers.get k).getD []).map (·.1)) with hidsAt
  obtain ⟨u0, hu0, hu1, hu2⟩ := showContainers_ok (fun c : HMap Nat (List ℝ) => c.map (·.1)) g.containers idsAt keys (by
    intro k hk
    rw [hkeysd, sortIds_mem] at hk
    obtain ⟨⟨k', c⟩, hm, rfl⟩ := List.mem_map.1 hk
    have hg := HMap.get_of_mem hinv.cwf.1 hm
    exact ⟨c, hg, by simp [hidsAt, hg]⟩) ([], []) List.nodup_nil
  have hmemu : ∀ u : List Nat, (∀ x, x ∈ u ↔ x ∈ ([] : List Nat) ∨ ∃ k ∈ keys, x ∈ idsAt k) → ∀ id, id ∈ u ↔ ∃ x, (id, x) ∈ hist := by
    intro u hu id
    rw [hu]
    simp only [List.not_mem_nil, false_or]
    constructor
    · rintro ⟨k, hk, hid⟩
      rw [hkeysd, sortIds_mem] at hk
      obtain ⟨⟨k', c⟩, hm, rfl⟩ := List.mem_map.1 hk
      have hg := HMap.get_of_mem hinv.cwf.1 hm
      simp only [hidsAt, sortIds_mem, hg, Option.getD_some] at hid
      obtain ⟨x, hx, _⟩ := (hin _ c hg id).1 hid
      exact ⟨x, hx⟩
    · rintro ⟨x, hx⟩
      have hk : keyOf g x ∈ g.containers.map (·.1) := (hkeys _).2 ⟨id, x, hx, hself id x hx⟩
      refine ⟨keyOf g x, by rw [hkeysd, sortIds_mem]; exact hk, ?_⟩
      obtain ⟨⟨k', c⟩, hm, he⟩ := List.mem_map.1 hk
      have hg := HMap.get_of_mem hinv.cwf.1 hm
      dsimp only at he
      rw [he] at hg
      simp only [hidsAt, sortIds_mem, hg, Option.getD_some]
      exact (hin _ c hg id).2 ⟨x, hx, hself id x hx⟩
  refine ⟨keys, sortIds u0, idsAt, sortIds_strict hinv.cwf.1, ?_, ?_, sortIds_strict hu1, ?_, ?_⟩
  · intro k; rw [hkeysd, sortIds_mem]; exact hkeys k
  · intro k hk
    rw [hkeysd, sortIds_mem] at hk
    obtain ⟨⟨k', c⟩, hm, rfl⟩ := List.mem_map.1 hk
    have hg := HMap.get_of_mem hinv.cwf.1 hm
    simp only [hidsAt, hg, Option.getD_some]
    exact ⟨sortIds_strict (hinv.cwf.2 _ hm), fun id => by rw [sortIds_mem]; exact hin _ c hg id⟩
  · intro id; rw [sortIds_mem]; exact hmemu u0 hu2 id
  · intro iter iterC iterS hI hC hS
    have hk' : sortIds ((iter g.containers).map (·.1)) = keys := by
      refine strict_ext (sortIds_strict ?_) (sortIds_strict hinv.cwf.1) ?_
      · exact ((hI g.containers).map _).nodup_iff.2 hinv.cwf.1
      · intro a; rw [sortIds_mem, sortIds_mem]; exact ((hI g.containers).map _).mem_iff
    obtain ⟨u, h1, h2, h3⟩ := showContainers_ok (fun c : HMap Nat (List ℝ) => (iterC c).map (·.1)) g.containers idsAt keys (by
      intro k hk
      rw [hkeysd, sortIds_mem] at hk
      obtain ⟨⟨k', c⟩, hm, rfl⟩ := List.mem_map.1 hk
      have hg := HMap.get_of_mem hinv.cwf.1 hm
      refine ⟨c, hg, ?_⟩
      simp only [hidsAt, hg, Option.getD_some]
      have hcn : (c.map (·.1)).Nodup := hinv.cwf.2 _ hm
      refine strict_ext (sortIds_strict ?_) (sortIds_strict hcn) ?_
      · exact ((hC c).map _).nodup_iff.2 hcn
      · intro a; rw [sortIds_mem, sortIds_mem]; exact ((hC c).map _).mem_iff) ([], []) List.nodup_nil
    have hu : sortIds (iterS u) = sortIds u0 := by
      refine strict_ext (sortIds_strict ((hS u).nodup_iff.2 h2)) (sortIds_strict hu1) ?_
      intro a
      rw [sortIds_mem, sortIds_mem, (hS u).mem_iff, hmemu u h3, hmemu u0 hu2]
    have hul : u.length = (sortIds u0).length := by
      rw [← hu]
      unfold sortIds
      rw [List.length_insertionSort]
      exact (hS u).length_eq.symm
    have hkl : keys.length = g.containers.length := by
      rw [hkeysd]; unfold sortIds; rw [List.length_insertionSort, List.length_map]
    unfold showGrid
    simp only [hk', h1, Res.bind_ok, hu, hul, ← hkl]
    change Res.ok _ = Res.ok _
    congr 1
    simp [showList, idsText]

example : ∃ g, Reached [0, 0] [10, 10] (some 2) none none g [(7, [1, 2]), (8, [5, 5]), (9, [9, 3]), (7, [6, 6])] := exists_reached_grid

end Gemlab.Reports
