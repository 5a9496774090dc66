import Mathlib.Data.List.Basic
import Mathlib.Data.List.Nodup
import Mathlib.Data.List.Perm.Basic

/-!
# `std::collections::HashMap` as seen by the code

A hash map is represented by the list of its entries, without repeated keys. The order of the list carries no meaning:
wherever the Rust code iterates over a map, the model iterates over `iter m`, where `iter` is an arbitrary function
returning a permutation of the entries (the iteration order of a Rust `HashMap` is unspecified).
-/
namespace Gemlab

/-- Entries of a hash map. -/
abbrev HMap (K V : Type) := List (K × V)

namespace HMap
variable {K V : Type} [DecidableEq K]

/-- `HashMap::get`. -/
def get (m : HMap K V) (k : K) : Option V := (m.find? (fun e => e.1 = k)).map (·.2)

/-- `HashMap::insert` (replaces the value when the key is present). -/
def insert (m : HMap K V) (k : K) (v : V) : HMap K V :=
  match m with
  | [] => [(k, v)]
  | e :: m => if e.1 = k then (k, v) :: m else e :: insert m k v

/-- No repeated keys. -/
def WF (m : HMap K V) : Prop := (m.map (·.1)).Nodup

@[simp] theorem get_nil (k : K) : get ([] : HMap K V) k = none := rfl

theorem get_cons (e : K × V) (m : HMap K V) (k : K) : get (e :: m) k = if e.1 = k then some e.2 else get m k := by
  unfold get
  rw [List.find?_cons]
  by_cases h : e.1 = k <;> simp [h]

theorem get_insert (m : HMap K V) (k k' : K) (v : V) : get (insert m k v) k' = if k' = k then some v else get m k' := by
  induction m with
  | nil => simp only [insert, get_cons, get_nil, eq_comm]
  | cons e m ih =>
    simp only [insert]
    by_cases h : e.1 = k
    · simp only [h, if_true, get_cons]
      by_cases hk : k = k' <;> simp [hk, eq_comm]
    · simp only [h, if_false, get_cons, ih]
      by_cases hk : e.1 = k'
      · subst hk; simp [h]
      · simp [hk]

theorem keys_insert (m : HMap K V) (k : K) (v : V) :
    (insert m k v).map (·.1) = if k ∈ m.map (·.1) then m.map (·.1) else m.map (·.1) ++ [k] := by
  induction m with
  | nil => simp [insert]
  | cons e m ih =>
    simp only [insert]
    by_cases h : e.1 = k
    · simp [h]
    · rw [if_neg h, List.map_cons, ih]
      by_cases hk : k ∈ m.map (·.1)
      · have : k ∈ (e :: m).map (·.1) := by rw [List.map_cons]; exact List.mem_cons_of_mem _ hk
        rw [if_pos hk, if_pos this, List.map_cons]
      · have : k ∉ (e :: m).map (·.1) := by
          rw [List.map_cons, List.mem_cons, not_or]; exact ⟨fun h' => h h'.symm, hk⟩
        rw [if_neg hk, if_neg this, List.map_cons, List.cons_append]

theorem wf_insert (m : HMap K V) (k : K) (v : V) (h : WF m) : WF (insert m k v) := by
  unfold WF at *
  rw [keys_insert]
  split
  · exact h
  · rename_i hk
    rw [List.nodup_append]
    refine ⟨h, by simp, ?_⟩
    intro a ha b hb
    rw [List.mem_singleton] at hb
    subst hb
    rintro rfl
    exact hk ha

theorem wf_nil : WF ([] : HMap K V) := by simp [WF]

theorem mem_of_get {m : HMap K V} {k : K} {v : V} (h : get m k = some v) : (k, v) ∈ m := by
  unfold get at h
  rw [Option.map_eq_some_iff] at h
  obtain ⟨e, he, rfl⟩ := h
  have h1 := List.mem_of_find?_eq_some he
  have h2 := List.find?_some he
  simp only [decide_eq_true_eq] at h2
  subst h2
  exact h1

theorem get_of_mem {m : HMap K V} (hw : WF m) {k : K} {v : V} (h : (k, v) ∈ m) : get m k = some v := by
  induction m with
  | nil => simp at h
  | cons e m ih =>
    rw [get_cons]
    unfold WF at hw
    rw [List.map_cons, List.nodup_cons] at hw
    rcases List.mem_cons.1 h with rfl | h
    · simp
    · have : e.1 ≠ k := by
        rintro rfl
        exact hw.1 (List.mem_map.2 ⟨_, h, rfl⟩)
      rw [if_neg this]
      exact ih hw.2 h

theorem get_eq_some_iff {m : HMap K V} (hw : WF m) {k : K} {v : V} : get m k = some v ↔ (k, v) ∈ m :=
  ⟨mem_of_get, get_of_mem hw⟩

theorem get_eq_none_iff {m : HMap K V} {k : K} : get m k = none ↔ k ∉ m.map (·.1) := by
  induction m with
  | nil => simp
  | cons e m ih =>
    rw [get_cons, List.map_cons, List.mem_cons, not_or]
    by_cases h : e.1 = k
    · simp [h]
    · rw [if_neg h, ih]
      exact ⟨fun h' => ⟨fun h'' => h h''.symm, h'⟩, fun h' => h'.2⟩

theorem mem_insert {m : HMap K V} {k : K} {v : V} {e : K × V} (h : e ∈ insert m k v) : e = (k, v) ∨ e ∈ m := by
  induction m with
  | nil => simp only [insert, List.mem_singleton] at h; exact Or.inl h
  | cons a m ih =>
    simp only [insert] at h
    split at h
    · rcases List.mem_cons.1 h with h | h
      · exact Or.inl h
      · exact Or.inr (List.mem_cons_of_mem _ h)
    · rcases List.mem_cons.1 h with h | h
      · exact Or.inr (h ▸ List.mem_cons_self ..)
      · rcases ih h with h | h
        · exact Or.inl h
        · exact Or.inr (List.mem_cons_of_mem _ h)

end HMap

/-- An iteration order for hash maps: any function that lists the entries of a map in some order. -/
def IterOrder {E : Type} (iter : List E → List E) : Prop := ∀ m, (iter m).Perm m

theorem IterOrder.mem {E : Type} {iter : List E → List E} (h : IterOrder iter) {m : List E} {e : E} :
    e ∈ iter m ↔ e ∈ m := (h m).mem_iff

end Gemlab
