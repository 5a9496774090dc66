import Verif.Spec.Closed
import Mathlib.Algebra.BigOperators.Group.Finset.Basic
import Mathlib.Algebra.BigOperators.Group.Finset.Sigma
import Mathlib.Data.ZMod.Basic

/-! # Sums over the boundary -/
namespace Gemlab.Mesh
open Gemlab.Shapes

section Abstract
variable {ι κ A V : Type} [DecidableEq ι] [AddCommGroup A]
open Classical in
/-- If the weights of two items with the same key cancel, then the weights of the items with a key of their own sum up to the sum of all. -/
theorem boundary_sum (s : Finset ι) (key : ι → κ) (w : ι → A)
    (hp : ∀ x ∈ s, ∀ y ∈ s, key x = key y → x ≠ y → w x + w y = 0)
    (h3 : ∀ x ∈ s, ∀ y ∈ s, ∀ z ∈ s, key x = key y → key x = key z → x = y ∨ x = z ∨ y = z) :
    ∑ x ∈ s.filter (fun x => ∀ y ∈ s, key y = key x → y = x), w x = ∑ x ∈ s, w x := by
  rw [← Finset.sum_filter_add_sum_filter_not s (fun x => ∀ y ∈ s, key y = key x → y = x)]
  have hz : ∑ x ∈ s.filter (fun x => ¬ ∀ y ∈ s, key y = key x → y = x), w x = 0 := by
    have hex : ∀ x ∈ s.filter (fun x => ¬ ∀ y ∈ s, key y = key x → y = x), ∃ y ∈ s, key y = key x ∧ y ≠ x := by
      intro x hx
      have := (Finset.mem_filter.1 hx).2
      push Not at this
      exact this
    choose! g hg1 hg2 hg3 using hex
    refine Finset.sum_involution (fun x _ => g x) ?_ ?_ ?_ ?_
    · intro x hx
      exact hp x (Finset.mem_filter.1 hx).1 (g x) (hg1 x hx) (hg2 x hx).symm (hg3 x hx).symm
    · intro x hx _
      exact hg3 x hx
    · intro x hx
      refine Finset.mem_filter.2 ⟨hg1 x hx, fun hc => ?_⟩
      exact hg3 x hx (hc x (Finset.mem_filter.1 hx).1 (hg2 x hx).symm).symm
    · intro x hx
      have hgx : g x ∈ s.filter (fun x => ¬ ∀ y ∈ s, key y = key x → y = x) := by
        refine Finset.mem_filter.2 ⟨hg1 x hx, fun hc => ?_⟩
        exact hg3 x hx (hc x (Finset.mem_filter.1 hx).1 (hg2 x hx).symm).symm
      rcases h3 x (Finset.mem_filter.1 hx).1 (g x) (hg1 x hx) (g (g x)) (hg1 _ hgx) (hg2 x hx).symm ((hg2 x hx).symm.trans (hg2 _ hgx).symm) with h | h | h
      · exact absurd h.symm (hg3 x hx)
      · exact h.symm
      · exact absurd h.symm (hg3 _ hgx)
  rw [hz, add_zero]

/-- The same for a list of entries, one for every key with one item. -/
theorem boundary_list_total (s : Finset ι) (key : ι → κ) (w : ι → A)
    (hp : ∀ x ∈ s, ∀ y ∈ s, key x = key y → x ≠ y → w x + w y = 0)
    (h3 : ∀ x ∈ s, ∀ y ∈ s, ∀ z ∈ s, key x = key y → key x = key z → x = y ∨ x = z ∨ y = z)
    (l : List (κ × V)) (hn : (l.map (·.1)).Nodup) (hl : ∀ k, k ∈ l.map (·.1) ↔ ∃ x ∈ s, key x = k ∧ ∀ y ∈ s, key y = k → y = x)
    (W : κ × V → A) (hW : ∀ e ∈ l, ∀ x ∈ s, key x = e.1 → W e = w x) : (l.map W).sum = ∑ x ∈ s, w x := by
  classical
  rw [← boundary_sum s key w hp h3, ← List.sum_toFinset _ hn.of_map]
  have hex : ∀ e ∈ l, ∃ x ∈ s, key x = e.1 ∧ ∀ y ∈ s, key y = e.1 → y = x := fun e he => (hl e.1).1 (List.mem_map_of_mem he)
  choose g hg1 hg2 hg3 using hex
  refine Finset.sum_bij (fun e he => g e (List.mem_toFinset.1 he)) ?_ ?_ ?_ ?_
  · intro e he
    have he := List.mem_toFinset.1 he
    exact Finset.mem_filter.2 ⟨hg1 e he, fun y hy hk => hg3 e he y hy (hk.trans (hg2 e he))⟩
  · intro e he e' he' hge
    have he := List.mem_toFinset.1 he
    have he' := List.mem_toFinset.1 he'
    exact List.inj_on_of_nodup_map hn he he' (by rw [← hg2 e he, ← hg2 e' he', hge])
  · intro x hx
    obtain ⟨hxs, hx1⟩ := Finset.mem_filter.1 hx
    obtain ⟨e, he, hek⟩ := List.mem_map.1 ((hl (key x)).2 ⟨x, hxs, rfl, hx1⟩)
    exact ⟨e, List.mem_toFinset.2 he, hx1 _ (hg1 e he) ((hg2 e he).trans hek)⟩
  · intro e he
    have he := List.mem_toFinset.1 he
    exact hW e he _ (hg1 e he) (hg2 e he)

/-- If the weights sum up to zero, so do those of the boundary. -/
theorem boundary_list_sum (s : Finset ι) (key : ι → κ) (w : ι → A) (h0 : ∑ x ∈ s, w x = 0)
    (hp : ∀ x ∈ s, ∀ y ∈ s, key x = key y → x ≠ y → w x + w y = 0)
    (h3 : ∀ x ∈ s, ∀ y ∈ s, ∀ z ∈ s, key x = key y → key x = key z → x = y ∨ x = z ∨ y = z)
    (l : List (κ × V)) (hn : (l.map (·.1)).Nodup) (hl : ∀ k, k ∈ l.map (·.1) ↔ ∃ x ∈ s, key x = k ∧ ∀ y ∈ s, key y = k → y = x)
    (W : κ × V → A) (hW : ∀ e ∈ l, ∀ x ∈ s, key x = e.1 → W e = w x) : (l.map W).sum = 0 :=
  (boundary_list_total s key w hp h3 l hn hl W hW).trans h0

end Abstract

/-! ## The balance of directed pairs -/

section Net
variable {α β R : Type} [DecidableEq α] [DecidableEq β] [CommRing R]

/-- How often the pair `(a, b)` is listed, minus how often `(b, a)` is. -/
def net (R : Type) [CommRing R] (l : List (α × α)) (a b : α) : R := (l.count (a, b) : R) - (l.count (b, a) : R)

theorem net_nil (a b : α) : net R ([] : List (α × α)) a b = 0 := by simp [net]

theorem net_append (l l' : List (α × α)) (a b : α) : net R (l ++ l') a b = net R l a b + net R l' a b := by
  simp only [net, List.count_append, Nat.cast_add]; ring

theorem net_perm {l l' : List (α × α)} (h : l.Perm l') (a b : α) : net R l a b = net R l' a b := by
  unfold net; rw [h.count_eq, h.count_eq]

theorem net_swap (l : List (α × α)) (a b : α) : net R (l.map Prod.swap) a b = - net R l a b := by
  have h : ∀ x y : α, (l.map Prod.swap).count (x, y) = l.count (y, x) := by
    intro x y
    have := List.count_map_of_injective l (Prod.swap) Prod.swap_injective (y, x)
    exact this
  unfold net; rw [h, h]; ring

theorem net_flatMap {γ : Type} (l : List γ) (f : γ → List (α × α)) (a b : α) : net R (l.flatMap f) a b = (l.map fun x => net R (f x) a b).sum := by
  induction l with
  | nil => simp [net_nil]
  | cons x l ih => rw [List.flatMap_cons, net_append, ih]; simp

/-- A list of pairs that falls into a part and its mirror image has balance zero, also after renaming. -/
theorem net_balanced {l i : List (α × α)} (h : l.Perm (i ++ i.map Prod.swap)) (φ : α → β) (a b : β) : net R (l.map (Prod.map φ φ)) a b = 0 := by
  rw [net_perm (h.map _), List.map_append, net_append]
  have : (i.map Prod.swap).map (Prod.map φ φ) = (i.map (Prod.map φ φ)).map Prod.swap := by simp [List.map_map]
  rw [this, net_swap]; ring

theorem net_sym2 {l l' : List (α × α)} (h : (l.map fun s => s(s.1, s.2)).Perm (l'.map fun s => s(s.1, s.2))) (a b : α) : net (ZMod 2) l a b = net (ZMod 2) l' a b := by
  by_cases hab : a = b
  · subst hab; simp [net]
  have key : ∀ l : List (α × α), net (ZMod 2) l a b = ((l.map fun s => s(s.1, s.2)).count s(a, b) : ℕ) := by
    intro l
    have : (l.map fun s => s(s.1, s.2)).count s(a, b) = l.count (a, b) + l.count (b, a) := by
      induction l with
      | nil => rfl
      | cons x l ih =>
        obtain ⟨u, v⟩ := x
        simp only [List.map_cons, List.count_cons, ih, beq_iff_eq, Sym2.eq_iff, Prod.mk.injEq]
        have : ¬ ((u = a ∧ v = b) ∧ (u = b ∧ v = a)) := by rintro ⟨⟨rfl, rfl⟩, h, -⟩; exact hab h
        split_ifs <;> first | omega | tauto
    rw [this, net, Nat.cast_add, sub_eq_add_neg, ZMod.neg_eq_self_mod_two]
  rw [key, key, h.count_eq]

end Net

end Gemlab.Mesh
