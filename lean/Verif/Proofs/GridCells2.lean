import Verif.Proofs.GridCells
import Mathlib.Data.List.Induction

/-! Large cells, containers and container indices. -/
namespace Gemlab.GridCells
open Gemlab.Mesh
noncomputable section
open Classical

theorem foldl_max_ge (l : List Nat) (v : Nat → ℝ) (s : ℝ) : s ≤ l.foldl (fun s i => max s (v i)) s ∧
    (∀ i ∈ l, v i ≤ l.foldl (fun s i => max s (v i)) s) ∧
    (l.foldl (fun s i => max s (v i)) s = s ∨ ∃ i ∈ l, l.foldl (fun s i => max s (v i)) s = v i) := by
  induction l generalizing s with
  | nil => simp
  | cons a l ih =>
    rw [List.foldl_cons]
    obtain ⟨h1, h2, h3⟩ := ih (max s (v a))
    refine ⟨(le_max_left _ _).trans h1, ?_, ?_⟩
    · intro i hi
      rcases List.mem_cons.mp hi with rfl | hi
      · exact (le_max_right _ _).trans h1
      · exact h2 i hi
    · rcases h3 with h3 | ⟨i, hi, h3⟩
      · rcases max_choice s (v a) with e | e
        · left; rw [h3, e]
        · right; exact ⟨a, by simp, by rw [h3, e]⟩
      · right; exact ⟨i, by simp [hi], h3⟩

theorem largestOf_ge {ndim : Nat} (v : Nat → ℝ) {i : Nat} (hi : i < ndim) : v i ≤ largestOf ndim v := by
  obtain ⟨h1, h2, _⟩ := foldl_max_ge (List.range' 1 (ndim - 1)) v (v 0)
  unfold largestOf
  by_cases h0 : i = 0
  · subst h0; exact h1
  · exact h2 i (by rw [List.mem_range'_1]; omega)

theorem largestOf_attained {ndim : Nat} (hn : 0 < ndim) (v : Nat → ℝ) : ∃ i < ndim, largestOf ndim v = v i := by
  obtain ⟨_, _, h3⟩ := foldl_max_ge (List.range' 1 (ndim - 1)) v (v 0)
  rcases h3 with h3 | ⟨i, hi, h3⟩
  · exact ⟨0, hn, h3⟩
  · exact ⟨i, by rw [List.mem_range'_1] at hi; omega, h3⟩

abbrev IsLarge (ndim : Nat) (th : ℝ) (b : List ℝ × List ℝ) : Prop := largestOf ndim (extent b) ≥ th

structure SplitSpec (ndim : Nat) (boxes : List (List ℝ × List ℝ)) (th : ℝ) (r : List Nat × ℝ) : Prop where
  mem : ∀ k, k ∈ r.1 ↔ ∃ b, boxes[k]? = some b ∧ IsLarge ndim th b
  nodup : r.1.Nodup
  length : r.1.length ≤ boxes.length
  all : (∀ b ∈ boxes, IsLarge ndim th b) ↔ r.1.length = boxes.length
  low : -f64Max ≤ r.2
  ge : ∀ b ∈ boxes, ¬IsLarge ndim th b → ∀ i < ndim, extent b i ≤ r.2
  attained : r.2 = -f64Max ∨ ∃ b ∈ boxes, ¬IsLarge ndim th b ∧ ∃ i < ndim, r.2 = extent b i

theorem splitLarge_spec (ndim : Nat) (boxes : List (List ℝ × List ℝ)) (th : ℝ) : SplitSpec ndim boxes th (splitLarge ndim boxes th) := by
  induction boxes using List.reverseRecOn with
  | nil =>
    refine ⟨?_, ?_, ?_, ?_, ?_, ?_, ?_⟩ <;> simp [splitLarge]
  | append_singleton boxes b ih =>
    have hz : (boxes ++ [b]).zipIdx = boxes.zipIdx ++ [(b, boxes.length)] := by
      rw [List.zipIdx_append]; simp
    unfold splitLarge at ih ⊢
    rw [hz, List.foldl_append]
    generalize (boxes.zipIdx.foldl _ _ : List Nat × ℝ) = r at ih ⊢
    have hlt : ∀ k ∈ r.1, k < boxes.length := fun k hk => by
      obtain ⟨b, hb, _⟩ := (ih.mem k).mp hk
      exact (List.getElem?_eq_some_iff.mp hb).1
    have hget : ∀ k c, (boxes ++ [b])[k]? = some c ↔ boxes[k]? = some c ∨ (k = boxes.length ∧ c = b) := by
      intro k c
      rw [List.getElem?_append]
      split
      · rename_i hk; constructor
        · exact Or.inl
        · rintro (h | ⟨h, _⟩)
          · exact h
          · omega
      · rename_i hk
        have hn : boxes[k]? = none := List.getElem?_eq_none (by omega)
        rw [hn]
        constructor
        · intro h
          have h0 : k - boxes.length = 0 := by
            by_contra hc
            rw [List.getElem?_eq_none (by simp; omega)] at h; cases h
          rw [h0] at h
          simp at h
          exact Or.inr ⟨by omega, h.symm⟩
        · rintro (h | ⟨h, rfl⟩)
          · cases h
          · subst h; simp
    simp only [List.foldl_cons, List.foldl_nil]
    by_cases hl : largestOf ndim (extent b) ≥ th
    · rw [if_pos hl]
      refine ⟨?_, ?_, ?_, ?_, ih.low, ?_, ?_⟩
      · intro k
        simp only [List.mem_append, List.mem_singleton, ih.mem, hget]
        constructor
        · rintro (⟨c, h1, h2⟩ | rfl)
          · exact ⟨c, Or.inl h1, h2⟩
          · exact ⟨b, Or.inr ⟨rfl, rfl⟩, hl⟩
        · rintro ⟨c, h1 | ⟨h1, rfl⟩, h2⟩
          · exact Or.inl ⟨c, h1, h2⟩
          · exact Or.inr h1
      · rw [List.nodup_append]
        refine ⟨ih.nodup, by simp, ?_⟩
        intro a ha c hc
        simp at hc
        have := hlt a ha
        omega
      · simp; exact ih.length
      · simp only [List.length_append, List.length_singleton, Nat.add_right_cancel_iff, ← ih.all, List.mem_append, List.mem_singleton]
        constructor
        · intro h b hb; exact h b (Or.inl hb)
        · rintro h c (hc | rfl)
          · exact h c hc
          · exact hl
      · intro c hc hn
        rcases List.mem_append.mp hc with hc | hc
        · exact ih.ge c hc hn
        · simp at hc; subst hc; exact absurd hl hn
      · rcases ih.attained with h | ⟨c, hc, h⟩
        · exact Or.inl h
        · exact Or.inr ⟨c, by simp [hc], h⟩
    · rw [if_neg hl]
      obtain ⟨f1, f2, f3⟩ := foldl_max_ge (List.range ndim) (extent b) r.2
      refine ⟨?_, ih.nodup, ?_, ?_, ih.low.trans f1, ?_, ?_⟩
      · intro k
        simp only [ih.mem, hget]
        constructor
        · rintro ⟨c, h1, h2⟩; exact ⟨c, Or.inl h1, h2⟩
        · rintro ⟨c, h1 | ⟨h1, rfl⟩, h2⟩
          · exact ⟨c, h1, h2⟩
          · exact absurd h2 hl
      · simp; have := ih.length; omega
      · constructor
        · intro h; exact absurd (h b (by simp)) hl
        · intro h; have := ih.length; simp at h; omega
      · intro c hc hn i hi
        rcases List.mem_append.mp hc with hc | hc
        · exact (ih.ge c hc hn i hi).trans f1
        · simp at hc; subst hc; exact f2 i (List.mem_range.mpr hi)
      · rcases f3 with h | ⟨i, hi, h⟩
        · rw [h]
          rcases ih.attained with h | ⟨c, hc, h⟩
          · exact Or.inl h
          · exact Or.inr ⟨c, by simp [hc], h⟩
        · exact Or.inr ⟨b, by simp, hl, i, List.mem_range.mp hi, h⟩

/-- The container `key` has the cell. -/
def Has (c : HMap Nat (List Nat)) (key id : Nat) : Prop := ∃ l, c.get key = some l ∧ id ∈ l

theorem has_addTo (c : HMap Nat (List Nat)) (k i key id : Nat) : Has (addTo c k i) key id ↔ Has c key id ∨ (key = k ∧ id = i) := by
  unfold Has addTo
  rw [HMap.get_insert]
  by_cases hk : key = k
  · subst hk
    simp only [if_true, Option.some.injEq, true_and]
    cases hg : c.get key with
    | none => simp
    | some l =>
      simp only [Option.getD_some, Option.some.injEq]
      by_cases hi : i ∈ l
      · simp only [if_pos hi, exists_eq_left']
        constructor
        · exact Or.inl
        · rintro (h | rfl)
          · exact h
          · exact hi
      · simp only [if_neg hi, exists_eq_left', List.mem_append, List.mem_singleton]
  · simp [hk]

theorem has_corners (xs : List (List ℝ)) (f : List ℝ → Nat) (i : Nat) (c : HMap Nat (List Nat)) (key id : Nat) :
    Has (xs.foldl (fun c x => addTo c (f x) i) c) key id ↔ Has c key id ∨ (id = i ∧ ∃ x ∈ xs, key = f x) := by
  induction xs generalizing c with
  | nil => simp
  | cons x xs ih =>
    rw [List.foldl_cons, ih, has_addTo]
    simp only [List.mem_cons, exists_eq_or_imp]
    tauto

theorem fill_spec (ndim : Nat) (side : ℝ) (ndiv : List Nat) (xmin : List ℝ) (boxes : List (List ℝ × List ℝ)) (large : List Nat)
    (key id : Nat) : Has (fill ndim side ndiv xmin boxes large) key id ↔
      ∃ b, boxes[id]? = some b ∧ id ∉ large ∧ ∃ x ∈ corners ndim b, key = utilContainerKey ndim side ndiv xmin x := by
  induction boxes using List.reverseRecOn with
  | nil => simp [fill, Has]
  | append_singleton boxes b ih =>
    have hz : (boxes ++ [b]).zipIdx = boxes.zipIdx ++ [(b, boxes.length)] := by
      rw [List.zipIdx_append]; simp
    unfold fill at ih ⊢
    rw [hz, List.foldl_append]
    generalize (boxes.zipIdx.foldl _ _ : HMap Nat (List Nat)) = r at ih ⊢
    simp only [List.foldl_cons, List.foldl_nil]
    have hget : (boxes ++ [b])[id]? = if id = boxes.length then some b else boxes[id]? := by
      rw [List.getElem?_append]
      split
      · rename_i h; rw [if_neg (by omega)]
      · rename_i h
        split
        · rename_i h2; subst h2; simp
        · rw [List.getElem?_eq_none (by simp; omega), List.getElem?_eq_none (by omega)]
    rw [hget]
    by_cases hl : boxes.length ∈ large
    · rw [if_pos hl, ih]
      by_cases hid : id = boxes.length
      · subst hid; simp [hl]
      · simp [hid]
    · rw [if_neg hl, has_corners, ih]
      by_cases hid : id = boxes.length
      · subst hid; simp [hl]
      · simp [hid]

theorem get_addTo_ne_none (c : HMap Nat (List Nat)) (k i key : Nat) (h : c.get key ≠ none) : (addTo c k i).get key ≠ none := by
  unfold addTo; rw [HMap.get_insert]; split <;> simp [h]

/-! ### Container indices -/

/-- Index along one axis. -/
def axIdx (side x0 : ℝ) (n : Nat) (v : ℝ) : Nat :=
  if ⌊(v - x0) / side⌋₊ = n then ⌊(v - x0) / side⌋₊ - 1 else ⌊(v - x0) / side⌋₊

theorem utilKey2 (side : ℝ) (ndiv : List Nat) (xmin x : List ℝ) : utilContainerKey 2 side ndiv xmin x =
    axIdx side (at' xmin 0) (ndiv.getD 0 0) (at' x 0) + axIdx side (at' xmin 1) (ndiv.getD 1 0) (at' x 1) * ndiv.getD 0 0 := rfl

theorem utilKey3 (side : ℝ) (ndiv : List Nat) (xmin x : List ℝ) : utilContainerKey 3 side ndiv xmin x =
    axIdx side (at' xmin 0) (ndiv.getD 0 0) (at' x 0) + axIdx side (at' xmin 1) (ndiv.getD 1 0) (at' x 1) * ndiv.getD 0 0 +
      axIdx side (at' xmin 2) (ndiv.getD 2 0) (at' x 2) * ndiv.getD 0 0 * ndiv.getD 1 0 := rfl

/-- A coordinate in an interval shorter than the side of a container has the index of one of the ends. -/
theorem axIdx_between {side x0 a b v : ℝ} {n : Nat} (hs : 0 < side) (hn : 1 ≤ n) (h0 : x0 ≤ a) (hav : a ≤ v) (hvb : v ≤ b)
    (hb : b ≤ x0 + side * n) (hlen : b - a < side) : axIdx side x0 n v = axIdx side x0 n a ∨ axIdx side x0 n v = axIdx side x0 n b := by
  have mono : ∀ {s t : ℝ}, s ≤ t → ⌊(s - x0) / side⌋₊ ≤ ⌊(t - x0) / side⌋₊ := fun h =>
    Nat.floor_mono (div_le_div_of_nonneg_right (by linarith) hs.le)
  have m1 := mono hav
  have m2 := mono hvb
  have hbn : ⌊(b - x0) / side⌋₊ ≤ n := by
    have : (b - x0) / side ≤ (n : ℝ) := by rw [div_le_iff₀ hs]; linarith
    calc ⌊(b - x0) / side⌋₊ ≤ ⌊(n : ℝ)⌋₊ := Nat.floor_mono this
      _ = n := Nat.floor_natCast n
  have hgap : ⌊(b - x0) / side⌋₊ ≤ ⌊(a - x0) / side⌋₊ + 1 := by
    have ha0 : 0 ≤ (a - x0) / side := div_nonneg (by linarith) hs.le
    have : (b - x0) / side ≤ (a - x0) / side + 1 := by
      rw [div_add_one hs.ne']
      exact div_le_div_of_nonneg_right (by linarith) hs.le
    calc ⌊(b - x0) / side⌋₊ ≤ ⌊(a - x0) / side + 1⌋₊ := Nat.floor_mono this
      _ = _ := Nat.floor_add_one ha0
  unfold axIdx
  split <;> split <;> split <;> omega

/-- The container of a point of the box is that of one of the corners. -/
theorem key_mem {ndim : Nat} (hd : ndim = 2 ∨ ndim = 3) {side : ℝ} (hs : 0 < side) {ndiv : List Nat} {xmin x : List ℝ}
    {b : List ℝ × List ℝ} (hn : ∀ i < ndim, 1 ≤ ndiv.getD i 0) (h0 : ∀ i < ndim, at' xmin i ≤ at' b.1 i)
    (hx : ∀ i < ndim, at' b.1 i ≤ at' x i ∧ at' x i ≤ at' b.2 i) (h1 : ∀ i < ndim, at' b.2 i ≤ at' xmin i + side * ((ndiv.getD i 0 : Nat) : ℝ))
    (he : ∀ i < ndim, extent b i < side) :
    ∃ c ∈ corners ndim b, utilContainerKey ndim side ndiv xmin x = utilContainerKey ndim side ndiv xmin c := by
  have ax : ∀ i < ndim, ∃ e ∈ [b.1, b.2], axIdx side (at' xmin i) (ndiv.getD i 0) (at' x i) = axIdx side (at' xmin i) (ndiv.getD i 0) (at' e i) := by
    intro i hi
    rcases axIdx_between hs (hn i hi) (h0 i hi) (hx i hi).1 (hx i hi).2 (h1 i hi) (he i hi) with h | h
    · exact ⟨b.1, by simp, h⟩
    · exact ⟨b.2, by simp, h⟩
  rcases hd with rfl | rfl
  · obtain ⟨r, hr, e0⟩ := ax 0 (by omega)
    obtain ⟨s, hs', e1⟩ := ax 1 (by omega)
    refine ⟨[at' r 0, at' s 1], ?_, ?_⟩
    · unfold corners
      refine List.mem_flatMap.mpr ⟨r, hr, List.mem_flatMap.mpr ⟨s, hs', ?_⟩⟩
      simp
    · rw [utilKey2, utilKey2, e0, e1]; rfl
  · obtain ⟨r, hr, e0⟩ := ax 0 (by omega)
    obtain ⟨s, hs', e1⟩ := ax 1 (by omega)
    obtain ⟨t, ht, e2⟩ := ax 2 (by omega)
    refine ⟨[at' r 0, at' s 1, at' t 2], ?_, ?_⟩
    · unfold corners
      refine List.mem_flatMap.mpr ⟨r, hr, List.mem_flatMap.mpr ⟨s, hs', ?_⟩⟩
      rw [List.mem_map]
      exact ⟨t, by simpa using ht, by simp⟩
    · rw [utilKey3, utilKey3, e0, e1, e2]; rfl

end
end Gemlab.GridCells
