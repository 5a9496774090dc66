import Verif.Proofs.CuthillMckee
import Mathlib.Data.List.Perm.Basic
import Mathlib.Tactic.Choose

/-! # Consequences of being an order of Cuthill and McKee -/
namespace Gemlab.GraphUnd
open Gemlab.Spec

theorem isDistance_walkN {E : Nat → Nat → Prop} {a b k : Nat} (h : IsDistance E a b k) :
    WalkN E k a b ∧ ∀ j, WalkN E j a b → k ≤ j := by
  obtain ⟨⟨w, hw, hl⟩, hmin⟩ := h
  refine ⟨?_, ?_⟩
  · exact walkN_iff.2 ⟨w, hw, hl⟩
  · intro j hj
    obtain ⟨w', hw', hl'⟩ := walkN_iff.1 hj
    have := hmin w' hw'
    omega

theorem exists_distance {E : Nat → Nat → Prop} {a b k : Nat} (h : WalkN E k a b) : ∃ d, IsDistance E a b d := by
  classical
  have hex : ∃ k, WalkN E k a b := ⟨k, h⟩
  exact ⟨Nat.find hex, isDistance_of (Nat.find_spec hex) (fun j hj => Nat.find_min' hex hj)⟩

theorem distance_step {E : Nat → Nat → Prop} {r x y k j : Nat} (hx : IsDistance E r x k) (hxy : E x y)
    (hy : IsDistance E r y j) : j ≤ k + 1 :=
  (isDistance_walkN hy).2 _ ((isDistance_walkN hx).1.snoc hxy)

theorem distance_pred {E : Nat → Nat → Prop} {r y k : Nat} (hy : IsDistance E r y (k + 1)) :
    ∃ w, E w y ∧ IsDistance E r w k := by
  obtain ⟨h1, h2⟩ := isDistance_walkN hy
  cases h1 with
  | snoc hw he =>
    refine ⟨_, he, isDistance_of hw ?_⟩
    intro j hj
    have := h2 _ (hj.snoc he)
    omega

theorem distance_zero {E : Nat → Nat → Prop} {r y : Nat} (hy : IsDistance E r y 0) : y = r := by
  have h1 := (isDistance_walkN hy).1
  cases h1; rfl

theorem distance_self {E : Nat → Nat → Prop} {r k : Nat} (hy : IsDistance E r r k) : k = 0 := by
  have := (isDistance_walkN hy).2 0 (.refl r); omega

theorem first_unique {E : Nat → Nat → Prop} {seq : List Nat} {x p q : Nat} (hp : FirstNeighbour E seq x p)
    (hq : FirstNeighbour E seq x q) : p = q := by
  obtain ⟨⟨u, hu, hux⟩, h1⟩ := hp
  obtain ⟨⟨v, hv, hvx⟩, h2⟩ := hq
  exact Nat.le_antisymm (h1 q v hv hvx) (h2 p u hu hux)

section
variable {src : Source} {root : Nat} {seq : List Nat}

theorem cm_reach (h : IsCuthillMckee src root seq) : ∀ i x : Nat, seq[i]? = some x → ∃ d, IsDistance src.Adj root x d := by
  intro i
  induction i using Nat.strongRecOn with
  | _ i ih =>
    intro x hx
    rcases Nat.eq_zero_or_pos i with rfl | hi
    · rw [h.head] at hx; injection hx with hx; subst hx
      exact exists_distance (.refl _)
    · obtain ⟨p, hp, ⟨u, hu, hux⟩, _⟩ := h.after i x hi hx
      obtain ⟨d, hd⟩ := ih p hp u hu
      exact exists_distance ((isDistance_walkN hd).1.snoc hux)

theorem cm_dist (h : IsCuthillMckee src root seq) (x : Nat) (hx : x < src.n) : ∃ d, IsDistance src.Adj root x d := by
  have : x ∈ seq := h.perm.mem_iff.2 (List.mem_range.2 hx)
  obtain ⟨i, hi⟩ := List.mem_iff_getElem?.1 this
  exact cm_reach h i x hi

theorem cm_lt (h : IsCuthillMckee src root seq) {i x : Nat} (hx : seq[i]? = some x) : x < src.n :=
  List.mem_range.1 (h.perm.mem_iff.1 (List.mem_of_getElem? hx))

theorem cm_pos (h : IsCuthillMckee src root seq) {x : Nat} (hx : x < src.n) : ∃ i : Nat, seq[i]? = some x :=
  List.mem_iff_getElem?.1 (h.perm.mem_iff.2 (List.mem_range.2 hx))

/-- The distance to the root never decreases along the order. -/
theorem cm_sorted (h : IsCuthillMckee src root seq) (hadj : ∀ x y, src.Adj x y → x < src.n) (m : Nat) :
    ∀ i j x y dx dy : Nat, i ≤ j → seq[i]? = some x → seq[j]? = some y → IsDistance src.Adj root x dx →
      IsDistance src.Adj root y dy → dy ≤ m → dx ≤ dy := by
  have hnd : seq.Nodup := h.perm.nodup_iff.2 List.nodup_range
  induction m with
  | zero =>
    intro i j x y dx dy hij hx hy hdx hdy hm
    have : dy = 0 := by omega
    subst this
    have := distance_zero hdy; subst this
    have hj : j = 0 := by
      have h1 := (List.getElem?_eq_some_iff.1 hy)
      obtain ⟨h1, h1'⟩ := h1
      obtain ⟨h2, h2'⟩ := (List.getElem?_eq_some_iff.1 h.head)
      exact (List.Nodup.getElem_inj_iff hnd).1 (h1'.trans h2'.symm)
    have hi : i = 0 := by omega
    subst hi; subst hj
    rw [hy] at hx; injection hx with hx; subst hx
    exact Nat.le_of_eq (distance_self hdx)
  | succ m ih =>
    intro i j x y dx dy hij hx hy hdx hdy hm
    rcases Nat.eq_zero_or_pos i with rfl | hi
    · rw [h.head] at hx; injection hx with hx; subst hx
      rw [distance_self hdx]; omega
    rcases Nat.eq_zero_or_pos dy with h0 | h0
    · exact ih i j x y dx dy hij hx hy hdx hdy (by omega)
    rcases Nat.eq_or_lt_of_le hij with rfl | hij
    · rw [hy] at hx; injection hx with hx; subst hx
      exact Nat.le_of_eq (isDistance_unique hdx hdy)
    obtain ⟨p, hp, fp⟩ := h.after i x hi hx
    obtain ⟨q, hq, fq⟩ := h.after j y (by omega) hy
    have hpq : p ≤ q := by rcases h.order i j x y p q hi hij hx hy fp fq with h1 | h1 <;> omega
    obtain ⟨k, rfl⟩ : ∃ k, dy = k + 1 := ⟨dy - 1, by omega⟩
    obtain ⟨w, hwy, hw⟩ := distance_pred hdy
    obtain ⟨t, ht⟩ := cm_pos h (hadj w y hwy)
    obtain ⟨⟨u, hu, hux⟩, _⟩ := fp
    have hqt : q ≤ t := fq.2 t w ht hwy
    obtain ⟨du, hdu⟩ := cm_reach h p u hu
    have := ih p t u w du k (by omega) hu ht hdu hw (by omega)
    have := distance_step hdu hux hdx
    omega

theorem countP_or_le {α : Type} (p q : α → Bool) (l : List α) :
    l.countP (fun x => p x || q x) ≤ l.countP p + l.countP q := by
  induction l with
  | nil => simp
  | cons x xs ih =>
    simp only [List.countP_cons]
    cases p x <;> cases q x <;> simp <;> omega

open Classical in
/-- Adjacent nodes are at most two neighbouring levels apart in the order. -/
theorem cm_band (h : IsCuthillMckee src root seq) (hadj : ∀ x y, src.Adj x y → x < src.n) {i j x y : Nat}
    (hij : i < j) (hx : seq[i]? = some x) (hy : seq[j]? = some y) (hxy : src.Adj x y) :
    ∃ k, (j - i) + 1 ≤ src.levelSize root k + src.levelSize root (k + 1) ∧ 0 < src.levelSize root k := by
  obtain ⟨dx, hdx⟩ := cm_reach h i x hx
  obtain ⟨dy, hdy⟩ := cm_reach h j y hy
  have hstep := distance_step hdx hxy hdy
  have hle := cm_sorted h hadj dy i j x y dx dy (by omega) hx hy hdx hdy (Nat.le_refl _)
  have hjl := (List.getElem?_eq_some_iff.1 hy).1
  have hsub : ((seq.drop i).take (j - i + 1)).Sublist seq := (List.take_sublist _ _).trans (List.drop_sublist _ _)
  let P : Nat → Bool := fun z => decide (IsDistance src.Adj root z dx) || decide (IsDistance src.Adj root z (dx + 1))
  have hall : ∀ z ∈ (seq.drop i).take (j - i + 1), P z = true := by
    intro z hz
    obtain ⟨t, ht, hzt⟩ := List.mem_iff_getElem.1 hz
    have ht' : t < j - i + 1 := by simp at ht; omega
    have hz' : seq[i + t]? = some z := by
      rw [List.getElem_take, List.getElem_drop] at hzt
      exact List.getElem?_eq_some_iff.2 ⟨_, hzt⟩
    obtain ⟨dz, hdz⟩ := cm_reach h _ z hz'
    have h1 := cm_sorted h hadj dz i (i + t) x z dx dz (by omega) hx hz' hdx hdz (Nat.le_refl _)
    have h2 := cm_sorted h hadj dy (i + t) j z y dz dy (by omega) hz' hy hdz hdy (Nat.le_refl _)
    have h3 : dz = dx ∨ dz = dx + 1 := by omega
    simp only [P, Bool.or_eq_true, decide_eq_true_eq]
    rcases h3 with rfl | rfl
    · exact Or.inl hdz
    · exact Or.inr hdz
  have hlen : ((seq.drop i).take (j - i + 1)).length = j - i + 1 := by simp; omega
  have h1 : j - i + 1 ≤ seq.countP P := by
    rw [← hlen, ← List.countP_eq_length.2 hall]
    exact hsub.countP_le
  rw [h.perm.countP_eq] at h1
  refine ⟨dx, Nat.le_trans h1 (countP_or_le _ _ _), ?_⟩
  unfold Source.levelSize
  rw [List.countP_pos_iff]
  exact ⟨x, List.mem_range.2 (cm_lt h hx), by simpa using hdx⟩

/-- There is only one such order. -/
theorem cm_unique {seq' : List Nat} (h : IsCuthillMckee src root seq) (h' : IsCuthillMckee src root seq') : seq = seq' := by
  have hl : seq.length = seq'.length := (h.perm.trans h'.perm.symm).length_eq
  have hnd : seq.Nodup := h.perm.nodup_iff.2 List.nodup_range
  have hnd' : seq'.Nodup := h'.perm.nodup_iff.2 List.nodup_range
  have inj : ∀ {s : List Nat}, s.Nodup → ∀ {a b z : Nat}, s[a]? = some z → s[b]? = some z → a = b := by
    intro s hs a b z ha hb
    obtain ⟨h1, h1'⟩ := List.getElem?_eq_some_iff.1 ha
    obtain ⟨h2, h2'⟩ := List.getElem?_eq_some_iff.1 hb
    exact (List.Nodup.getElem_inj_iff hs).1 (h1'.trans h2'.symm)
  apply List.ext_getElem? 
  intro k
  induction k using Nat.strongRecOn with
  | _ k ih =>
    rcases Nat.eq_zero_or_pos k with rfl | hk
    · rw [h.head, h'.head]
    by_cases hkl : k < seq.length
    swap
    · rw [List.getElem?_eq_none (by omega), List.getElem?_eq_none (by omega)]
    have hx : seq[k]? = some seq[k] := List.getElem?_eq_getElem hkl
    have hy : seq'[k]? = some seq'[k] := List.getElem?_eq_getElem (by omega)
    generalize seq[k] = x at hx
    generalize seq'[k] = y at hy
    rw [hx, hy]
    congr 1
    by_contra hne
    -- the place of `y` in the first order, of `x` in the second
    obtain ⟨a, ha⟩ := cm_pos h (cm_lt h' hy)
    obtain ⟨b, hb⟩ := cm_pos h' (cm_lt h hx)
    have hka : k < a := by
      rcases Nat.lt_trichotomy a k with h1 | h1 | h1
      · have := ih a h1; rw [ha] at this
        have := inj hnd' this.symm hy; omega
      · subst h1; rw [hx] at ha; injection ha with ha; exact absurd ha hne
      · exact h1
    have hkb : k < b := by
      rcases Nat.lt_trichotomy b k with h1 | h1 | h1
      · have := ih b h1; rw [hb] at this
        have := inj hnd this hx; omega
      · subst h1; rw [hy] at hb; injection hb with hb; exact absurd hb.symm hne
      · exact h1
    obtain ⟨p, hp, fp⟩ := h.after k x hk hx
    obtain ⟨q, hq, fq⟩ := h.after a y (by omega) ha
    obtain ⟨p', hp', fp'⟩ := h'.after b x (by omega) hb
    obtain ⟨q', hq', fq'⟩ := h'.after k y hk hy
    have o1 := h.order k a x y p q hk hka hx ha fp fq
    have o2 := h'.order k b y x q' p' hk hkb hy hb fq' fp'
    obtain ⟨⟨u, hu, hux⟩, _⟩ := fp
    obtain ⟨⟨v, hv, hvy⟩, _⟩ := fq'
    have h1 : p' ≤ p := fp'.2 p u (by rw [← ih p hp]; exact hu) hux
    have h2 : q ≤ q' := fq.2 q' v (by rw [ih q' hq']; exact hv) hvy
    omega

end

end Gemlab.GraphUnd
