import Verif.Model.GraphDir
import Verif.Spec.DirWalk
import Mathlib.Data.Finset.Card
import Mathlib.Data.Finset.Range
import Mathlib.Data.Finset.Filter
import Mathlib.Data.Finset.Lattice.Basic

/-! # Helper lemmas for the directed graph -/
namespace Gemlab.GraphDir
open Gemlab.Spec
variable {W : Type} [LinearOrder W] [Add W] [Zero W]

/-- Result of one relaxation, computed from the matrices before the phase. -/
def tgt (m : DN W) (k i j : Nat) : W × Option Nat :=
  if m.dist i j > m.dist i k + m.dist k j then (m.dist i k + m.dist k j, m.next i k) else (m.dist i j, m.next i j)

def pt (m : DN W) (i j : Nat) : W × Option Nat := (m.dist i j, m.next i j)

def NonNeg (n : Nat) (m : DN W) : Prop := ∀ i j, i < n → j < n → 0 ≤ m.dist i j

theorem tgt_col (R : RoundedAdd W) {n : Nat} {m : DN W} (hm : NonNeg n m) {k i : Nat} (hk : k < n) (hi : i < n) :
    tgt m k i k = pt m i k := by
  unfold tgt pt
  rw [if_neg (not_lt.2 (R.le_left _ _ (hm _ _ hi hk) (hm _ _ hk hk)))]

theorem tgt_row (R : RoundedAdd W) {n : Nat} {m : DN W} (hm : NonNeg n m) {k j : Nat} (hk : k < n) (hj : j < n) :
    tgt m k k j = pt m k j := by
  unfold tgt pt
  rw [if_neg (not_lt.2 (R.le_right _ _ (hm _ _ hk hk) (hm _ _ hk hj)))]

/-- One relaxation step keeps "each entry is old or final" and makes its own entry final. -/
theorem relax_spec (R : RoundedAdd W) {n : Nat} {m : DN W} (hm : NonNeg n m) {k : Nat} (hk : k < n) (s : DN W)
    (hs : ∀ a b, a < n → b < n → pt s a b = pt m a b ∨ pt s a b = tgt m k a b) {i j : Nat} (hi : i < n) (hj : j < n) :
    pt (relax k i s j) i j = tgt m k i j ∧ ∀ a b, ¬ (a = i ∧ b = j) → pt (relax k i s j) a b = pt s a b := by
  have h1 : pt s i k = pt m i k := by
    rcases hs i k hi hk with h | h
    · exact h
    · rw [h, tgt_col R hm hk hi]
  have h2 : pt s k j = pt m k j := by
    rcases hs k j hk hj with h | h
    · exact h
    · rw [h, tgt_row R hm hk hj]
  simp only [pt, Prod.mk.injEq] at h1 h2
  have h3 := hs i j hi hj
  unfold relax
  simp only [h1.1, h2.1, h1.2]
  constructor
  · rcases h3 with h3 | h3
    · have h3' := h3
      simp only [pt, Prod.mk.injEq] at h3'
      rw [h3'.1]
      split
      · rename_i hlt
        simp [pt, tgt, set2, hlt]
      · rename_i hlt
        simp [pt, tgt, hlt, h3'.1, h3'.2]
    · by_cases hlt : m.dist i j > m.dist i k + m.dist k j
      · have h3' := h3
        simp only [tgt, hlt, if_true, pt, Prod.mk.injEq] at h3'
        rw [h3'.1, if_neg (lt_irrefl _)]
        exact h3
      · have h3' := h3
        simp only [tgt, hlt, if_false, pt, Prod.mk.injEq] at h3'
        rw [h3'.1, if_neg hlt]
        exact h3
  · intro a b hab
    split
    · simp [pt, set2, hab]
    · rfl

theorem inner_spec (R : RoundedAdd W) {n : Nat} {m : DN W} (hm : NonNeg n m) {k : Nat} (hk : k < n)
    {i : Nat} (hi : i < n) (L : List Nat) (hL : ∀ j ∈ L, j < n) (s : DN W)
    (hs : ∀ a b, a < n → b < n → pt s a b = pt m a b ∨ pt s a b = tgt m k a b) :
    (∀ a b, a < n → b < n → pt (L.foldl (relax k i) s) a b = pt m a b ∨ pt (L.foldl (relax k i) s) a b = tgt m k a b) ∧
    (∀ j ∈ L, pt (L.foldl (relax k i) s) i j = tgt m k i j) ∧
    (∀ a b, a < n → b < n → pt s a b = tgt m k a b → pt (L.foldl (relax k i) s) a b = tgt m k a b) := by
  induction L generalizing s with
  | nil => exact ⟨hs, by simp, fun _ _ _ _ h => h⟩
  | cons x xs ih =>
    have hx : x < n := hL x (by simp)
    obtain ⟨r1, r2⟩ := relax_spec R hm hk s hs hi hx
    have key : ∀ a b, a < n → b < n → pt s a b = tgt m k a b → pt (relax k i s x) a b = tgt m k a b := by
      intro a b ha hb h
      by_cases hab : a = i ∧ b = x
      · rw [hab.1, hab.2]; exact r1
      · rw [r2 a b hab, h]
    have hs' : ∀ a b, a < n → b < n → pt (relax k i s x) a b = pt m a b ∨ pt (relax k i s x) a b = tgt m k a b := by
      intro a b ha hb
      by_cases hab : a = i ∧ b = x
      · right; rw [hab.1, hab.2]; exact r1
      · rw [r2 a b hab]; exact hs a b ha hb
    obtain ⟨i1, i2, i3⟩ := ih (fun j hj => hL j (by simp [hj])) _ hs'
    simp only [List.foldl_cons]
    refine ⟨i1, ?_, fun a b ha hb h => i3 a b ha hb (key a b ha hb h)⟩
    intro j hj
    rcases List.mem_cons.1 hj with rfl | hj
    · exact i3 i j hi hx r1
    · exact i2 j hj

theorem phase_spec (R : RoundedAdd W) {n : Nat} {m : DN W} (hm : NonNeg n m) {k : Nat} (hk : k < n) {i j : Nat}
    (hi : i < n) (hj : j < n) : pt (phase n m k) i j = tgt m k i j := by
  have main : ∀ (L : List Nat), (∀ a ∈ L, a < n) → ∀ s : DN W,
      (∀ a b, a < n → b < n → pt s a b = pt m a b ∨ pt s a b = tgt m k a b) →
      (∀ a ∈ L, ∀ b, b < n → pt (L.foldl (fun m i => (List.range n).foldl (relax k i) m) s) a b = tgt m k a b) ∧
      (∀ a b, a < n → b < n → pt s a b = tgt m k a b →
        pt (L.foldl (fun m i => (List.range n).foldl (relax k i) m) s) a b = tgt m k a b) := by
    intro L
    induction L with
    | nil => intro _ s hs; exact ⟨by simp, fun _ _ _ _ h => h⟩
    | cons x xs ih =>
      intro hL s hs
      have hx : x < n := hL x (by simp)
      obtain ⟨i1, i2, i3⟩ := inner_spec R hm hk hx (List.range n) (fun j hj => List.mem_range.1 hj) s hs
      obtain ⟨j1, j2⟩ := ih (fun a ha => hL a (by simp [ha])) _ i1
      simp only [List.foldl_cons]
      refine ⟨?_, fun a b ha hb h => j2 a b ha hb (i3 a b ha hb h)⟩
      intro a ha b hb
      rcases List.mem_cons.1 ha with rfl | ha
      · exact j2 a b hx hb (i2 b (List.mem_range.2 hb))
      · exact j1 a ha b hb
  exact (main (List.range n) (fun a ha => List.mem_range.1 ha) m (fun a b _ _ => Or.inl rfl)).1 i (List.mem_range.2 hi) j hj

theorem phase_dist (R : RoundedAdd W) {n : Nat} {m : DN W} (hm : NonNeg n m) {k : Nat} (hk : k < n) {i j : Nat}
    (hi : i < n) (hj : j < n) : (phase n m k).dist i j =
      if m.dist i j > m.dist i k + m.dist k j then m.dist i k + m.dist k j else m.dist i j := by
  have := congrArg Prod.fst (phase_spec R hm hk hi hj)
  simp only [pt, tgt] at this; rw [this]; split <;> rfl

theorem phase_next (R : RoundedAdd W) {n : Nat} {m : DN W} (hm : NonNeg n m) {k : Nat} (hk : k < n) {i j : Nat}
    (hi : i < n) (hj : j < n) : (phase n m k).next i j =
      if m.dist i j > m.dist i k + m.dist k j then m.next i k else m.next i j := by
  have := congrArg Prod.snd (phase_spec R hm hk hi hj)
  simp only [pt, tgt] at this; rw [this]; split <;> rfl

theorem phase_nonneg (R : RoundedAdd W) {n : Nat} {m : DN W} (hm : NonNeg n m) {k : Nat} (hk : k < n) :
    NonNeg n (phase n m k) := by
  intro i j hi hj
  rw [phase_dist R hm hk hi hj]
  split
  · exact le_trans (hm i k hi hk) (R.le_left _ _ (hm i k hi hk) (hm k j hk hj))
  · exact hm i j hi hj

theorem phase_le_old (R : RoundedAdd W) {n : Nat} {m : DN W} (hm : NonNeg n m) {k : Nat} (hk : k < n) {i j : Nat}
    (hi : i < n) (hj : j < n) : (phase n m k).dist i j ≤ m.dist i j := by
  rw [phase_dist R hm hk hi hj]; split
  · exact le_of_lt ‹_›
  · exact le_refl _

theorem phase_le_sum (R : RoundedAdd W) {n : Nat} {m : DN W} (hm : NonNeg n m) {k : Nat} (hk : k < n) {i j : Nat}
    (hi : i < n) (hj : j < n) : (phase n m k).dist i j ≤ m.dist i k + m.dist k j := by
  rw [phase_dist R hm hk hi hj]; split
  · exact le_refl _
  · exact not_lt.1 ‹_›

/-! ## Following next hops -/

/-- Following the next hops from `i` towards `j` ends (at `j`, or at an entry without next hop). -/
inductive Ends (next : Nat → Nat → Option Nat) (j : Nat) : Nat → Prop where
  | here : Ends next j j
  | stop {i : Nat} : next i j = none → Ends next j i
  | hop {i a : Nat} : next i j = some a → Ends next j a → Ends next j i

/-- What the termination argument needs of the matrices. -/
structure Inv (n : Nat) (m : DN W) : Prop where
  nonneg : NonNeg n m
  bound : ∀ i j a, i < n → j < n → m.next i j = some a → a < n
  desc : ∀ i j a, i < n → j < n → i ≠ j → m.next i j = some a → a ≠ j → m.dist a j ≤ m.dist i j
  ends : ∀ i j, i < n → j < n → Ends m.next j i

/-- Number of nodes with a smaller distance. -/
def below (n : Nat) (d : Nat → W) (i : Nat) : Nat := ((Finset.range n).filter fun a => d a < d i).card

omit [Add W] [Zero W] in
theorem below_lt {n : Nat} {d : Nat → W} {a i : Nat} (ha : a < n) (h : d a < d i) : below n d a < below n d i := by
  unfold below
  apply Finset.card_lt_card
  rw [Finset.ssubset_iff_of_subset]
  · refine ⟨a, ?_, ?_⟩
    · simp [ha, h]
    · simp
  · intro x hx
    simp only [Finset.mem_filter, Finset.mem_range] at hx ⊢
    exact ⟨hx.1, lt_trans hx.2 h⟩

theorem phase_desc (R : RoundedAdd W) {n : Nat} {m : DN W} (H : Inv n m) {k : Nat} (hk : k < n) {i j a : Nat}
    (hi : i < n) (hj : j < n) (hij : i ≠ j) (hn : (phase n m k).next i j = some a) (haj : a ≠ j) :
    (phase n m k).dist a j ≤ (phase n m k).dist i j := by
  rw [phase_next R H.nonneg hk hi hj] at hn
  rw [phase_dist R H.nonneg hk hi hj]
  by_cases hu : m.dist i j > m.dist i k + m.dist k j
  · rw [if_pos hu] at hn ⊢
    have ha := H.bound i k a hi hk hn
    have hik : i ≠ k := by
      rintro rfl
      exact absurd hu (not_lt.2 (R.le_right _ _ (H.nonneg _ _ hi hi) (H.nonneg _ _ hi hj)))
    by_cases hak : a = k
    · subst hak
      exact le_trans (phase_le_old R H.nonneg hk hk hj) (R.le_right _ _ (H.nonneg _ _ hi hk) (H.nonneg _ _ hk hj))
    · exact le_trans (phase_le_sum R H.nonneg hk ha hj)
        (R.mono _ _ _ _ (H.nonneg _ _ ha hk) (H.nonneg _ _ hk hj) (H.desc i k a hi hk hik hn hak) (le_refl _))
  · rw [if_neg hu] at hn ⊢
    have ha := H.bound i j a hi hj hn
    exact le_trans (phase_le_old R H.nonneg hk ha hj) (H.desc i j a hi hj hij hn haj)

theorem phase_ends (R : RoundedAdd W) {n : Nat} {m : DN W} (H : Inv n m) {k : Nat} (hk : k < n) {j : Nat} (hj : j < n) :
    ∀ v i, i < n → below n (fun a => (phase n m k).dist a j) i = v → Ends (phase n m k).next j i := by
  intro v
  induction v using Nat.strongRecOn with
  | _ v IH =>
  set m' := phase n m k with hm'
  have hbound : ∀ i j a, i < n → j < n → m'.next i j = some a → a < n := by
    intro i j a hi hj hn
    rw [hm', phase_next R H.nonneg hk hi hj] at hn
    split at hn
    · exact H.bound i k a hi hk hn
    · exact H.bound i j a hi hj hn
  -- nodes whose entry is not updated
  have hA : ∀ i, Ends m.next j i → i < n → below n (fun a => m'.dist a j) i = v →
      ¬ (m.dist i j > m.dist i k + m.dist k j) → Ends m'.next j i := by
    intro i hE
    induction hE with
    | here => intro _ _ _; exact .here
    | stop h =>
      intro hi _ hu
      exact .stop (by rw [hm', phase_next R H.nonneg hk hi hj, if_neg hu, h])
    | @hop i a h hE ih =>
      intro hi hv hu
      by_cases hij : i = j
      · subst hij; exact .here
      have hn' : m'.next i j = some a := by rw [hm', phase_next R H.nonneg hk hi hj, if_neg hu, h]
      have ha := H.bound i j a hi hj h
      by_cases haj : a = j
      · subst haj; exact .hop hn' .here
      refine .hop hn' ?_
      have hle := phase_desc R H hk hi hj hij hn' haj
      rcases lt_or_eq_of_le hle with hlt | heq
      · exact IH _ (by rw [← hv]; exact below_lt (d := fun a => m'.dist a j) ha hlt) a ha rfl
      · by_cases hua : m.dist a j > m.dist a k + m.dist k j
        · exfalso
          have e1 : m'.dist a j < m.dist a j := by
            rw [hm', phase_dist R H.nonneg hk ha hj, if_pos hua]; exact hua
          have e2 := H.desc i j a hi hj hij h haj
          have e3 : m'.dist i j = m.dist i j := by rw [hm', phase_dist R H.nonneg hk hi hj, if_neg hu]
          have : m'.dist a j < m'.dist i j := by rw [e3]; exact lt_of_lt_of_le e1 e2
          exact absurd heq (ne_of_lt this)
        · exact ih ha (by rw [← hv]; unfold below; simp only [hm', heq]) hua
  have hB : ∀ i, Ends m.next k i → i < n → below n (fun a => m'.dist a j) i = v →
      m.dist i j > m.dist i k + m.dist k j → Ends m'.next j i := by
    intro i hE
    induction hE with
    | here =>
      intro _ _ hu
      exact absurd hu (not_lt.2 (R.le_right _ _ (H.nonneg _ _ hk hk) (H.nonneg _ _ hk hj)))
    | stop h =>
      intro hi _ hu
      exact .stop (by rw [hm', phase_next R H.nonneg hk hi hj, if_pos hu, h])
    | @hop i a h hE ih =>
      intro hi hv hu
      by_cases hij : i = j
      · subst hij; exact .here
      have hn' : m'.next i j = some a := by rw [hm', phase_next R H.nonneg hk hi hj, if_pos hu, h]
      have ha := H.bound i k a hi hk h
      by_cases haj : a = j
      · subst haj; exact .hop hn' .here
      refine .hop hn' ?_
      have hle := phase_desc R H hk hi hj hij hn' haj
      rcases lt_or_eq_of_le hle with hlt | heq
      · exact IH _ (by rw [← hv]; exact below_lt (d := fun a => m'.dist a j) ha hlt) a ha rfl
      · have hv' : below n (fun a => m'.dist a j) a = v := by rw [← hv]; unfold below; simp only [hm', heq]
        by_cases hua : m.dist a j > m.dist a k + m.dist k j
        · exact ih ha hv' hua
        · exact hA a (H.ends a j ha hj) ha hv' hua
  intro i hi hv
  by_cases hu : m.dist i j > m.dist i k + m.dist k j
  · exact hB i (H.ends i k hi hk) hi hv hu
  · exact hA i (H.ends i j hi hj) hi hv hu

theorem phase_inv (R : RoundedAdd W) {n : Nat} {m : DN W} (H : Inv n m) {k : Nat} (hk : k < n) : Inv n (phase n m k) where
  nonneg := phase_nonneg R H.nonneg hk
  bound := by
    intro i j a hi hj hn
    rw [phase_next R H.nonneg hk hi hj] at hn
    split at hn
    · exact H.bound i k a hi hk hn
    · exact H.bound i j a hi hj hn
  desc := fun i j a hi hj hij hn haj => phase_desc R H hk hi hj hij hn haj
  ends := fun i j hi hj => phase_ends R H hk hj _ i hi rfl

theorem fold_range_inv {α : Type} (P : Nat → α → Prop) (f : α → Nat → α) (n : Nat) (a : α) (h0 : P 0 a)
    (hs : ∀ k x, k < n → P k x → P (k + 1) (f x k)) : P n ((List.range n).foldl f a) := by
  have : ∀ m, m ≤ n → P m ((List.range m).foldl f a) := by
    intro m
    induction m with
    | zero => intro _; simpa using h0
    | succ m ih =>
      intro hm
      rw [List.range_succ, List.foldl_append]
      exact hs m _ hm (ih (Nat.le_of_succ_le hm))
  exact this n (le_refl n)

end Gemlab.GraphDir
