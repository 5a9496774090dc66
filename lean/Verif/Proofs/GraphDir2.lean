import Verif.Proofs.GraphDir
import Mathlib.Algebra.Order.Monoid.Defs

/-! # Helper lemmas for the directed graph: initial matrices, exact arithmetic -/
set_option linter.unusedSectionVars false
set_option linter.unusedVariables false
namespace Gemlab.GraphDir
open Gemlab.Spec

section Init
variable {W : Type} [LinearOrder W] [Add W] [Zero W]

/-- The matrices after the loop over a list of arcs. -/
theorem putEdges_spec (n : Nat) (arcs : List ((Nat × Nat) × W)) (h : ∀ x ∈ arcs, x.1.1 < n ∧ x.1.2 < n) (m0 : DN W) :
    ∃ m, arcs.foldlM (putEdge n) m0 = .ok m ∧ ∀ i j,
      ((∀ x ∈ arcs, x.1 ≠ (i, j)) ∧ pt m i j = pt m0 i j) ∨
      (∃ l1 w l2, arcs = l1 ++ ((i, j), w) :: l2 ∧ (∀ x ∈ l2, x.1 ≠ (i, j)) ∧ m.dist i j = w ∧ m.next i j = some j) := by
  induction arcs generalizing m0 with
  | nil => exact ⟨m0, rfl, fun i j => Or.inl ⟨by simp, rfl⟩⟩
  | cons x xs ih =>
    have hx := h x (by simp)
    obtain ⟨m, hm, hp⟩ := ih (fun y hy => h y (by simp [hy]))
      ⟨set2 m0.dist x.1.1 x.1.2 x.2, set2 m0.next x.1.1 x.1.2 (some x.1.2)⟩
    refine ⟨m, ?_, ?_⟩
    · rw [List.foldlM_cons]
      unfold putEdge at hm ⊢
      simp only [hx.1, hx.2, and_self, if_true, Res.bind_ok]
      exact hm
    · intro i j
      rcases hp i j with ⟨h1, h2⟩ | ⟨l1, w, l2, h1, h2, h3, h4⟩
      · by_cases hxij : x.1 = (i, j)
        · right
          refine ⟨[], x.2, xs, by simp [← hxij], h1, ?_⟩
          simp only [pt, set2, hxij, and_self, if_true, Prod.mk.injEq] at h2
          exact h2
        · left
          refine ⟨by simp only [List.mem_cons, forall_eq_or_imp]; exact ⟨hxij, h1⟩, ?_⟩
          rw [h2]
          have : ¬ (i = x.1.1 ∧ j = x.1.2) := by
            rintro ⟨rfl, rfl⟩; exact hxij rfl
          simp [pt, set2, this]
      · right
        exact ⟨x :: l1, w, l2, by simp [h1], h2, h3, h4⟩

theorem putEdges_panic (n : Nat) (arcs : List ((Nat × Nat) × W)) (h : ∃ x ∈ arcs, ¬ (x.1.1 < n ∧ x.1.2 < n)) (m0 : DN W) :
    arcs.foldlM (putEdge n) m0 = .panic := by
  induction arcs generalizing m0 with
  | nil => simp at h
  | cons x xs ih =>
    rw [List.foldlM_cons]
    by_cases hx : x.1.1 < n ∧ x.1.2 < n
    · have : ∃ x ∈ xs, ¬ (x.1.1 < n ∧ x.1.2 < n) := by
        obtain ⟨y, hy, hy'⟩ := h
        rcases List.mem_cons.1 hy with rfl | hy
        · exact absurd hx hy'
        · exact ⟨y, hy, hy'⟩
      unfold putEdge
      simp only [hx.1, hx.2, and_self, if_true, Res.bind_ok]
      exact ih this _
    · unfold putEdge
      rw [if_neg hx]; rfl

/-- The matrices before the triple loop. -/
structure IsInit (big : W) (edges : List (Nat × Nat)) (weights : List W) (m : DN W) : Prop where
  arc : ∀ i j, (∃ w, EffArc edges weights i j w ∧ m.dist i j = w ∧ m.next i j = some j) ∨
    ((i, j) ∉ edges ∧ m.dist i j = (if i = j then 0 else big) ∧ m.next i j = none)

theorem init_spec (big : W) (n : Nat) (edges : List (Nat × Nat)) (weights : List W) (hl : weights.length = edges.length)
    (h : ∀ e ∈ edges, e.1 < n ∧ e.2 < n) :
    ∃ m, (edges.zip weights).foldlM (putEdge n) (initDN big) = .ok m ∧ IsInit big edges weights m := by
  obtain ⟨m, hm, hp⟩ := putEdges_spec n (edges.zip weights)
    (fun x hx => h x.1 (List.of_mem_zip (show (x.1, x.2) ∈ _ from hx)).1) (initDN big)
  refine ⟨m, hm, ⟨?_⟩⟩
  intro i j
  rcases hp i j with ⟨h1, h2⟩ | ⟨l1, w, l2, h1, h2, h3, h4⟩
  · right
    refine ⟨?_, ?_⟩
    · intro hmem
      obtain ⟨e, he, heq⟩ := List.mem_iff_getElem.1 hmem
      have hz : e < (edges.zip weights).length := by simp [hl, he]
      exact h1 _ (List.getElem_mem hz) (by simp [heq])
    · simpa [pt, initDN] using h2
  · left
    refine ⟨w, ⟨l1.length, ?_, ?_, ?_⟩, h3, h4⟩
    · have : (edges.zip weights)[l1.length]? = some ((i, j), w) := by rw [h1]; simp
      rw [List.getElem?_zip_eq_some] at this
      exact this.1
    · have : (edges.zip weights)[l1.length]? = some ((i, j), w) := by rw [h1]; simp
      rw [List.getElem?_zip_eq_some] at this
      exact this.2
    · intro e' he' hc
      have hlt : e' < edges.length := by
        rcases List.getElem?_eq_some_iff.1 hc with ⟨h, _⟩; exact h
      have hz : e' < (edges.zip weights).length := by simp [hl, hlt]
      have hz2 : (edges.zip weights)[e']? = some ((i, j), weights[e']) := by
        rw [List.getElem?_zip_eq_some]
        exact ⟨hc, by simp⟩
      rw [h1, List.getElem?_append_right (by omega)] at hz2
      obtain ⟨d, hd⟩ : ∃ d, e' - l1.length = d + 1 := ⟨e' - l1.length - 1, by omega⟩
      rw [hd, List.getElem?_cons_succ] at hz2
      exact h2 _ (List.mem_of_getElem? hz2) rfl

theorem IsInit.inv {big : W} (hb : 0 ≤ big) {edges : List (Nat × Nat)} {weights : List W} {m : DN W}
    (H : IsInit big edges weights m) (hw : ∀ w ∈ weights, 0 ≤ w) (n : Nat) : Inv n m where
  nonneg := by
    intro i j hi hj
    rcases H.arc i j with ⟨w, ⟨e, _, hwe, _⟩, hd, _⟩ | ⟨_, hd, _⟩
    · rw [hd]; exact hw w (List.mem_of_getElem? hwe)
    · rw [hd]; split
      · exact le_refl _
      · exact hb
  bound := by
    intro i j a hi hj hn
    rcases H.arc i j with ⟨w, _, _, hx⟩ | ⟨_, _, hx⟩
    · rw [hx] at hn; cases hn; exact hj
    · rw [hx] at hn; cases hn
  desc := by
    intro i j a hi hj hij hn haj
    rcases H.arc i j with ⟨w, _, _, hx⟩ | ⟨_, _, hx⟩
    · rw [hx] at hn; cases hn; exact absurd rfl haj
    · rw [hx] at hn; cases hn
  ends := by
    intro i j hi hj
    rcases H.arc i j with ⟨w, _, _, hx⟩ | ⟨_, _, hx⟩
    · exact .hop hx .here
    · exact .stop hx

/-- The loop of `path` finishes when the next hops end. -/
theorem pathLoop_of_ends (n : Nat) {next : Nat → Nat → Option Nat} {j : Nat} (hj : j < n)
    (hb : ∀ i a, i < n → next i j = some a → a < n) {i : Nat} (hE : Ends next j i) :
    i < n → ∃ fuel, ∀ acc, ∃ r, r ≠ .panic ∧ ∀ f, fuel ≤ f → pathLoop n next j f (some i) acc = some r := by
  induction hE with
  | here =>
    intro _
    refine ⟨0, fun acc => ⟨.ok acc, by simp, ?_⟩⟩
    intro f _
    cases f <;> simp [pathLoop]
  | @stop i h =>
    intro hi
    by_cases hij : i = j
    · subst hij
      refine ⟨0, fun acc => ⟨.ok acc, by simp, ?_⟩⟩
      intro f _
      cases f <;> simp [pathLoop]
    · refine ⟨1, fun acc => ⟨.err msgNoPath, by simp, ?_⟩⟩
      intro f hf
      obtain ⟨f, rfl⟩ := Nat.exists_eq_add_of_le' hf
      simp [pathLoop, hij, hi, hj, h]
  | @hop i a h hE ih =>
    intro hi
    by_cases hij : i = j
    · subst hij
      refine ⟨0, fun acc => ⟨.ok acc, by simp, ?_⟩⟩
      intro f _
      cases f <;> simp [pathLoop]
    · obtain ⟨fuel, hf⟩ := ih (hb i a hi h)
      refine ⟨fuel + 1, fun acc => ?_⟩
      obtain ⟨r, hr, hr'⟩ := hf (acc ++ [a])
      refine ⟨r, hr, ?_⟩
      intro f hf
      obtain ⟨f, rfl⟩ := Nat.exists_eq_add_of_le' (Nat.le_of_add_left_le hf)
      rw [pathLoop, if_neg hij, if_pos ⟨hi, hj⟩, h]
      exact hr' f (by omega)

end Init

section Exact
variable {K : Type} [AddCommMonoid K] [LinearOrder K] [IsOrderedAddMonoid K]

theorem roundedAdd_exact : RoundedAdd K where
  le_left := fun a _ _ hb => le_add_of_nonneg_right hb
  le_right := fun _ b ha _ => le_add_of_nonneg_left ha
  mono := fun _ _ _ _ _ _ h1 h2 => add_le_add h1 h2

/-- Walks with at least one arc whose intermediate nodes are `< k`. -/
inductive Via (A : Nat → Nat → K → Prop) (k : Nat) : Nat → Nat → K → Prop where
  | arc {i j : Nat} {w : K} : A i j w → Via A k i j w
  | cons {i a j : Nat} {w s : K} : A i a w → a < k → Via A k a j s → Via A k i j (w + s)

theorem Via.nonneg {A : Nat → Nat → K → Prop} (hA : ∀ i j w, A i j w → 0 ≤ w) {k i j : Nat} {s : K} (h : Via A k i j s) :
    0 ≤ s := by
  induction h with
  | arc h => exact hA _ _ _ h
  | cons h _ _ ih => exact add_nonneg (hA _ _ _ h) ih

theorem Via.split {A : Nat → Nat → K → Prop} (hA : ∀ i j w, A i j w → 0 ≤ w) {k i j : Nat} {s : K} (h : Via A (k + 1) i j s) :
    Via A k i j s ∨ ∃ s1 s2, Via A k i k s1 ∧ Via A k k j s2 ∧ s1 + s2 ≤ s := by
  induction h with
  | arc h => exact Or.inl (.arc h)
  | @cons i a j w s h ha _ ih =>
    rcases Nat.lt_succ_iff_lt_or_eq.1 ha with ha | rfl
    · rcases ih with ih | ⟨s1, s2, h1, h2, h3⟩
      · exact Or.inl (.cons h ha ih)
      · exact Or.inr ⟨w + s1, s2, .cons h ha h1, h2, by rw [add_assoc]; exact add_le_add_right h3 w⟩
    · rcases ih with ih | ⟨s1, s2, h1, h2, h3⟩
      · exact Or.inr ⟨w, s, .arc h, ih, le_refl _⟩
      · refine Or.inr ⟨w, s2, .arc h, h2, add_le_add_right (le_trans ?_ h3) w⟩
        exact le_add_of_nonneg_left (h1.nonneg hA)

/-- What holds of the matrices after the phases `0, …, k-1`, in exact arithmetic. -/
structure Ex (A : Nat → Nat → K → Prop) (big : K) (n k : Nat) (m : DN K) : Prop where
  inv : Inv n m
  leBig : ∀ i j, i < n → j < n → m.dist i j ≤ big
  low : ∀ i j s, i < n → j < n → i ≠ j → Via A k i j s → m.dist i j ≤ s
  none_big : ∀ i j, i < n → j < n → i ≠ j → m.next i j = none → m.dist i j = big
  some_lt : ∀ i j a, i < n → j < n → i ≠ j → m.next i j = some a → m.dist i j < big ∧
    ∃ w, A i a w ∧ (a = j → w ≤ m.dist i j) ∧ (a ≠ j → w + m.dist a j ≤ m.dist i j)

theorem Ex.phase {A : Nat → Nat → K → Prop} (hA : ∀ i j w, A i j w → 0 ≤ w) {big : K} {n k : Nat} {m : DN K}
    (H : Ex A big n k m) (hk : k < n) : Ex A big n (k + 1) (phase n m k) where
  inv := phase_inv roundedAdd_exact H.inv hk
  leBig := fun i j hi hj => le_trans (phase_le_old roundedAdd_exact H.inv.nonneg hk hi hj) (H.leBig i j hi hj)
  low := by
    intro i j s hi hj hij hv
    rcases hv.split hA with hv | ⟨s1, s2, h1, h2, h3⟩
    · exact le_trans (phase_le_old roundedAdd_exact H.inv.nonneg hk hi hj) (H.low i j s hi hj hij hv)
    · by_cases hik : i = k
      · subst hik
        refine le_trans (phase_le_old roundedAdd_exact H.inv.nonneg hk hi hj) (le_trans (H.low i j s2 hi hj hij h2) ?_)
        exact le_trans (le_add_of_nonneg_left (h1.nonneg hA)) h3
      by_cases hjk : j = k
      · subst hjk
        refine le_trans (phase_le_old roundedAdd_exact H.inv.nonneg hk hi hj) (le_trans (H.low i j s1 hi hj hij h1) ?_)
        exact le_trans (le_add_of_nonneg_right (h2.nonneg hA)) h3
      · refine le_trans (phase_le_sum roundedAdd_exact H.inv.nonneg hk hi hj) (le_trans ?_ h3)
        exact add_le_add (H.low i k s1 hi hk hik h1) (H.low k j s2 hk hj (Ne.symm hjk) h2)
  none_big := by
    intro i j hi hj hij hn
    rw [phase_next roundedAdd_exact H.inv.nonneg hk hi hj] at hn
    rw [phase_dist roundedAdd_exact H.inv.nonneg hk hi hj]
    by_cases hu : m.dist i j > m.dist i k + m.dist k j
    · rw [if_pos hu] at hn
      have hik : i ≠ k := by
        rintro rfl
        exact absurd hu (not_lt.2 (roundedAdd_exact.le_right _ _ (H.inv.nonneg _ _ hi hi) (H.inv.nonneg _ _ hi hj)))
      have := H.none_big i k hi hk hik hn
      have h2 := H.leBig i j hi hj
      rw [this] at hu
      exact absurd (lt_of_lt_of_le hu h2) (not_lt.2 (le_add_of_nonneg_right (H.inv.nonneg k j hk hj)))
    · rw [if_neg hu] at hn ⊢
      exact H.none_big i j hi hj hij hn
  some_lt := by
    intro i j a hi hj hij hn
    rw [phase_next roundedAdd_exact H.inv.nonneg hk hi hj] at hn
    rw [phase_dist roundedAdd_exact H.inv.nonneg hk hi hj]
    by_cases hu : m.dist i j > m.dist i k + m.dist k j
    · rw [if_pos hu] at hn ⊢
      have hik : i ≠ k := by
        rintro rfl
        exact absurd hu (not_lt.2 (roundedAdd_exact.le_right _ _ (H.inv.nonneg _ _ hi hi) (H.inv.nonneg _ _ hi hj)))
      obtain ⟨_, w, hw, e1, e2⟩ := H.some_lt i k a hi hk hik hn
      have ha := H.inv.bound i k a hi hk hn
      refine ⟨lt_of_lt_of_le hu (H.leBig i j hi hj), w, hw, ?_, ?_⟩
      · rintro rfl
        by_cases hak : a = k
        · exact le_trans (e1 hak) (le_add_of_nonneg_right (H.inv.nonneg k a hk hj))
        · refine le_trans ?_ (le_trans (e2 hak) (le_add_of_nonneg_right (H.inv.nonneg k a hk hj)))
          exact le_add_of_nonneg_right (H.inv.nonneg a k ha hk)
      · intro haj
        by_cases hak : a = k
        · subst hak
          exact add_le_add (e1 rfl) (phase_le_old roundedAdd_exact H.inv.nonneg hk hk hj)
        · refine le_trans (add_le_add_right (phase_le_sum roundedAdd_exact H.inv.nonneg hk ha hj) w) ?_
          rw [← add_assoc]
          exact add_le_add_left (e2 hak) _
    · rw [if_neg hu] at hn ⊢
      obtain ⟨hl, w, hw, e1, e2⟩ := H.some_lt i j a hi hj hij hn
      have ha := H.inv.bound i j a hi hj hn
      refine ⟨hl, w, hw, e1, fun haj => ?_⟩
      exact le_trans (add_le_add_right (phase_le_old roundedAdd_exact H.inv.nonneg hk ha hj) w) (e2 haj)

theorem IsInit.ex {big : K} {edges : List (Nat × Nat)} {weights : List K} {m : DN K}
    (H : IsInit big edges weights m) (hw : ∀ w ∈ weights, 0 ≤ w ∧ w < big) (hb : 0 ≤ big) (n : Nat) :
    Ex (EffArc edges weights) big n 0 m where
  inv := H.inv hb (fun w h => (hw w h).1) n
  leBig := by
    intro i j hi hj
    rcases H.arc i j with ⟨w, ⟨e, _, hwe, _⟩, hd, _⟩ | ⟨_, hd, _⟩
    · rw [hd]; exact le_of_lt (hw w (List.mem_of_getElem? hwe)).2
    · rw [hd]; split
      · exact hb
      · exact le_refl _
  low := by
    intro i j s hi hj hij hv
    cases hv with
    | arc h =>
      obtain ⟨e, h1, h2, h3⟩ := h
      rcases H.arc i j with ⟨w, ⟨e', h1', h2', h3'⟩, hd, _⟩ | ⟨hno, _, _⟩
      · have : e = e' := by
          rcases Nat.lt_trichotomy e e' with h | h | h
          · exact absurd h1' (h3 e' h)
          · exact h
          · exact absurd h1 (h3' e h)
        subst this
        rw [h2] at h2'
        rw [hd, Option.some.inj h2']
      · exact absurd (List.mem_of_getElem? h1) hno
    | cons _ h _ => exact absurd h (Nat.not_lt_zero _)
  none_big := by
    intro i j hi hj hij hn
    rcases H.arc i j with ⟨w, _, _, hx⟩ | ⟨_, hd, _⟩
    · rw [hx] at hn; cases hn
    · rw [hd, if_neg hij]
  some_lt := by
    intro i j a hi hj hij hn
    rcases H.arc i j with ⟨w, hE, hd, hx⟩ | ⟨_, _, hx⟩
    · rw [hx] at hn; cases hn
      refine ⟨?_, w, hE, fun _ => le_of_eq hd.symm, fun h => absurd rfl h⟩
      obtain ⟨e, _, hwe, _⟩ := hE
      rw [hd]; exact (hw w (List.mem_of_getElem? hwe)).2
    · rw [hx] at hn; cases hn

theorem _root_.Gemlab.Spec.Path.via {A : Nat → Nat → K → Prop} {n : Nat} (hA : ∀ i j w, A i j w → j < n) {l : List Nat} {i j : Nat} {s : K}
    (h : Path A l i j s) : (i = j ∧ s = 0) ∨ Via A n i j s := by
  induction h with
  | here a => exact Or.inl ⟨rfl, rfl⟩
  | @cons a b c w s l hw _ ih =>
    right
    rcases ih with ⟨rfl, rfl⟩ | ih
    · rw [add_zero]; exact .arc hw
    · exact .cons hw (hA _ _ _ hw) ih

theorem Via.path {A : Nat → Nat → K → Prop} {n i j : Nat} {s : K} (h : Via A n i j s) : ∃ l, Path A l i j s := by
  induction h with
  | @arc i j w h =>
    refine ⟨[i, j], ?_⟩
    have := Path.cons h (Path.here j); rwa [add_zero] at this
  | cons h _ _ ih =>
    obtain ⟨l, hl⟩ := ih
    exact ⟨_, Path.cons h hl⟩

theorem _root_.Gemlab.Spec.Path.nonneg {A : Nat → Nat → K → Prop} (hA : ∀ i j w, A i j w → 0 ≤ w) {l : List Nat} {i j : Nat} {s : K}
    (h : Path A l i j s) : 0 ≤ s := by
  induction h with
  | here a => exact le_refl _
  | cons h _ ih => exact add_nonneg (hA _ _ _ h) ih

/-- The loop of `path`, in exact arithmetic: it walks along a minimal path. -/
theorem pathLoop_exact {A : Nat → Nat → K → Prop} {big : K} {n : Nat} {m : DN K} (H : Ex A big n n m)
    (hA : ∀ i j w, A i j w → 0 ≤ w) {j : Nat} (hj : j < n) {i : Nat} (hE : Ends m.next j i) :
    i < n → (i ≠ j → m.dist i j < big) → ∃ fuel, ∀ acc, ∃ l s, Path A (i :: l) i j s ∧ (i ≠ j → s ≤ m.dist i j) ∧ (i = j → s = 0) ∧
      ∀ f, fuel ≤ f → pathLoop n m.next j f (some i) acc = some (.ok (acc ++ l)) := by
  have hself : ∃ fuel, ∀ acc, ∃ l s, Path A (j :: l) j j s ∧ (j ≠ j → s ≤ m.dist j j) ∧ (j = j → s = 0) ∧
      ∀ f, fuel ≤ f → pathLoop n m.next j f (some j) acc = some (.ok (acc ++ l)) := by
    refine ⟨0, fun acc => ⟨[], 0, .here j, by simp, by simp, ?_⟩⟩
    intro f _
    cases f <;> simp [pathLoop]
  induction hE with
  | here => intro _ _; exact hself
  | @stop i h =>
    intro hi hd
    by_cases hij : i = j
    · subst hij; exact hself
    · exact absurd (H.none_big i j hi hj hij h) (ne_of_lt (hd hij))
  | @hop i a h hE ih =>
    intro hi hd
    by_cases hij : i = j
    · subst hij; exact hself
    · have ha := H.inv.bound i j a hi hj h
      obtain ⟨_, w, hw, e1, e2⟩ := H.some_lt i j a hi hj hij h
      have hd' : a ≠ j → m.dist a j < big := fun haj =>
        lt_of_le_of_lt (le_trans (le_add_of_nonneg_left (hA _ _ _ hw)) (e2 haj)) (hd hij)
      obtain ⟨fuel, hf⟩ := ih ha hd'
      refine ⟨fuel + 1, fun acc => ?_⟩
      obtain ⟨l, s, hp, hs1, hs2, hrun⟩ := hf (acc ++ [a])
      refine ⟨a :: l, w + s, .cons hw hp, ?_, fun h => absurd h hij, ?_⟩
      · intro _
        by_cases haj : a = j
        · rw [hs2 haj, add_zero]; exact e1 haj
        · exact le_trans (add_le_add_right (hs1 haj) w) (e2 haj)
      · intro f hf
        obtain ⟨f, rfl⟩ := Nat.exists_eq_add_of_le' (Nat.le_of_add_left_le hf)
        rw [pathLoop, if_neg hij, if_pos ⟨hi, hj⟩, h]
        dsimp only
        rw [hrun f (by omega)]
        simp

end Exact
end Gemlab.GraphDir
