import Verif.Spec.Integ
import Verif.Lib.ResList

/-! # Lemmas on the integration routines -/
namespace Gemlab.Integ
open Gemlab Gemlab.Shapes Gemlab.Scratchpad Gemlab.Spec.Integ
noncomputable section

/-! ## Additions -/

theorem addAll_nil {I : Type} [DecidableEq I] (inside : I → Bool) (v : I → ℝ) : addAll inside v [] = .ok v := rfl

theorem addAll_ok {I : Type} [DecidableEq I] (inside : I → Bool) (l : List (I × ℝ)) : ∀ v : I → ℝ, (∀ e ∈ l, inside e.1 = true) →
    addAll inside v l = .ok (fun i => v i + (l.map fun e => if e.1 = i then e.2 else 0).sum) := by
  induction l with
  | nil => intro v _; simp [addAll_nil]
  | cons e l ih =>
    intro v h
    have h1 : addAll inside v (e :: l) = (addAt inside v e >>= fun v' => addAll inside v' l) := rfl
    rw [h1, addAt, if_pos (h e (by simp))]
    simp only [Res.bind_ok]
    rw [ih _ (fun x hx => h x (by simp [hx]))]
    congr 1
    funext i
    by_cases hi : i = e.1
    · subst hi; simp; ring
    · simp [hi, Ne.symm hi]

/-! ## The loop -/

theorem runPoints_ok {I σ : Type} [DecidableEq I] (inside : I → Bool) (step : Nat → σ → Res (σ × List (I × ℝ))) (Inv : σ → Prop)
    (adds : Nat → List (I × ℝ)) : ∀ (n p : Nat) (s : σ) (v : I → ℝ), Inv s →
    (∀ q, p ≤ q → q < p + n → ∀ s, Inv s → ∃ s', step q s = .ok (s', adds q) ∧ Inv s') →
    (∀ q, p ≤ q → q < p + n → ∀ e ∈ adds q, inside e.1 = true) →
    ∃ s', Inv s' ∧ runPoints inside step n p s v =
      (fun i => v i + ∑ k ∈ Finset.range n, ((adds (p + k)).map fun e => if e.1 = i then e.2 else 0).sum, .ok s') := by
  intro n
  induction n with
  | zero => intro p s v hs _ _; exact ⟨s, hs, by simp [runPoints]⟩
  | succ n ih =>
    intro p s v hs h1 h2
    obtain ⟨s1, hs1, hi1⟩ := h1 p (le_refl _) (by omega) s hs
    obtain ⟨s', hi', he⟩ := ih (p + 1) s1 (fun i => v i + ((adds p).map fun e => if e.1 = i then e.2 else 0).sum) hi1
      (fun q ha hb => h1 q (by omega) (by omega)) (fun q ha hb => h2 q (by omega) (by omega))
    refine ⟨s', hi', ?_⟩
    rw [runPoints, hs1]
    simp only
    rw [addAll_ok inside _ _ (h2 p (le_refl _) (by omega))]
    simp only
    rw [he]
    congr 1
    funext i
    rw [Finset.sum_range_succ']
    simp only [Nat.add_zero]
    rw [add_assoc, add_comm (List.sum _)]
    congr 2
    exact Finset.sum_congr rfl fun k _ => by rw [show p + 1 + k = p + (k + 1) by omega]

/-- Whatever happens, entries outside of the block are untouched, and nothing panics if no step does. -/
theorem runPoints_frame_inv {I σ : Type} [DecidableEq I] (inside : I → Bool) (step : Nat → σ → Res (σ × List (I × ℝ))) (block : I → Prop) (Inv : σ → Prop)
    (hinv : ∀ p s s' l, Inv s → step p s = .ok (s', l) → Inv s')
    (hb : ∀ p s s' l, Inv s → step p s = .ok (s', l) → ∀ e ∈ l, block e.1) (hin : ∀ i, block i → inside i = true)
    (hp : ∀ p s, Inv s → step p s ≠ .panic) : ∀ (n p : Nat) (s : σ) (v : I → ℝ), Inv s →
    (∀ i, ¬ block i → (runPoints inside step n p s v).1 i = v i) ∧ (runPoints inside step n p s v).2 ≠ .panic := by
  intro n
  induction n with
  | zero => intro p s v _; exact ⟨fun _ _ => rfl, by simp [runPoints]⟩
  | succ n ih =>
    intro p s v hs
    rw [runPoints]
    cases hst : step p s with
    | panic => exact absurd hst (hp p s hs)
    | err e => exact ⟨fun _ _ => rfl, by simp⟩
    | ok r =>
      obtain ⟨s', l⟩ := r
      simp only
      have hl := hb p s s' l hs hst
      rw [addAll_ok inside l v (fun e he => hin _ (hl e he))]
      simp only
      obtain ⟨h1, h2⟩ := ih (p + 1) s' (fun i => v i + (l.map fun e => if e.1 = i then e.2 else 0).sum) (hinv p s s' l hs hst)
      refine ⟨fun i hi => ?_, h2⟩
      rw [h1 i hi]
      have : (l.map fun e => if e.1 = i then e.2 else 0).sum = 0 := by
        apply List.sum_eq_zero
        intro x hx
        obtain ⟨e, he, rfl⟩ := List.mem_map.1 hx
        rw [if_neg]
        rintro rfl
        exact hi (hl e he)
      rw [this, add_zero]

theorem runPoints_frame {I σ : Type} [DecidableEq I] (inside : I → Bool) (step : Nat → σ → Res (σ × List (I × ℝ))) (block : I → Prop)
    (hb : ∀ p s s' l, step p s = .ok (s', l) → ∀ e ∈ l, block e.1) (hin : ∀ i, block i → inside i = true)
    (hp : ∀ p s, step p s ≠ .panic) (n p : Nat) (s : σ) (v : I → ℝ) :
    (∀ i, ¬ block i → (runPoints inside step n p s v).1 i = v i) ∧ (runPoints inside step n p s v).2 ≠ .panic :=
  runPoints_frame_inv inside step block (fun _ => True) (fun _ _ _ _ _ _ => trivial) (fun p s s' l _ => hb p s s' l) hin (fun p s _ => hp p s) n p s v trivial

theorem runPoints_first_failure {I σ : Type} [DecidableEq I] (inside : I → Bool) (step : Nat → σ → Res (σ × List (I × ℝ))) (Inv : σ → Prop)
    (adds : Nat → List (I × ℝ)) (msg : String) : ∀ (k n p : Nat) (s : σ) (v : I → ℝ), k < n → Inv s →
    (∀ q, p ≤ q → q < p + k → ∀ s, Inv s → ∃ s', step q s = .ok (s', adds q) ∧ Inv s') →
    (∀ q, p ≤ q → q < p + k → ∀ e ∈ adds q, inside e.1 = true) → (∀ s, Inv s → step (p + k) s = .err msg) →
    runPoints inside step n p s v =
      (fun i => v i + ∑ q ∈ Finset.range k, ((adds (p + q)).map fun e => if e.1 = i then e.2 else 0).sum, .err msg) := by
  intro k
  induction k with
  | zero =>
    intro n p s v hk hs _ _ hf
    obtain ⟨n, rfl⟩ : ∃ n', n = n' + 1 := ⟨n - 1, by omega⟩
    have := hf s hs
    rw [Nat.add_zero] at this
    rw [runPoints, this]
    simp
  | succ k ih =>
    intro n p s v hk hs h1 h2 hf
    obtain ⟨n, rfl⟩ : ∃ n', n = n' + 1 := ⟨n - 1, by omega⟩
    obtain ⟨s1, hs1, hi1⟩ := h1 p (le_refl _) (by omega) s hs
    have he := ih n (p + 1) s1 (fun i => v i + ((adds p).map fun e => if e.1 = i then e.2 else 0).sum) (by omega) hi1
      (fun q ha hb => h1 q (by omega) (by omega)) (fun q ha hb => h2 q (by omega) (by omega))
      (by rw [show p + 1 + k = p + (k + 1) by omega]; exact hf)
    rw [runPoints, hs1]
    simp only
    rw [addAll_ok inside _ _ (h2 p (le_refl _) (by omega))]
    simp only
    rw [he]
    congr 1
    funext i
    rw [Finset.sum_range_succ']
    simp only [Nat.add_zero]
    rw [add_assoc, add_comm (List.sum _)]
    congr 2
    exact Finset.sum_congr rfl fun k _ => by rw [show p + 1 + k = p + (k + 1) by omega]

/-! ## Lists of additions arranged in blocks -/

/-- The additions to a block with `d` entries per node. -/
def blockList1 (ii0 n d : Nat) (x : Nat → Nat → ℝ) : List (Nat × ℝ) :=
  (List.range n).flatMap fun m => (List.range d).map fun a => (ii0 + a + m * d, x m a)

def blockList2 (ii0 jj0 nr dr nc dc : Nat) (x : Nat → Nat → Nat → Nat → ℝ) : List ((Nat × Nat) × ℝ) :=
  (List.range nr).flatMap fun m => (List.range nc).flatMap fun n => (List.range dr).flatMap fun a => (List.range dc).map fun b =>
    ((ii0 + a + m * dr, jj0 + b + n * dc), x m a n b)

theorem sum_map_range (n : Nat) (f : Nat → ℝ) : ((List.range n).map f).sum = ∑ i ∈ Finset.range n, f i := by
  rw [Finset.sum_range]; rw [← List.sum_ofFn]; congr 1
  apply List.ext_getElem <;> simp

theorem sum_flatMap_range {α : Type} (n : Nat) (f : Nat → List α) (g : α → ℝ) :
    (((List.range n).flatMap f).map g).sum = ∑ i ∈ Finset.range n, ((f i).map g).sum := by
  rw [← sum_map_range, List.map_flatMap]
  induction List.range n with
  | nil => simp
  | cons a l ih => simp [ih]

theorem digits {ii0 a m d i : Nat} (ha : a < d) (h : ii0 + a + m * d = i) : (i - ii0) / d = m ∧ (i - ii0) % d = a := by
  have : i - ii0 = a + d * m := by subst h; rw [Nat.mul_comm]; omega
  rw [this, Nat.add_mul_div_left _ _ (by omega), Nat.add_mul_mod_self_left, Nat.div_eq_of_lt ha, Nat.mod_eq_of_lt ha]
  simp

theorem in_block {ii0 i n d : Nat} (hi : ii0 ≤ i ∧ i < ii0 + n * d) : (i - ii0) / d < n ∧ (i - ii0) % d < d ∧
    ii0 + (i - ii0) % d + (i - ii0) / d * d = i := by
  have hd : 0 < d := by rcases Nat.eq_zero_or_pos d with h | h; (· subst h; omega); exact h
  refine ⟨(Nat.div_lt_iff_lt_mul hd).2 (by omega), Nat.mod_lt _ hd, ?_⟩
  have := Nat.mod_add_div (i - ii0) d
  rw [Nat.mul_comm] at this
  omega

theorem of_block {ii0 a m d i n : Nat} (ha : a < d) (hm : m < n) (h : ii0 + a + m * d = i) : ii0 ≤ i ∧ i < ii0 + n * d := by
  have : (m + 1) * d ≤ n * d := Nat.mul_le_mul_right d hm
  rw [Nat.add_mul] at this
  omega

theorem sum_digit1 (ii0 n d i : Nat) (x : Nat → Nat → ℝ) :
    (∑ m ∈ Finset.range n, ∑ a ∈ Finset.range d, if ii0 + a + m * d = i then x m a else 0) =
      if ii0 ≤ i ∧ i < ii0 + n * d then x ((i - ii0) / d) ((i - ii0) % d) else 0 := by
  split
  · rename_i hi
    obtain ⟨h1, h2, h3⟩ := in_block hi
    rw [Finset.sum_eq_single ((i - ii0) / d), Finset.sum_eq_single ((i - ii0) % d), if_pos h3]
    · intro a ha hne
      rw [if_neg]
      intro h
      exact hne (digits (Finset.mem_range.1 ha) h).2.symm
    · intro h; exact absurd (Finset.mem_range.2 h2) h
    · intro m hm hne
      apply Finset.sum_eq_zero
      intro a ha
      rw [if_neg]
      intro h
      exact hne (digits (Finset.mem_range.1 ha) h).1.symm
    · intro h; exact absurd (Finset.mem_range.2 h1) h
  · rename_i hi
    apply Finset.sum_eq_zero
    intro m hm
    apply Finset.sum_eq_zero
    intro a ha
    rw [if_neg]
    intro h
    exact hi (of_block (Finset.mem_range.1 ha) (Finset.mem_range.1 hm) h)

theorem blockList1_sum (ii0 n d i : Nat) (x : Nat → Nat → ℝ) :
    ((blockList1 ii0 n d x).map fun e => if e.1 = i then e.2 else 0).sum =
      if ii0 ≤ i ∧ i < ii0 + n * d then x ((i - ii0) / d) ((i - ii0) % d) else 0 := by
  unfold blockList1
  rw [sum_flatMap_range, ← sum_digit1]
  apply Finset.sum_congr rfl
  intro m _
  rw [List.map_map, sum_map_range]
  rfl

theorem blockList2_sum (ii0 jj0 nr dr nc dc i j : Nat) (x : Nat → Nat → Nat → Nat → ℝ) :
    ((blockList2 ii0 jj0 nr dr nc dc x).map fun e => if e.1 = (i, j) then e.2 else 0).sum =
      if (ii0 ≤ i ∧ i < ii0 + nr * dr) ∧ (jj0 ≤ j ∧ j < jj0 + nc * dc) then
        x ((i - ii0) / dr) ((i - ii0) % dr) ((j - jj0) / dc) ((j - jj0) % dc) else 0 := by
  unfold blockList2
  rw [sum_flatMap_range]
  have : ∀ m ∈ Finset.range nr, ((((List.range nc).flatMap fun n => (List.range dr).flatMap fun a => (List.range dc).map fun b =>
      ((ii0 + a + m * dr, jj0 + b + n * dc), x m a n b))).map fun e => if e.1 = (i, j) then e.2 else 0).sum =
      ∑ a ∈ Finset.range dr, if ii0 + a + m * dr = i then
        (if jj0 ≤ j ∧ j < jj0 + nc * dc then x m a ((j - jj0) / dc) ((j - jj0) % dc) else 0) else 0 := by
    intro m _
    rw [sum_flatMap_range]
    simp only [sum_flatMap_range]
    rw [Finset.sum_comm]
    apply Finset.sum_congr rfl
    intro a _
    by_cases h : ii0 + a + m * dr = i
    · rw [if_pos h, ← sum_digit1]
      apply Finset.sum_congr rfl
      intro n _
      rw [List.map_map, sum_map_range]
      apply Finset.sum_congr rfl
      intro b _
      simp [h]
    · rw [if_neg h]
      apply Finset.sum_eq_zero
      intro n _
      rw [List.map_map, sum_map_range]
      apply Finset.sum_eq_zero
      intro b _
      simp [h]
  rw [Finset.sum_congr rfl this, sum_digit1 ii0 nr dr i (fun m a => if jj0 ≤ j ∧ j < jj0 + nc * dc then x m a ((j - jj0) / dc) ((j - jj0) % dc) else 0)]
  by_cases h1 : ii0 ≤ i ∧ i < ii0 + nr * dr <;> by_cases h2 : jj0 ≤ j ∧ j < jj0 + nc * dc <;> simp [h1, h2]

theorem mem_blockList1 {ii0 n d : Nat} {x : Nat → Nat → ℝ} {e : Nat × ℝ} (h : e ∈ blockList1 ii0 n d x) : ii0 ≤ e.1 ∧ e.1 < ii0 + n * d := by
  unfold blockList1 at h
  simp only [List.mem_flatMap, List.mem_map, List.mem_range] at h
  obtain ⟨m, hm, a, ha, rfl⟩ := h
  exact of_block ha hm rfl

theorem mem_blockList2 {ii0 jj0 nr dr nc dc : Nat} {x : Nat → Nat → Nat → Nat → ℝ} {e : (Nat × Nat) × ℝ}
    (h : e ∈ blockList2 ii0 jj0 nr dr nc dc x) : (ii0 ≤ e.1.1 ∧ e.1.1 < ii0 + nr * dr) ∧ (jj0 ≤ e.1.2 ∧ e.1.2 < jj0 + nc * dc) := by
  unfold blockList2 at h
  simp only [List.mem_flatMap, List.mem_map, List.mem_range] at h
  obtain ⟨m, hm, n, hn, a, ha, b, hb, rfl⟩ := h
  exact ⟨of_block ha hm rfl, of_block hb hn rfl⟩

end
end Gemlab.Integ
