import Verif.Spec.Generators
import Mathlib.Tactic.FieldSimp
import Mathlib.Tactic.Ring
import Mathlib.Tactic.Positivity
import Mathlib.Tactic.Linarith

/-! # Divided intervals -/
namespace Gemlab.Structured
noncomputable section

theorem evenTicks_zero (n : Nat) : evenTicks n 0 = 0 := by simp [evenTicks]
theorem evenTicks_self {n : Nat} (h : 1 ≤ n) : evenTicks n n = 1 := by
  have : (n : ℝ) ≠ 0 := by positivity
  simp [evenTicks, this]
theorem evenTicks_succ (n i : Nat) : evenTicks n (i + 1) - evenTicks n i = 1 / n := by
  unfold evenTicks; push_cast; ring

/-- The divisions of the intervals. -/
structure Segs (y : List ℝ) (ny : List Nat) : Prop where
  len : y.length = ny.length + 1
  pos : ∀ n ∈ ny, 1 ≤ n

theorem Segs.tail {a b : ℝ} {rest : List ℝ} {n : Nat} {ns : List Nat} (h : Segs (a :: b :: rest) (n :: ns)) : Segs (b :: rest) ns :=
  ⟨by have := h.len; simp at this ⊢; omega, fun m hm => h.pos m (by simp [hm])⟩

theorem segTicks_zero {a : ℝ} {rest : List ℝ} {ns : List Nat} : segTicks (a :: rest) ns 0 = a := by
  match rest, ns with
  | [], _ => simp [segTicks]
  | b :: rest, [] => simp [segTicks]
  | b :: rest, n :: ns => simp [segTicks, evenTicks_zero]

theorem segTicks_eq {y : List ℝ} {ny : List Nat} (h : Segs y ny) {l i : Nat} (hl : l < ny.length) (hi : i ≤ ny.getD l 0) :
    segTicks y ny ((ny.take l).sum + i) = y.getD l 0 + (y.getD (l + 1) 0 - y.getD l 0) * evenTicks (ny.getD l 0) i := by
  induction l generalizing y ny with
  | zero =>
    match y, ny, h, hl with
    | a :: b :: rest, n :: ns, h, _ =>
      simp at hi
      simp [segTicks, hi]
    | [a], n :: ns, h, _ => have := h.len; simp at this
    | [], n :: ns, h, _ => have := h.len; simp at this
  | succ l ih =>
    match y, ny, h, hl with
    | a :: b :: rest, n :: ns, h, hl =>
      have hl' : l < ns.length := by simpa using hl
      have hi' : i ≤ ns.getD l 0 := by simpa using hi
      have := ih h.tail hl' hi'
      simp only [List.take_succ_cons, List.sum_cons, List.getD_cons_succ] at this ⊢
      rw [← this]
      show (if n + (ns.take l).sum + i ≤ n then _ else _) = _
      have hn := h.pos n (by simp)
      split
      · have e1 : (ns.take l).sum + i = 0 := by omega
        have e2 : n + (ns.take l).sum + i = n := by omega
        rw [e1, e2, segTicks_zero, evenTicks_self hn]
        ring
      · congr 1
        omega
    | [a], n :: ns, h, _ => have := h.len; simp at this
    | [], n :: ns, h, _ => have := h.len; simp at this

theorem segOf_eq {ny : List Nat} {l i : Nat} (hl : l < ny.length) (hi : i < ny.getD l 0) : segOf ny ((ny.take l).sum + i) = l := by
  induction l generalizing ny with
  | zero =>
    match ny, hl with
    | n :: ns, _ => simp at hi; simp [segOf, hi]
  | succ l ih =>
    match ny, hl with
    | n :: ns, hl =>
      have := ih (ny := ns) (by simpa using hl) (by simpa using hi)
      simp only [List.take_succ_cons, List.sum_cons]
      unfold segOf
      rw [if_neg (by omega), show n + (ns.take l).sum + i - n = (ns.take l).sum + i by omega, this]
      omega

theorem seg_exists {ny : List Nat} {j : Nat} (hj : j < ny.sum) : ∃ l i, l < ny.length ∧ i < ny.getD l 0 ∧ j = (ny.take l).sum + i := by
  induction ny generalizing j with
  | nil => simp at hj
  | cons n ns ih =>
    by_cases h : j < n
    · exact ⟨0, j, by simp, by simpa using h, by simp⟩
    · obtain ⟨l, i, h1, h2, h3⟩ := ih (j := j - n) (by simp at hj; omega)
      exact ⟨l + 1, i, by simpa using h1, by simpa using h2, by simp; omega⟩

theorem take_sum_succ {ny : List Nat} {l : Nat} (hl : l < ny.length) : (ny.take (l + 1)).sum = (ny.take l).sum + ny.getD l 0 := by
  rw [List.take_succ, List.sum_append, List.getElem?_eq_getElem hl, List.getD_eq_getElem?_getD, List.getElem?_eq_getElem hl]
  simp

theorem take_sum_le (ny : List Nat) (l : Nat) : (ny.take l).sum ≤ ny.sum := by
  conv_rhs => rw [← List.take_append_drop l ny]
  rw [List.sum_append]; omega

theorem take_sum_mono (ny : List Nat) {l l' : Nat} (h : l ≤ l') : (ny.take l).sum ≤ (ny.take l').sum := by
  have : ny.take l = (ny.take l').take l := by rw [List.take_take, Nat.min_eq_left h]
  rw [this]
  exact take_sum_le _ _

theorem segTicks_succ {y : List ℝ} {ny : List Nat} (h : Segs y ny) {l i : Nat} (hl : l < ny.length) (hi : i < ny.getD l 0) :
    segTicks y ny ((ny.take l).sum + i + 1) - segTicks y ny ((ny.take l).sum + i) = (y.getD (l + 1) 0 - y.getD l 0) / (ny.getD l 0 : ℝ) := by
  rw [segTicks_eq h hl (by omega), Nat.add_assoc, segTicks_eq h hl (by omega)]
  have := evenTicks_succ (ny.getD l 0) i
  have e : (y.getD (l + 1) 0 - y.getD l 0) / (ny.getD l 0 : ℝ) = (y.getD (l + 1) 0 - y.getD l 0) * (1 / (ny.getD l 0 : ℝ)) := by ring
  rw [e, ← this]; ring

/-- The lines are increasing. -/
theorem segTicks_incr {y : List ℝ} {ny : List Nat} (h : Segs y ny) (hy : ∀ l < ny.length, y.getD l 0 < y.getD (l + 1) 0) {j : Nat} (hj : j < ny.sum) :
    segTicks y ny j < segTicks y ny (j + 1) := by
  obtain ⟨l, i, h1, h2, rfl⟩ := seg_exists hj
  have := segTicks_succ h h1 h2
  have hp : (0 : ℝ) < ny.getD l 0 := by exact_mod_cast (by omega : 0 < ny.getD l 0)
  have : 0 < (y.getD (l + 1) 0 - y.getD l 0) / (ny.getD l 0 : ℝ) := div_pos (by linarith [hy l h1]) hp
  linarith

end
end Gemlab.Structured
