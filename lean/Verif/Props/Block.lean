import Verif.Proofs.Block7

/-!
# C41: divisions of a block

Arithmetic is exact (real numbers).
-/
namespace Gemlab.Block
noncomputable section
open Classical
open Gemlab.Mesh Gemlab.Shapes

variable {inv : MatInverse} {nrow ndim : Nat} {at_ : Nat → Nat → ℝ} {b : Block}

/-- **C41 (partition).** For every block obtained through the API, whatever the setters that were called and whether they failed or not:
in every direction there is at least one division, there are as many lengths as divisions, and the divisions cover the reference
interval from `-1` to `1`. -/
theorem C41_partition (h : Reached inv nrow ndim at_ b) : b.ndim = ndim ∧ b.ndiv.length = ndim ∧ b.deltaKsi.length = ndim ∧
    ∀ a < ndim, 1 ≤ ndivAt b a ∧ (b.deltaKsi.getD a []).length = ndivAt b a ∧ left b a 0 = -1 ∧ left b a (ndivAt b a) = 1 := by
  have hw := h.wf
  refine ⟨hw.ndim_eq, hw.ndim_eq ▸ hw.ndivLen, hw.ndim_eq ▸ hw.deltaLen, fun a ha => ?_⟩
  rw [← hw.ndim_eq] at ha
  obtain ⟨h1, h2, h3⟩ := hw.rows a ha
  have hn : ndivAt b a = b.ndiv.getD a 0 := if_pos ha
  refine ⟨by rw [hn]; exact h2, by rw [hn]; exact h1, left_zero b a, ?_⟩
  unfold left
  have : ∑ l ∈ Finset.range (ndivAt b a), del b a l = 2 := by
    rw [hn, ← h1]
    unfold del
    rw [sum_at', h3]
  rw [this]; norm_num

/-- The lengths of `n` equal divisions. -/
def equalDivisions (n : Nat) : List ℝ := List.replicate n (2 / (n : ℝ))

/-- The lengths of divisions proportional to weights. -/
def proportional (w : List ℝ) : List ℝ := w.map fun v => 2 * v / w.sum

theorem list_eq_of_getD {α : Type} {l l' : List α} {d : α} (h : l.length = l'.length) (he : ∀ a < l.length, l.getD a d = l'.getD a d) : l = l' := by
  apply List.ext_getElem h
  intro a h1 h2
  have := he a h1
  rw [List.getD_eq_getElem?_getD, List.getD_eq_getElem?_getD, List.getElem?_eq_getElem h1, List.getElem?_eq_getElem h2] at this
  exact this

/-- **C41 (`set_ndiv`).** It succeeds exactly if there is one positive number per direction; then it changes only the divisions, which are
equal in every direction. -/
theorem C41_set_ndiv (h : Reached inv nrow ndim at_ b) (v : List Nat) :
    ((v.length = ndim ∧ ∀ n ∈ v, 1 ≤ n) → setNdiv b v = ({ b with ndiv := v, deltaKsi := v.map equalDivisions }, .ok ())) ∧
    (¬ (v.length = ndim ∧ ∀ n ∈ v, 1 ≤ n) → ∃ e, (setNdiv b v).2 = .err e) ∧ (v.length ≠ ndim → (setNdiv b v).1 = b) := by
  have hw := h.wf
  have hn := hw.ndim_eq
  have hl := setNdivLoop_spec v (List.range b.ndim) b hw.ndivLen hw.deltaLen (fun i hi => List.mem_range.1 hi)
  refine ⟨?_, ?_, ?_⟩
  · rintro ⟨hv, hp⟩
    have hv' : v.length = b.ndim := hv.trans hn.symm
    unfold setNdiv
    rw [if_neg (by simpa using hv')]
    obtain ⟨⟨a1, a2, a3, a4, a5, a6, a7, a8, a9⟩, l1, l2, -, l5, -⟩ := hl
    obtain ⟨k1, k2⟩ := l5 (by
      intro i hi
      rw [List.mem_range, ← hv'] at hi
      rw [List.getD_eq_getElem?_getD, List.getElem?_eq_getElem hi]
      exact hp _ (List.getElem_mem hi))
    generalize setNdivLoop v (List.range b.ndim) b = q at *
    obtain ⟨q, res⟩ := q
    dsimp only at *
    subst k1
    congr 1
    have e1 : q.ndiv = v := list_eq_of_getD (d := 0) (by omega) (fun a ha => ((k2 a).1 (by rw [List.mem_range]; omega)).1)
    have e2 : q.deltaKsi = v.map equalDivisions := by
      apply list_eq_of_getD (d := []) (by simp; omega)
      intro a ha
      rw [((k2 a).1 (by rw [List.mem_range]; omega)).2]
      have hav : a < v.length := by omega
      rw [List.getD_eq_getElem?_getD, List.getD_eq_getElem?_getD, List.getElem?_map, List.getElem?_eq_getElem hav]
      unfold equalDivisions
      simp
    cases q
    dsimp only at *
    subst e1 e2 a1 a2 a3 a4 a5 a6 a7 a8 a9
    rfl
  · intro hne
    unfold setNdiv
    split
    · exact ⟨_, rfl⟩
    · rename_i hlen
      rw [not_not] at hlen
      apply hl.2.2.2.2.2
      by_contra hc
      push Not at hc
      apply hne
      refine ⟨hlen.trans hn, fun n hmem => ?_⟩
      obtain ⟨i, hi⟩ := List.mem_iff_getElem?.1 hmem
      have hi' := (List.getElem?_eq_some_iff.1 hi).1
      have := hc i (by rw [List.mem_range]; omega)
      rw [List.getD_eq_getElem?_getD, hi] at this
      exact this
  · intro hne
    unfold setNdiv
    rw [if_pos (by rw [hn]; exact hne)]

/-- A failing `set_ndiv` may already have changed the first directions. -/
theorem C41_set_ndiv_failure_is_partial (h : Reached inv nrow 2 at_ b) (n : Nat) (hn : 1 ≤ n) :
    (∃ e, (setNdiv b [n, 0]).2 = .err e) ∧ ndivAt (setNdiv b [n, 0]).1 0 = n ∧ ndivAt (setNdiv b [n, 0]).1 1 = ndivAt b 1 := by
  have hw := h.wf
  have hd := hw.ndim_eq
  have h1 := hw.ndivLen
  unfold setNdiv
  rw [if_neg (by simp [hd])]
  rw [hd] at h1 ⊢
  match hb : b.ndiv, h1 with
  | [x, y], _ =>
    simp [List.range_succ, setNdivLoop, ndivAt, hd, hb, show n ≠ 0 by omega]

/-- **C41 (weights).** `set_div_weights_2d` succeeds exactly for a 2D block and non-empty lists of weights with sums of at least 1;
then it changes only the divisions, which are proportional to the weights. Otherwise nothing is changed. -/
theorem C41_weights_2d (h : Reached inv nrow ndim at_ b) (wx wy : List ℝ) :
    ((ndim = 2 ∧ wx ≠ [] ∧ wy ≠ [] ∧ 1 ≤ wx.sum ∧ 1 ≤ wy.sum) →
      setDivWeights2d b wx wy = ({ b with ndiv := [wx.length, wy.length], deltaKsi := [proportional wx, proportional wy] }, .ok ())) ∧
    (¬ (ndim = 2 ∧ wx ≠ [] ∧ wy ≠ [] ∧ 1 ≤ wx.sum ∧ 1 ≤ wy.sum) → ∃ e, setDivWeights2d b wx wy = (b, .err e)) := by
  have hw := h.wf
  have hn := hw.ndim_eq
  have hp : ∀ w : List ℝ, scaled w = proportional w := fun w => by
    rw [scaled_eq]; unfold proportional
    apply List.map_congr_left
    intro v _; rw [mul_comm]
  have hlen : ∀ w : List ℝ, w.length < 1 ↔ w = [] := fun w => by rw [Nat.lt_one_iff, List.length_eq_zero_iff]
  unfold setDivWeights2d
  simp only [foldl_add_eq, zero_add, hp, hlen, hn]
  constructor
  · rintro ⟨h1, h2, h3, h4, h5⟩
    rw [if_neg (by simpa using h1), if_neg h2, if_neg h3, if_neg (not_lt.2 h4), if_neg (not_lt.2 h5)]
    have l1 := hw.ndivLen
    have l2 := hw.deltaLen
    rw [hn, h1] at l1 l2
    match hb : b.ndiv, hb' : b.deltaKsi, l1, l2 with
    | [_, _], [_, _], _, _ => rfl
  · intro hne
    split
    · exact ⟨_, rfl⟩
    split
    · exact ⟨_, rfl⟩
    split
    · exact ⟨_, rfl⟩
    split
    · exact ⟨_, rfl⟩
    split
    · exact ⟨_, rfl⟩
    · rename_i h1 h2 h3 h4 h5
      exact absurd ⟨not_not.1 h1, h2, h3, not_lt.1 h4, not_lt.1 h5⟩ hne

/-- **C41 (weights, 3D).** -/
theorem C41_weights_3d (h : Reached inv nrow ndim at_ b) (wx wy wz : List ℝ) :
    ((ndim = 3 ∧ wx ≠ [] ∧ wy ≠ [] ∧ wz ≠ [] ∧ 1 ≤ wx.sum ∧ 1 ≤ wy.sum ∧ 1 ≤ wz.sum) →
      setDivWeights3d b wx wy wz =
        ({ b with ndiv := [wx.length, wy.length, wz.length], deltaKsi := [proportional wx, proportional wy, proportional wz] }, .ok ())) ∧
    (¬ (ndim = 3 ∧ wx ≠ [] ∧ wy ≠ [] ∧ wz ≠ [] ∧ 1 ≤ wx.sum ∧ 1 ≤ wy.sum ∧ 1 ≤ wz.sum) → ∃ e, setDivWeights3d b wx wy wz = (b, .err e)) := by
  have hw := h.wf
  have hn := hw.ndim_eq
  have hp : ∀ w : List ℝ, scaled w = proportional w := fun w => by
    rw [scaled_eq]; unfold proportional
    apply List.map_congr_left
    intro v _; rw [mul_comm]
  have hlen : ∀ w : List ℝ, w.length < 1 ↔ w = [] := fun w => by rw [Nat.lt_one_iff, List.length_eq_zero_iff]
  unfold setDivWeights3d
  simp only [foldl_add_eq, zero_add, hp, hlen, hn]
  constructor
  · rintro ⟨h1, h2, h3, h4, h5, h6, h7⟩
    rw [if_neg (by simpa using h1), if_neg h2, if_neg h3, if_neg h4, if_neg (not_lt.2 h5), if_neg (not_lt.2 h6), if_neg (not_lt.2 h7)]
    have l1 := hw.ndivLen
    have l2 := hw.deltaLen
    rw [hn, h1] at l1 l2
    match hb : b.ndiv, hb' : b.deltaKsi, l1, l2 with
    | [_, _, _], [_, _, _], _, _ => rfl
  · intro hne
    split
    · exact ⟨_, rfl⟩
    split
    · exact ⟨_, rfl⟩
    split
    · exact ⟨_, rfl⟩
    split
    · exact ⟨_, rfl⟩
    split
    · exact ⟨_, rfl⟩
    split
    · exact ⟨_, rfl⟩
    split
    · exact ⟨_, rfl⟩
    · rename_i h1 h2 h3 h4 h5 h6 h7
      exact absurd ⟨not_not.1 h1, h2, h3, h4, not_lt.1 h5, not_lt.1 h6, not_lt.1 h7⟩ hne

/-- **C41 (positive lengths).** Equal divisions are positive; divisions proportional to positive weights are positive. -/
theorem C41_positive : (∀ n : Nat, ∀ x ∈ equalDivisions n, 0 < x) ∧ ∀ w : List ℝ, (∀ v ∈ w, 0 < v) → ∀ x ∈ proportional w, 0 < x := by
  constructor
  · intro n x hx
    obtain ⟨hn, rfl⟩ := List.mem_replicate.1 hx
    have : 0 < n := Nat.pos_of_ne_zero hn
    positivity
  · intro w hw x hx
    obtain ⟨v, hv, rfl⟩ := List.mem_map.1 hx
    have h1 := hw v hv
    have h2 : 0 < w.sum := List.sum_pos w hw (List.ne_nil_of_mem hv)
    positivity

/-- Weights that are not positive are accepted if the sum is large enough: here the second division has a negative length. Positive
weights with a sum less than one are rejected. -/
theorem C41_weights_not_checked (h : Reached inv nrow 2 at_ b) :
    ((setDivWeights2d b [3, -1] [1]).2 = .ok () ∧ del (setDivWeights2d b [3, -1] [1]).1 0 1 = -1) ∧
    ∃ e, (setDivWeights2d b [1/4, 1/4] [1]).2 = .err e := by
  refine ⟨?_, ?_⟩
  · rw [(C41_weights_2d h [3, -1] [1]).1 ⟨rfl, by simp, by simp, by norm_num, by norm_num⟩]
    refine ⟨rfl, ?_⟩
    simp [del, proportional, at']
    norm_num
  · obtain ⟨e, he⟩ := (C41_weights_2d h [1/4, 1/4] [1]).2 (by norm_num)
    rw [he]
    exact ⟨e, rfl⟩

end
end Gemlab.Block
