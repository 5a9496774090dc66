import Verif.Model.GridSearch
import Verif.Proofs.Geometry
import Verif.Lib.ResList
import Mathlib.Tactic.IntervalCases

/-! # Proofs about the grid: container indices, halo, effect of insertions -/
namespace Gemlab
noncomputable section
open Classical

namespace GridSearch

/-- Facts about the parameters of a grid returned by `new`. -/
structure WF (g : GridSearch) : Prop where
  ndim : g.ndim = 2 ∨ g.ndim = 3
  ndivLen : g.ndiv.length = g.ndim
  ndivPos : ∀ i < g.ndim, 1 ≤ g.ndiv.getD i 0
  xminLen : g.xmin.length = g.ndim
  xmaxLen : g.xmax.length = g.ndim
  coef : g.coefficient = [1, g.ndiv.getD 0 0, g.ndiv.getD 0 0 * g.ndiv.getD 1 0]
  tolPos : 0 < g.tolerance
  side : 2 * g.tolerance < g.sideLength
  xmax : ∀ i < g.ndim, at' g.xmax i = at' g.xmin i + g.sideLength * ((g.ndiv.getD i 0 : Nat) : ℝ)
  tolDist : g.tolDist = Real.sqrt g.ndim * g.tolerance
  radius : g.radius = Real.sqrt g.ndim * g.sideLength / 2

/-- Between `xmin` and `xmax`. -/
def Inside (g : GridSearch) (x : List ℝ) : Prop := ∀ i < g.ndim, at' g.xmin i ≤ at' x i ∧ at' x i ≤ at' g.xmax i

/-- Index along direction `i` of a coordinate. -/
def rIdx (g : GridSearch) (i : Nat) (v : ℝ) : Nat :=
  if ⌊(v - at' g.xmin i) / g.sideLength⌋₊ = g.ndiv.getD i 0 then ⌊(v - at' g.xmin i) / g.sideLength⌋₊ - 1
  else ⌊(v - at' g.xmin i) / g.sideLength⌋₊

theorem ratio_eq (g : GridSearch) (x : List ℝ) (i : Nat) : ratio g x i = rIdx g i (at' x i) := rfl

/-- The key of a point. -/
def keyOf (g : GridSearch) (x : List ℝ) : Nat := ((List.range g.ndim).map fun i => ratio g x i * g.coefficient.getD i 0).sum

theorem foldlM_option_sum (bad : Nat → Prop) [DecidablePred bad] (f : Nat → Nat) (l : List Nat) (k : Nat) :
    l.foldlM (fun key i => if bad i then none else some (key + f i)) k
      = if ∃ i ∈ l, bad i then none else some (k + (l.map f).sum) := by
  induction l generalizing k with
  | nil => simp
  | cons a l ih =>
    rw [List.foldlM_cons]
    by_cases h : bad a
    · have : ∃ i ∈ a :: l, bad i := ⟨a, by simp, h⟩
      rw [if_pos h, if_pos this]; rfl
    · rw [if_neg h]
      change l.foldlM _ (k + f a) = _
      rw [ih]
      have : (∃ i ∈ a :: l, bad i) ↔ ∃ i ∈ l, bad i := by simp [h]
      simp only [this, List.map_cons, List.sum_cons, add_assoc]

theorem calcContainerKey_eq (g : GridSearch) (x : List ℝ) :
    calcContainerKey g x = if Inside g x then some (keyOf g x) else none := by
  unfold calcContainerKey
  rw [foldlM_option_sum (fun i => at' x i < at' g.xmin i ∨ at' x i > at' g.xmax i) (fun i => ratio g x i * g.coefficient.getD i 0)]
  have : (∃ i ∈ List.range g.ndim, at' x i < at' g.xmin i ∨ at' x i > at' g.xmax i) ↔ ¬ Inside g x := by
    unfold Inside
    push_neg
    simp only [List.mem_range]
    constructor
    · rintro ⟨i, hi, h⟩
      refine ⟨i, hi, fun h' => ?_⟩
      rcases h with h | h
      · linarith
      · exact h
    · rintro ⟨i, hi, h⟩
      refine ⟨i, hi, ?_⟩
      by_cases h1 : at' x i < at' g.xmin i
      · exact Or.inl h1
      · exact Or.inr (h (not_lt.1 h1))
  simp only [this]
  by_cases h : Inside g x
  · rw [if_neg (not_not.2 h), if_pos h, Nat.zero_add]; rfl
  · rw [if_pos h, if_neg h]

theorem isOutside_eq {g : GridSearch} {x : List ℝ} (hx : x.length = g.ndim) :
    isOutside g x = .ok (decide (¬ Inside g x)) := by
  unfold isOutside
  rw [if_neg (not_not.2 hx)]
  congr 1
  rw [Bool.eq_iff_iff, List.any_eq_true]
  simp only [List.mem_range, decide_eq_true_eq]
  unfold Inside
  push_neg
  constructor
  · rintro ⟨i, hi, h⟩
    refine ⟨i, hi, fun h' => ?_⟩
    rcases h with h | h
    · linarith
    · exact h
  · rintro ⟨i, hi, h⟩
    refine ⟨i, hi, ?_⟩
    by_cases h1 : at' x i < at' g.xmin i
    · exact Or.inl h1
    · exact Or.inr (h (not_lt.1 h1))

section index
variable {g : GridSearch} (hw : WF g) {i : Nat} (hi : i < g.ndim)
include hw

theorem side_pos : 0 < g.sideLength := by have := hw.tolPos; have := hw.side; linarith

include hi

theorem floor_le_ndiv {v : ℝ} (h2 : v ≤ at' g.xmax i) : ⌊(v - at' g.xmin i) / g.sideLength⌋₊ ≤ g.ndiv.getD i 0 := by
  have hs := side_pos hw
  rw [hw.xmax i hi] at h2
  have : (v - at' g.xmin i) / g.sideLength ≤ ((g.ndiv.getD i 0 : Nat) : ℝ) := by
    rw [div_le_iff₀ hs]; linarith
  calc ⌊(v - at' g.xmin i) / g.sideLength⌋₊ ≤ ⌊((g.ndiv.getD i 0 : Nat) : ℝ)⌋₊ := Nat.floor_mono this
    _ = _ := Nat.floor_natCast _

theorem rIdx_lt {v : ℝ} (h2 : v ≤ at' g.xmax i) : rIdx g i v < g.ndiv.getD i 0 := by
  have h := floor_le_ndiv hw hi h2
  have hp := hw.ndivPos i hi
  unfold rIdx
  split <;> omega

theorem rIdx_mono {v w : ℝ} (hvw : v ≤ w) (h2 : w ≤ at' g.xmax i) : rIdx g i v ≤ rIdx g i w := by
  have hs := side_pos hw
  have h := floor_le_ndiv hw hi h2
  have hm : ⌊(v - at' g.xmin i) / g.sideLength⌋₊ ≤ ⌊(w - at' g.xmin i) / g.sideLength⌋₊ :=
    Nat.floor_mono (div_le_div_of_nonneg_right (by linarith) hs.le)
  unfold rIdx
  split <;> split <;> omega

/-- The coordinate is inside its container. -/
theorem rIdx_box {v : ℝ} (h1 : at' g.xmin i ≤ v) (h2 : v ≤ at' g.xmax i) :
    at' g.xmin i + (rIdx g i v : ℝ) * g.sideLength ≤ v ∧ v ≤ at' g.xmin i + ((rIdx g i v : ℝ) + 1) * g.sideLength := by
  have hs := side_pos hw
  have hnn : 0 ≤ (v - at' g.xmin i) / g.sideLength := div_nonneg (by linarith) hs.le
  have f1 := Nat.floor_le hnn
  have f2 := Nat.lt_floor_add_one ((v - at' g.xmin i) / g.sideLength)
  rw [le_div_iff₀ hs] at f1
  rw [div_lt_iff₀ hs] at f2
  have hp := hw.ndivPos i hi
  unfold rIdx
  split
  · rename_i he
    rw [he] at f1 f2 ⊢
    have : ((g.ndiv.getD i 0 - 1 : Nat) : ℝ) = ((g.ndiv.getD i 0 : Nat) : ℝ) - 1 := by
      rw [Nat.cast_sub hp]; simp
    rw [this, hw.xmax i hi] at *
    constructor <;> nlinarith
  · constructor <;> linarith

/-- One of the two halo coordinates is inside and in the same slice as the query coordinate. -/
theorem halo_dim {v q : ℝ} (h1 : at' g.xmin i ≤ v) (h2 : v ≤ at' g.xmax i) (q1 : at' g.xmin i ≤ q) (q2 : q ≤ at' g.xmax i)
    (hq : |q - v| ≤ g.tolerance) :
    (at' g.xmin i ≤ v - g.tolerance ∧ v - g.tolerance ≤ at' g.xmax i ∧ rIdx g i (v - g.tolerance) = rIdx g i q) ∨
    (at' g.xmin i ≤ v + g.tolerance ∧ v + g.tolerance ≤ at' g.xmax i ∧ rIdx g i (v + g.tolerance) = rIdx g i q) := by
  have hs := side_pos hw
  have ht := hw.tolPos
  have hst := hw.side
  have hp := hw.ndivPos i hi
  rw [abs_le] at hq
  have hp' : (1 : ℝ) ≤ ((g.ndiv.getD i 0 : Nat) : ℝ) := by exact_mod_cast hp
  have hmax := hw.xmax i hi
  have hlen : g.sideLength ≤ g.sideLength * ((g.ndiv.getD i 0 : Nat) : ℝ) := by nlinarith
  by_cases hlo : at' g.xmin i ≤ v - g.tolerance
  · by_cases hhi : v + g.tolerance ≤ at' g.xmax i
    · -- both corners inside
      have m1 := rIdx_mono hw hi (v := v - g.tolerance) (w := q) (by linarith) q2
      have m2 := rIdx_mono hw hi (v := q) (w := v + g.tolerance) (by linarith) hhi
      have hd : rIdx g i (v + g.tolerance) ≤ rIdx g i (v - g.tolerance) + 1 := by
        have b := (rIdx_box hw hi (v := v + g.tolerance) (by linarith) hhi).1
        have c := (rIdx_box hw hi (v := v - g.tolerance) hlo (by linarith)).2
        by_contra hc
        rw [not_le] at hc
        have : (rIdx g i (v - g.tolerance) : ℝ) + 2 ≤ (rIdx g i (v + g.tolerance) : ℝ) := by exact_mod_cast hc
        nlinarith
      have hor : rIdx g i (v - g.tolerance) = rIdx g i q ∨ rIdx g i (v + g.tolerance) = rIdx g i q := by omega
      rcases hor with h | h
      · exact Or.inl ⟨hlo, by linarith, h⟩
      · exact Or.inr ⟨by linarith, hhi, h⟩
    · -- upper corner outside
      rw [not_le] at hhi
      left
      refine ⟨hlo, by linarith, le_antisymm (rIdx_mono hw hi (by linarith) q2) ?_⟩
      have hlt := rIdx_lt hw hi q2
      have c := (rIdx_box hw hi (v := v - g.tolerance) hlo (by linarith)).2
      by_contra hc
      rw [not_le] at hc
      have h3 : rIdx g i (v - g.tolerance) + 2 ≤ g.ndiv.getD i 0 := by omega
      have h3' : (rIdx g i (v - g.tolerance) : ℝ) + 2 ≤ ((g.ndiv.getD i 0 : Nat) : ℝ) := by exact_mod_cast h3
      nlinarith
  · rw [not_le] at hlo
    right
    have hhi : v + g.tolerance ≤ at' g.xmax i := by linarith
    refine ⟨by linarith, hhi, le_antisymm ?_ (rIdx_mono hw hi (by linarith) hhi)⟩
    have b := (rIdx_box hw hi (v := v + g.tolerance) (by linarith) hhi).1
    by_contra hc
    rw [not_le] at hc
    have h1' : 1 ≤ rIdx g i (v + g.tolerance) := by omega
    have : (1 : ℝ) ≤ (rIdx g i (v + g.tolerance) : ℝ) := by exact_mod_cast h1'
    nlinarith

end index

theorem keyOf2 {g : GridSearch} (hw : WF g) (h : g.ndim = 2) (x : List ℝ) :
    keyOf g x = rIdx g 0 (at' x 0) + rIdx g 1 (at' x 1) * g.ndiv.getD 0 0 := by
  unfold keyOf
  rw [h, hw.coef]
  simp [List.range_succ, ratio_eq]

theorem keyOf3 {g : GridSearch} (hw : WF g) (h : g.ndim = 3) (x : List ℝ) :
    keyOf g x = rIdx g 0 (at' x 0) + rIdx g 1 (at' x 1) * g.ndiv.getD 0 0
      + rIdx g 2 (at' x 2) * (g.ndiv.getD 0 0 * g.ndiv.getD 1 0) := by
  unfold keyOf
  rw [h, hw.coef]
  simp [List.range_succ, ratio_eq, add_assoc]

theorem key_decode {n0 n1 r0 r1 r2 : Nat} (h0 : r0 < n0) (h1 : r1 < n1) :
    (r0 + r1 * n0 + r2 * (n0 * n1)) % n0 = r0 ∧ ((r0 + r1 * n0 + r2 * (n0 * n1)) % (n0 * n1)) / n0 = r1
      ∧ (r0 + r1 * n0 + r2 * (n0 * n1)) / (n0 * n1) = r2 := by
  have hlt : r0 + r1 * n0 < n0 * n1 := by
    calc r0 + r1 * n0 < n0 + r1 * n0 := by omega
      _ = n0 * (r1 + 1) := by ring
      _ ≤ n0 * n1 := Nat.mul_le_mul_left _ h1
  have hpos : 0 < n0 * n1 := by omega
  have n0pos : 0 < n0 := by omega
  refine ⟨?_, ?_, ?_⟩
  · have : r0 + r1 * n0 + r2 * (n0 * n1) = r0 + n0 * (r1 + r2 * n1) := by ring
    rw [this, Nat.add_mul_mod_self_left, Nat.mod_eq_of_lt h0]
  · rw [Nat.add_mul_mod_self_right, Nat.mod_eq_of_lt hlt, Nat.add_mul_div_right _ _ n0pos, Nat.div_eq_of_lt h0, Nat.zero_add]
  · rw [Nat.add_mul_div_right _ _ hpos, Nat.div_eq_of_lt hlt, Nat.zero_add]

/-- Third index (0 in 2D). -/
def r2Idx (g : GridSearch) (x : List ℝ) : Nat := if g.ndim = 3 then rIdx g 2 (at' x 2) else 0

theorem pivot_keyOf {g : GridSearch} (hw : WF g) {x : List ℝ} (hx : Inside g x) :
    pivotIndices g (keyOf g x) = (rIdx g 0 (at' x 0), rIdx g 1 (at' x 1), r2Idx g x) := by
  have hd := hw.ndim
  have l0 := rIdx_lt hw (i := 0) (by omega) (hx 0 (by omega)).2
  have l1 := rIdx_lt hw (i := 1) (by omega) (hx 1 (by omega)).2
  have hc : g.coefficient.getD 2 0 = g.ndiv.getD 0 0 * g.ndiv.getD 1 0 := by rw [hw.coef]; rfl
  unfold pivotIndices r2Idx
  rw [hc]
  rcases hd with h | h
  · obtain ⟨a, b, c⟩ := key_decode (r2 := 0) l0 l1
    simp only [Nat.zero_mul, Nat.add_zero] at a b c
    rw [keyOf2 hw h, a, b, c, if_neg (by omega)]
  · obtain ⟨a, b, c⟩ := key_decode (r2 := rIdx g 2 (at' x 2)) l0 l1
    rw [keyOf3 hw h, a, b, c, if_pos h]

/-- The distance from a point to the center of its container is at most the circumscribed radius. -/
theorem center_dist {g : GridSearch} (hw : WF g) {x : List ℝ} (hx : Inside g x) (hl : x.length = g.ndim) :
    (containerCenter g (pivotIndices g (keyOf g x))).length = g.ndim ∧
    d3 (containerCenter g (pivotIndices g (keyOf g x))) x ≤ g.radius := by
  have hs := side_pos hw
  rw [pivot_keyOf hw hx]
  have hd := hw.ndim
  have b0 := rIdx_box hw (i := 0) (by omega) (hx 0 (by omega)).1 (hx 0 (by omega)).2
  have b1 := rIdx_box hw (i := 1) (by omega) (hx 1 (by omega)).1 (hx 1 (by omega)).2
  have hr := hw.radius
  have hsq : Real.sqrt (g.ndim : ℝ) * Real.sqrt (g.ndim : ℝ) = (g.ndim : ℝ) := Real.mul_self_sqrt (by positivity)
  have hrad : 0 ≤ g.radius := by rw [hr]; positivity
  have hrr : g.radius * g.radius = (g.ndim : ℝ) * (g.sideLength / 2 * (g.sideLength / 2)) := by
    rw [hr]
    calc Real.sqrt (g.ndim : ℝ) * g.sideLength / 2 * (Real.sqrt (g.ndim : ℝ) * g.sideLength / 2)
        = (Real.sqrt (g.ndim : ℝ) * Real.sqrt (g.ndim : ℝ)) * (g.sideLength / 2 * (g.sideLength / 2)) := by ring
      _ = _ := by rw [hsq]
  have sqle : ∀ (lo v : ℝ), lo ≤ v → v ≤ lo + g.sideLength →
      (lo + g.sideLength / 2 - v) * (lo + g.sideLength / 2 - v) ≤ g.sideLength / 2 * (g.sideLength / 2) := by
    intro lo v h1 h2; nlinarith
  have e0 := sqle (at' g.xmin 0 + (rIdx g 0 (at' x 0) : ℝ) * g.sideLength) (at' x 0) b0.1 (by linarith [b0.2])
  have e1 := sqle (at' g.xmin 1 + (rIdx g 1 (at' x 1) : ℝ) * g.sideLength) (at' x 1) b1.1 (by linarith [b1.2])
  unfold containerCenter r2Idx
  rcases hd with h | h
  · rw [if_neg (by omega)]
    refine ⟨by rw [h]; rfl, ?_⟩
    apply n3_le_of_sq hrad
    rw [hrr, at'_of_ge (v := x) (i := 2) (by omega)]
    have hn : (g.ndim : ℝ) = 2 := by rw [h]; norm_num
    rw [hn]
    simp only [at', List.getD_cons_zero, List.getD_cons_succ, List.getD_nil] at *
    nlinarith
  · have b2 := rIdx_box hw (i := 2) (by omega) (hx 2 (by omega)).1 (hx 2 (by omega)).2
    have e2 := sqle (at' g.xmin 2 + (rIdx g 2 (at' x 2) : ℝ) * g.sideLength) (at' x 2) b2.1 (by linarith [b2.2])
    rw [if_pos h]
    refine ⟨by rw [h]; rfl, ?_⟩
    apply n3_le_of_sq hrad
    rw [hrr]
    have hn : (g.ndim : ℝ) = 3 := by rw [h]; norm_num
    rw [hn]
    simp only [at', List.getD_cons_zero, List.getD_cons_succ, List.getD_nil, if_pos h] at *
    nlinarith

/-- A query within tolerance (per direction) shares a container with a halo corner. -/
theorem halo_key {g : GridSearch} (hw : WF g) {x q : List ℝ} (hx : Inside g x) (hq : Inside g q)
    (h : ∀ i < g.ndim, |at' q i - at' x i| ≤ g.tolerance) :
    ∃ c ∈ setHalo g x, Inside g c ∧ keyOf g c = keyOf g q := by
  have hd := hw.ndim
  have d : ∀ i < g.ndim, ∃ v, (v = at' x i - g.tolerance ∨ v = at' x i + g.tolerance) ∧
      at' g.xmin i ≤ v ∧ v ≤ at' g.xmax i ∧ rIdx g i v = rIdx g i (at' q i) := by
    intro i hi
    rcases halo_dim hw hi (hx i hi).1 (hx i hi).2 (hq i hi).1 (hq i hi).2 (h i hi) with h | h
    · exact ⟨_, Or.inl rfl, h⟩
    · exact ⟨_, Or.inr rfl, h⟩
  obtain ⟨v0, c0, l0, u0, k0⟩ := d 0 (by omega)
  obtain ⟨v1, c1, l1, u1, k1⟩ := d 1 (by omega)
  rcases hd with h2 | h3
  · refine ⟨[v0, v1], ?_, ?_, ?_⟩
    · unfold setHalo
      rw [if_pos h2]
      rcases c0 with rfl | rfl <;> rcases c1 with rfl | rfl <;> simp
    · intro i hi
      rw [h2] at hi
      interval_cases i
      · exact ⟨l0, u0⟩
      · exact ⟨l1, u1⟩
    · rw [keyOf2 hw h2, keyOf2 hw h2, ← k0, ← k1]; rfl
  · obtain ⟨v2, c2, l2, u2, k2⟩ := d 2 (by omega)
    refine ⟨[v0, v1, v2], ?_, ?_, ?_⟩
    · unfold setHalo
      rw [if_neg (by omega)]
      rcases c0 with rfl | rfl <;> rcases c1 with rfl | rfl <;> rcases c2 with rfl | rfl <;> simp
    · intro i hi
      rw [h3] at hi
      interval_cases i
      · exact ⟨l0, u0⟩
      · exact ⟨l1, u1⟩
      · exact ⟨l2, u2⟩
    · rw [keyOf3 hw h3, keyOf3 hw h3, ← k0, ← k1, ← k2]; rfl

end GridSearch
end
end Gemlab
