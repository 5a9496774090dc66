import Verif.Proofs.Disks

/-! # The geometry of the blocks of disks and plates -/
namespace Gemlab.Structured
noncomputable section
open Classical
open Gemlab.Mesh Gemlab.Shapes Gemlab.Block Gemlab.Spec

variable {P Q : Piece}

/-! ### Angles -/

def qq : ℝ := Real.sqrt 2 / 2
def cc : ℝ := Real.cos (Real.pi / 8)
def ss : ℝ := Real.sin (Real.pi / 8)

theorem cs1 : cc ^ 2 + ss ^ 2 = 1 := Real.cos_sq_add_sin_sq _

theorem cs2 : cc ^ 2 - ss ^ 2 = qq := by
  have := Real.cos_two_mul (Real.pi / 8)
  rw [show 2 * (Real.pi / 8) = Real.pi / 4 by ring, Real.cos_pi_div_four] at this
  have h := cs1
  unfold qq cc ss at *
  linarith

theorem cs3 : 2 * ss * cc = qq := by
  have := Real.sin_two_mul (Real.pi / 8)
  rw [show 2 * (Real.pi / 8) = Real.pi / 4 by ring, Real.sin_pi_div_four] at this
  exact this.symm

theorem qq_sq : qq ^ 2 = 1 / 2 := by unfold qq; rw [div_pow, Real.sq_sqrt (by norm_num)]; norm_num

theorem qq_pos : 0 < qq := by unfold qq; positivity

theorem qq_lo : 7 / 10 < qq := by
  have h := qq_sq
  have := qq_pos
  nlinarith

theorem qq_hi : qq < 71 / 100 := by
  have h := qq_sq
  have := qq_pos
  nlinarith

theorem cc_pos : 0 < cc := Real.cos_pos_of_mem_Ioo ⟨by linarith [Real.pi_pos], by linarith [Real.pi_pos]⟩

theorem ss_pos : 0 < ss := Real.sin_pos_of_pos_of_lt_pi (by linarith [Real.pi_pos]) (by linarith [Real.pi_pos])

theorem cc_lo : 92 / 100 < cc := by
  have h1 := cs1
  have h2 := cs2
  have := cc_pos
  have := qq_lo
  nlinarith

theorem cc_hi : cc < 1 := by
  have h1 := cs1
  have := ss_pos
  have := cc_pos
  nlinarith

theorem ss_hi : ss < 2 / 5 := by
  have h1 := cs1
  have h2 := cs2
  have := ss_pos
  have := qq_lo
  nlinarith

theorem turn1 : qq * cc + qq * ss = cc := by
  have h1 := cs1
  have h2 := cs2
  have h3 := cs3
  calc qq * cc + qq * ss = (cc ^ 2 - ss ^ 2) * cc + (2 * ss * cc) * ss := by rw [h2, h3]
    _ = cc * (cc ^ 2 + ss ^ 2) := by ring
    _ = cc := by rw [h1, mul_one]

theorem angular_zero (R : ℝ) : angular R 0 = [R, 0] := by unfold angular; simp
theorem angular_one (R : ℝ) : angular R 1 = [0, R] := by unfold angular; simp
theorem angular_half (R : ℝ) : angular R (1 / 2) = [R * qq, R * qq] := by
  unfold angular qq
  rw [show (1 / 2 : ℝ) * (Real.pi / 2) = Real.pi / 4 by ring, Real.cos_pi_div_four, Real.sin_pi_div_four]
theorem angular_q1 (R : ℝ) : angular R (1 / 4) = [R * cc, R * ss] := by
  unfold angular cc ss
  rw [show (1 / 4 : ℝ) * (Real.pi / 2) = Real.pi / 8 by ring]
theorem angular_q3 (R : ℝ) : angular R (3 / 4) = [R * ss, R * cc] := by
  unfold angular cc ss
  rw [show (3 / 4 : ℝ) * (Real.pi / 2) = Real.pi / 2 - Real.pi / 8 by ring, Real.cos_pi_div_two_sub, Real.sin_pi_div_two_sub]

/-! ### Blocks in the plane -/

/-- The first and the last node of a side. -/
def lo (s : Nat) : Nat := if s = 0 then 0 else if s = 1 then 1 else if s = 2 then 3 else 0
def hi (s : Nat) : Nat := if s = 0 then 1 else if s = 1 then 2 else if s = 2 then 2 else 3

theorem iso4 (at_ : Nat → Nat → ℝ) (ξ : List ℝ) (j : Nat) (hj : j < 2) : (isoMap 4 2 at_ ξ).getD j 0 =
    (1 - ξ.getD 0 0) * (1 - ξ.getD 1 0) / 4 * at_ 0 j + (1 + ξ.getD 0 0) * (1 - ξ.getD 1 0) / 4 * at_ 1 j
      + (1 + ξ.getD 0 0) * (1 + ξ.getD 1 0) / 4 * at_ 2 j + (1 - ξ.getD 0 0) * (1 + ξ.getD 1 0) / 4 * at_ 3 j := by
  unfold isoMap
  rw [getD_map_range hj]
  simp [inputKind, Shapes.calcCoords, GeoKind.nnode, Finset.sum_range_succ, calcInterp, interp, qua4Interp, PE.eval, at']
  ring

theorem iso8 (at_ : Nat → Nat → ℝ) (ξ : List ℝ) (j : Nat) (hj : j < 2) : (isoMap 8 2 at_ ξ).getD j 0 =
    (1 - ξ.getD 0 0) * (1 - ξ.getD 1 0) * (-ξ.getD 0 0 - ξ.getD 1 0 - 1) / 4 * at_ 0 j + (1 + ξ.getD 0 0) * (1 - ξ.getD 1 0) * (ξ.getD 0 0 - ξ.getD 1 0 - 1) / 4 * at_ 1 j
      + (1 + ξ.getD 0 0) * (1 + ξ.getD 1 0) * (ξ.getD 0 0 + ξ.getD 1 0 - 1) / 4 * at_ 2 j + (1 - ξ.getD 0 0) * (1 + ξ.getD 1 0) * (-ξ.getD 0 0 + ξ.getD 1 0 - 1) / 4 * at_ 3 j
      + (1 - ξ.getD 0 0 ^ 2) * (1 - ξ.getD 1 0) / 2 * at_ 4 j + (1 + ξ.getD 0 0) * (1 - ξ.getD 1 0 ^ 2) / 2 * at_ 5 j
      + (1 - ξ.getD 0 0 ^ 2) * (1 + ξ.getD 1 0) / 2 * at_ 6 j + (1 - ξ.getD 0 0) * (1 - ξ.getD 1 0 ^ 2) / 2 * at_ 7 j := by
  unfold isoMap
  rw [getD_map_range hj]
  simp [inputKind, Shapes.calcCoords, GeoKind.nnode, Finset.sum_range_succ, calcInterp, interp, qua8Interp, PE.eval, at']
  ring

theorem jac4 (at_ : Nat → Nat → ℝ) : detN 2 (centreJacobian 4 2 at_) =
    ((at_ 2 0 - at_ 0 0) * (at_ 3 1 - at_ 1 1) - (at_ 3 0 - at_ 1 0) * (at_ 2 1 - at_ 0 1)) / 8 := by
  simp [detN, Matrix.det_fin_two, centreJacobian, inputKind, GeoKind.nnode, Finset.sum_range_succ, calcDeriv, Shapes.deriv, qua4Deriv, PE.eval]
  ring

theorem jac8 (at_ : Nat → Nat → ℝ) : detN 2 (centreJacobian 8 2 at_) =
    ((at_ 5 0 - at_ 7 0) * (at_ 6 1 - at_ 4 1) - (at_ 6 0 - at_ 4 0) * (at_ 5 1 - at_ 7 1)) / 4 := by
  simp [detN, Matrix.det_fin_two, centreJacobian, inputKind, GeoKind.nnode, Finset.sum_range_succ, calcDeriv, Shapes.deriv, qua8Deriv, PE.eval]
  ring

theorem side4 {s : Nat} (hs : s < 4) (at_ : Nat → Nat → ℝ) {ξ : List ℝ} (hon : OnSide 2 s ξ) {j : Nat} (hj : j < 2) :
    (isoMap 4 2 at_ ξ).getD j 0 = (1 - ξ.getD (1 - sideDir 2 s) 0) / 2 * at_ (lo s) j + (1 + ξ.getD (1 - sideDir 2 s) 0) / 2 * at_ (hi s) j := by
  rw [iso4 _ _ _ hj]
  have e : s = 0 ∨ s = 1 ∨ s = 2 ∨ s = 3 := by omega
  unfold OnSide at hon
  rcases e with rfl | rfl | rfl | rfl <;> norm_num [sideDir, sideVal] at hon ⊢ <;> rw [hon] <;> norm_num [lo, hi] <;> ring

theorem side8 {s : Nat} (hs : s < 4) (at_ : Nat → Nat → ℝ) {ξ : List ℝ} (hon : OnSide 2 s ξ) {j : Nat} (hj : j < 2) :
    (isoMap 8 2 at_ ξ).getD j 0 = ξ.getD (1 - sideDir 2 s) 0 * (ξ.getD (1 - sideDir 2 s) 0 - 1) / 2 * at_ (lo s) j
      + ξ.getD (1 - sideDir 2 s) 0 * (ξ.getD (1 - sideDir 2 s) 0 + 1) / 2 * at_ (hi s) j + (1 - ξ.getD (1 - sideDir 2 s) 0 ^ 2) * at_ (4 + s) j := by
  rw [iso8 _ _ _ hj]
  have e : s = 0 ∨ s = 1 ∨ s = 2 ∨ s = 3 := by omega
  unfold OnSide at hon
  rcases e with rfl | rfl | rfl | rfl <;> norm_num [sideDir, sideVal] at hon ⊢ <;> rw [hon] <;> norm_num [lo, hi] <;> ring

theorem dist_around (R : ℝ) (x : List ℝ) : (around R).dist x = Real.sqrt (x.getD 0 0 ^ 2 + x.getD 1 0 ^ 2) := by
  unfold Surface.dist around
  simp

theorem lt_dist {R α β t : ℝ} {x : List ℝ} (h1 : α ^ 2 + β ^ 2 = 1) (ht : 0 ≤ t) (h : t < α * x.getD 0 0 + β * x.getD 1 0) : t < (around R).dist x := by
  rw [dist_around]
  apply Real.lt_sqrt_of_sq_lt
  have : (α * x.getD 0 0 + β * x.getD 1 0) ^ 2 ≤ x.getD 0 0 ^ 2 + x.getD 1 0 ^ 2 := by
    have e : x.getD 0 0 ^ 2 + x.getD 1 0 ^ 2 = (α ^ 2 + β ^ 2) * (x.getD 0 0 ^ 2 + x.getD 1 0 ^ 2) := by rw [h1, one_mul]
    nlinarith [sq_nonneg (α * x.getD 1 0 - β * x.getD 0 0)]
  nlinarith

/-- What has to be checked for a block in the plane. -/
structure Checked (P : Piece) : Prop where
  shape : P.nodes.length = 4 ∨ P.nodes.length = 8
  plane : ∀ x ∈ P.nodes, x.length = 2
  jac : 0 < detN 2 (centreJacobian P.nodes.length 2 P.at_)
  arcs : ∀ q ∈ P.arcs, q.1 < 4 ∧ 0 < q.2
  opposite : ∀ q ∈ P.arcs, ∀ q' ∈ P.arcs, sideDir 2 q.1 = sideDir 2 q'.1 ∧ (q.1 = q'.1 → q = q')
  ends : ∀ q ∈ P.arcs, P.at_ (lo q.1) 0 ^ 2 + P.at_ (lo q.1) 1 ^ 2 = q.2 ^ 2 ∧ P.at_ (hi q.1) 0 ^ 2 + P.at_ (hi q.1) 1 ^ 2 = q.2 ^ 2
  clear : ∀ q ∈ P.arcs, ∃ α β t : ℝ, α ^ 2 + β ^ 2 = 1 ∧ 1 / 10 ^ 8 < t ∧ α * P.at_ (lo q.1) 0 + β * P.at_ (lo q.1) 1 = t ∧
    α * P.at_ (hi q.1) 0 + β * P.at_ (hi q.1) 1 = t ∧ (P.nodes.length = 8 → t ≤ α * P.at_ (4 + q.1) 0 + β * P.at_ (4 + q.1) 1)

theorem sideDir_two {s : Nat} : sideDir 2 s = 0 ∨ sideDir 2 s = 1 := by unfold sideDir; split <;> [split; skip] <;> simp_all

theorem Checked.good (h : Checked P) : Good 2 P where
  shape := .inl ⟨rfl, h.shape⟩
  jac := h.jac
  arcs := fun q hq => ⟨(h.arcs q hq).1, (h.arcs q hq).2, by rcases @sideDir_two q.1 with e | e <;> rw [e] <;> omega⟩
  opposite := h.opposite
  clear := by
    intro q hq ξ hbox hon
    obtain ⟨α, β, t, h1, h2, h3, h4, h5⟩ := h.clear q hq
    refine lt_dist h1 (by norm_num) (lt_of_lt_of_le h2 ?_)
    have hs := (h.arcs q hq).1
    have hb := hbox (1 - sideDir 2 q.1) (by omega)
    rcases h.shape with e | e
    · rw [e, side4 hs _ hon (by omega), side4 hs _ hon (by omega)]
      generalize ξ.getD (1 - sideDir 2 q.1) 0 = v at *
      apply le_of_eq
      linear_combination (-(1 - v) / 2) * h3 - (1 + v) / 2 * h4
    · have h6 := h5 e
      rw [e, side8 hs _ hon (by omega), side8 hs _ hon (by omega)]
      generalize ξ.getD (1 - sideDir 2 q.1) 0 = v at *
      have : 0 ≤ 1 - v ^ 2 := by nlinarith [hb.1, hb.2]
      have := mul_le_mul_of_nonneg_left h6 this
      have e1 : v * (v - 1) / 2 * (α * P.at_ (lo q.1) 0 + β * P.at_ (lo q.1) 1) = v * (v - 1) / 2 * t := by rw [h3]
      have e2 : v * (v + 1) / 2 * (α * P.at_ (hi q.1) 0 + β * P.at_ (hi q.1) 1) = v * (v + 1) / 2 * t := by rw [h4]
      linarith
  ends := by
    intro q hq ξ hbox hon s hs hs2 hne hon2
    obtain ⟨h1, h2⟩ := h.ends q hq
    have hs := (h.arcs q hq).1
    have hv : ξ.getD (1 - sideDir 2 q.1) 0 = -1 ∨ ξ.getD (1 - sideDir 2 q.1) 0 = 1 := by
      have e : 1 - sideDir 2 q.1 = sideDir 2 s := by
        rcases @sideDir_two q.1 with e | e <;> rcases @sideDir_two s with e' | e' <;> omega
      rw [e]
      unfold OnSide at hon2
      rw [hon2]
      unfold sideVal
      rw [if_pos rfl]
      split <;> simp
    rw [dist_around]
    rw [← Real.sqrt_sq (h.arcs q hq).2.le]
    congr 1
    rcases h.shape with e | e
    · rw [e, side4 hs _ hon (by omega), side4 hs _ hon (by omega)]
      rcases hv with hv | hv <;> rw [hv]
      · rw [← h1]; ring
      · rw [← h2]; ring
    · rw [e, side8 hs _ hon (by omega), side8 hs _ hon (by omega)]
      rcases hv with hv | hv <;> rw [hv]
      · rw [← h1]; ring
      · rw [← h2]; ring

/-! ### The blocks -/

theorem arc_dirs {R : ℝ} (hR : 2 / 10 ^ 8 ≤ R) : 1 / 10 ^ 8 < R * cc := by
  have := cc_lo
  norm_num at hR ⊢
  nlinarith

/-- What has to be known of a side on a circle. -/
def ArcOk (P : Piece) (q : Nat × ℝ) : Prop :=
  (P.at_ (lo q.1) 0 ^ 2 + P.at_ (lo q.1) 1 ^ 2 = q.2 ^ 2 ∧ P.at_ (hi q.1) 0 ^ 2 + P.at_ (hi q.1) 1 ^ 2 = q.2 ^ 2) ∧
  ∃ α β t : ℝ, α ^ 2 + β ^ 2 = 1 ∧ 1 / 10 ^ 8 < t ∧ α * P.at_ (lo q.1) 0 + β * P.at_ (lo q.1) 1 = t ∧
    α * P.at_ (hi q.1) 0 + β * P.at_ (hi q.1) 1 = t ∧ (P.nodes.length = 8 → t ≤ α * P.at_ (4 + q.1) 0 + β * P.at_ (4 + q.1) 1)

theorem arc_first {s : Nat} {R : ℝ} (hR : 2 / 10 ^ 8 ≤ R) (h1 : P.nodes.getD (lo s) [] = angular R 0 ∨ P.nodes.getD (lo s) [] = angular R (1 / 2))
    (h2 : P.nodes.getD (hi s) [] = angular R 0 ∨ P.nodes.getD (hi s) [] = angular R (1 / 2)) (h3 : P.nodes.length = 8 → P.nodes.getD (4 + s) [] = angular R (1 / 4)) :
    ArcOk P (s, R) := by
  have key : ∀ m, (P.nodes.getD m [] = angular R 0 ∨ P.nodes.getD m [] = angular R (1 / 2)) →
      P.at_ m 0 ^ 2 + P.at_ m 1 ^ 2 = R ^ 2 ∧ cc * P.at_ m 0 + ss * P.at_ m 1 = R * cc := by
    intro m h
    unfold Piece.at_ at'
    rcases h with h | h <;> rw [h]
    · rw [angular_zero]
      simp
      ring
    · rw [angular_half]
      simp
      refine ⟨?_, by linear_combination R * turn1⟩
      rw [mul_pow, qq_sq]; ring
  refine ⟨⟨(key _ h1).1, (key _ h2).1⟩, cc, ss, R * cc, cs1, arc_dirs hR, (key _ h1).2, (key _ h2).2, fun h => ?_⟩
  have := h3 h
  unfold Piece.at_ at'
  simp only [this, angular_q1]
  simp
  have h0 : 0 < R := lt_of_lt_of_le (by norm_num) hR
  have := cc_hi
  have e : cc * (R * cc) + ss * (R * ss) = R := by linear_combination R * cs1
  rw [e]
  nlinarith

theorem arc_second {s : Nat} {R : ℝ} (hR : 2 / 10 ^ 8 ≤ R) (h1 : P.nodes.getD (lo s) [] = angular R 1 ∨ P.nodes.getD (lo s) [] = angular R (1 / 2))
    (h2 : P.nodes.getD (hi s) [] = angular R 1 ∨ P.nodes.getD (hi s) [] = angular R (1 / 2)) (h3 : P.nodes.length = 8 → P.nodes.getD (4 + s) [] = angular R (3 / 4)) :
    ArcOk P (s, R) := by
  have key : ∀ m, (P.nodes.getD m [] = angular R 1 ∨ P.nodes.getD m [] = angular R (1 / 2)) →
      P.at_ m 0 ^ 2 + P.at_ m 1 ^ 2 = R ^ 2 ∧ ss * P.at_ m 0 + cc * P.at_ m 1 = R * cc := by
    intro m h
    unfold Piece.at_ at'
    rcases h with h | h <;> rw [h]
    · rw [angular_one]
      simp
      ring
    · rw [angular_half]
      simp
      refine ⟨?_, by linear_combination R * turn1⟩
      rw [mul_pow, qq_sq]; ring
  refine ⟨⟨(key _ h1).1, (key _ h2).1⟩, ss, cc, R * cc, by rw [add_comm]; exact cs1, arc_dirs hR, (key _ h1).2, (key _ h2).2, fun h => ?_⟩
  have := h3 h
  unfold Piece.at_ at'
  simp only [this, angular_q3]
  simp
  have h0 : 0 < R := lt_of_lt_of_le (by norm_num) hR
  have := cc_hi
  have e : ss * (R * ss) + cc * (R * cc) = R := by linear_combination R * cs1
  rw [e]
  nlinarith

theorem checked_of (h1 : P.nodes.length = 4 ∨ P.nodes.length = 8) (h2 : ∀ x ∈ P.nodes, x.length = 2) (h3 : 0 < detN 2 (centreJacobian P.nodes.length 2 P.at_))
    (h4 : ∀ q ∈ P.arcs, q.1 < 4 ∧ 0 < q.2) (h5 : ∀ q ∈ P.arcs, ∀ q' ∈ P.arcs, sideDir 2 q.1 = sideDir 2 q'.1 ∧ (q.1 = q'.1 → q = q'))
    (h6 : ∀ q ∈ P.arcs, ArcOk P q) : Checked P := ⟨h1, h2, h3, h4, h5, fun q hq => (h6 q hq).1, fun q hq => (h6 q hq).2⟩

theorem diskA_checked {r : ℝ} (hr : 2 / 10 ^ 8 ≤ r) (na nb : Nat) : ∀ P ∈ diskA r na nb, Checked P := by
  have h0 : 0 < r := lt_of_lt_of_le (by norm_num) hr
  have hq := qq_lo
  have hq' := qq_hi
  have hr2 : 0 < r * r := by positivity
  intro P hP
  simp only [diskA, List.mem_cons, List.not_mem_nil, or_false] at hP
  rcases hP with rfl | rfl | rfl
  · refine checked_of (.inl rfl) (by simp [angular]) ?_ (by simp) (by simp) (by simp)
    show 0 < detN 2 (centreJacobian 4 2 _)
    rw [jac4]
    simp only [Piece.at_, at', angular_zero, angular_half, angular_one]
    norm_num
    nlinarith
  · refine checked_of (.inl rfl) (by simp [angular]) ?_ (by simp [h0]) (by simp) ?_
    · show 0 < detN 2 (centreJacobian 4 2 _)
      rw [jac4]
      simp only [Piece.at_, at', angular_zero, angular_half, angular_one]
      norm_num
      nlinarith
    · intro q hq
      simp only [List.mem_singleton] at hq
      subst hq
      exact arc_first hr (.inl rfl) (.inr rfl) (by simp)
  · refine checked_of (.inl rfl) (by simp [angular]) ?_ (by simp [h0]) (by simp) ?_
    · show 0 < detN 2 (centreJacobian 4 2 _)
      rw [jac4]
      simp only [Piece.at_, at', angular_zero, angular_half, angular_one]
      norm_num
      nlinarith
    · intro q hq
      simp only [List.mem_singleton] at hq
      subst hq
      exact arc_second hr (.inl rfl) (.inr rfl) (by simp)

theorem diskB_checked {a r : ℝ} (ha : 0 < a) (har : a < r) (hr : 2 / 10 ^ 8 ≤ r) (na nb : Nat) : ∀ P ∈ diskB a r na nb, Checked P := by
  have h0 : 0 < r := lt_of_lt_of_le (by norm_num) hr
  have hq := qq_lo
  have hq' := qq_hi
  have hc := cc_lo
  have hs := ss_pos
  have hs' := ss_hi
  intro P hP
  simp only [diskB, List.mem_cons, List.not_mem_nil, or_false] at hP
  rcases hP with rfl | rfl | rfl
  · refine checked_of (.inr rfl) (by simp [angular]) ?_ (by simp) (by simp) (by simp)
    show 0 < detN 2 (centreJacobian 8 2 _)
    rw [jac8]
    simp only [Piece.at_, at', angular_zero, angular_half, angular_one, angular_q1, angular_q3]
    simp
    have e : a * cc * (a * cc) - (a * ss - a / 2) * (a * ss - a / 2) = a ^ 2 * (cc ^ 2 - (ss - 1 / 2) ^ 2) := by ring
    have h1 : 0 < cc ^ 2 - (ss - 1 / 2) ^ 2 := by nlinarith
    have h2 : 0 < a ^ 2 * (cc ^ 2 - (ss - 1 / 2) ^ 2) := by positivity
    linarith
  · refine checked_of (.inr rfl) (by simp [angular]) ?_ (by simp [h0]) (by simp) ?_
    · show 0 < detN 2 (centreJacobian 8 2 _)
      rw [jac8]
      simp only [Piece.at_, at', angular_zero, angular_half, angular_one, angular_q1, angular_q3]
      simp
      have h1 : 0 < (r - a) * ((a + r) / 2) * (cc * qq + ss * (1 - qq)) := by
        have : 0 < cc * qq + ss * (1 - qq) := by nlinarith
        have : 0 < r - a := by linarith
        positivity
      nlinarith [h1]
    · intro q hq
      simp only [List.mem_singleton] at hq
      subst hq
      exact arc_first hr (.inl rfl) (.inr rfl) (fun _ => rfl)
  · refine checked_of (.inr rfl) (by simp [angular]) ?_ (by simp [h0]) (by simp) ?_
    · show 0 < detN 2 (centreJacobian 8 2 _)
      rw [jac8]
      simp only [Piece.at_, at', angular_zero, angular_half, angular_one, angular_q1, angular_q3]
      simp
      have h1 : 0 < (r - a) * ((a + r) / 2) * (cc * qq + ss * (1 - qq)) := by
        have : 0 < cc * qq + ss * (1 - qq) := by nlinarith
        have : 0 < r - a := by linarith
        positivity
      nlinarith [h1]
    · intro q hq
      simp only [List.mem_singleton] at hq
      subst hq
      exact arc_second hr (.inl rfl) (.inr rfl) (fun _ => rfl)

theorem plate_checked {r a b : ℝ} (hr : 2 / 10 ^ 8 ≤ r) (ha : 0 < a) (hb : 0 < b) (na nb n45 : Nat) : ∀ P ∈ plate r a b na nb n45, Checked P := by
  have h0 : 0 < r := lt_of_lt_of_le (by norm_num) hr
  have hR : 2 / 10 ^ 8 ≤ r + a := by linarith
  have hq := qq_lo
  have hq' := qq_hi
  have hc := cc_lo
  have hc' := cc_hi
  have hs := ss_pos
  have hs' := ss_hi
  have hd : 0 < cc * qq + ss * (1 - qq) := by nlinarith
  intro P hP
  simp only [plate, List.mem_cons, List.not_mem_nil, or_false] at hP
  rcases hP with rfl | rfl | rfl | rfl
  · refine checked_of (.inr rfl) (by simp [angular]) ?_ (by simp [h0]; linarith) (by simp [sideDir]) ?_
    · show 0 < detN 2 (centreJacobian 8 2 _)
      rw [jac8]
      simp only [Piece.at_, at', angular_zero, angular_half, angular_one, angular_q1, angular_q3]
      simp
      have h1 : 0 < a * ((r + (r + a)) / 2) * (cc * qq + ss * (1 - qq)) := by positivity
      nlinarith [h1]
    · intro q hq
      simp only [List.mem_cons, List.not_mem_nil, or_false] at hq
      rcases hq with rfl | rfl
      · exact arc_first hr (.inl rfl) (.inr rfl) (fun _ => rfl)
      · exact arc_first hR (.inl rfl) (.inr rfl) (fun _ => rfl)
  · refine checked_of (.inr rfl) (by simp [angular]) ?_ (by simp [h0]; linarith) (by simp [sideDir]) ?_
    · show 0 < detN 2 (centreJacobian 8 2 _)
      rw [jac8]
      simp only [Piece.at_, at', angular_zero, angular_half, angular_one, angular_q1, angular_q3]
      simp
      have h1 : 0 < a * ((r + (r + a)) / 2) * (cc * qq + ss * (1 - qq)) := by positivity
      nlinarith [h1]
    · intro q hq
      simp only [List.mem_cons, List.not_mem_nil, or_false] at hq
      rcases hq with rfl | rfl
      · exact arc_second hr (.inr rfl) (.inl rfl) (fun _ => rfl)
      · exact arc_second hR (.inr rfl) (.inl rfl) (fun _ => rfl)
  · refine checked_of (.inr rfl) (by simp [angular, between]) ?_ (by simp; linarith) (by simp [sideDir]) ?_
    · show 0 < detN 2 (centreJacobian 8 2 _)
      rw [jac8]
      simp only [Piece.at_, at', angular_zero, angular_half, angular_one, angular_q1, angular_q3, between]
      simp
      generalize hRR : r + a = R at *
      have hRp : 0 < R := by linarith
      have h1 : 0 < (R + b - R * cc) * ((R * qq + (R + b)) / 2) := by
        have : 0 < R + b - R * cc := by nlinarith
        positivity
      have h2 : 0 < R * (1 - qq) / 2 * ((R + b) / 2 - R * ss) := by
        have : 0 < (R + b) / 2 - R * ss := by nlinarith
        have : 0 < 1 - qq := by linarith
        positivity
      nlinarith [h1, h2]
    · intro q hq
      simp only [List.mem_singleton] at hq
      subst hq
      exact arc_first hR (.inl rfl) (.inr rfl) (fun _ => rfl)
  · refine checked_of (.inr rfl) (by simp [angular, between]) ?_ (by simp; linarith) (by simp [sideDir]) ?_
    · show 0 < detN 2 (centreJacobian 8 2 _)
      rw [jac8]
      simp only [Piece.at_, at', angular_zero, angular_half, angular_one, angular_q1, angular_q3, between]
      simp
      generalize hRR : r + a = R at *
      have hRp : 0 < R := by linarith
      have h1 : 0 < (R + b - R * cc) * ((R * qq + (R + b)) / 2) := by
        have : 0 < R + b - R * cc := by nlinarith
        positivity
      have h2 : 0 < R * (1 - qq) / 2 * ((R + b) / 2 - R * ss) := by
        have : 0 < (R + b) / 2 - R * ss := by nlinarith
        have : 0 < 1 - qq := by linarith
        positivity
      nlinarith [h1, h2]
    · intro q hq
      simp only [List.mem_singleton] at hq
      subst hq
      exact arc_second hR (.inr rfl) (.inl rfl) (fun _ => rfl)

end
end Gemlab.Structured
