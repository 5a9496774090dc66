import Verif.Model.Rounded
import Verif.Spec.Rounding
import Verif.Proofs.GridSearch
import Mathlib.Tactic.Positivity

/-! # Proofs about the grid with rounding: container indices and halo -/
namespace Gemlab
noncomputable section
open Classical

namespace Rounding
variable {fl : ℝ → ℝ} {u : ℝ} (R : Rounding fl u)
include R

theorem zero : fl 0 = 0 := by
  have := R.error 0
  rw [abs_zero, mul_zero, sub_zero] at this
  exact abs_nonpos_iff.1 this

theorem nonneg {x : ℝ} (h : 0 ≤ x) : 0 ≤ fl x := by have := R.mono h; rwa [R.zero] at this

theorem near {x M : ℝ} (h : |x| ≤ M) : |fl x - x| ≤ u * M := (R.error x).trans (mul_le_mul_of_nonneg_left h R.small.1)

theorem upper {x : ℝ} (h : 0 ≤ x) : fl x ≤ (1 + u) * x := by
  have := (abs_le.1 (R.error x)).2
  rw [abs_of_nonneg h] at this
  linarith

theorem lower {x : ℝ} (h : 0 ≤ x) : (1 - u) * x ≤ fl x := by
  have := (abs_le.1 (R.error x)).1
  rw [abs_of_nonneg h] at this
  linarith

theorem pos {x : ℝ} (h : 0 < x) : 0 < fl x := by
  have := R.lower h.le
  have := R.small.2
  nlinarith

end Rounding

namespace Rounded
variable {fl : ℝ → ℝ} {u : ℝ}

/-- Index along direction `i` of a coordinate. -/
def rIdx (fl : ℝ → ℝ) (g : GridSearch) (i : Nat) (v : ℝ) : Nat :=
  if ⌊fl (fl (v - at' g.xmin i) / g.sideLength)⌋₊ = g.ndiv.getD i 0 then ⌊fl (fl (v - at' g.xmin i) / g.sideLength)⌋₊ - 1
  else ⌊fl (fl (v - at' g.xmin i) / g.sideLength)⌋₊

theorem ratio_eq (fl : ℝ → ℝ) (g : GridSearch) (x : List ℝ) (i : Nat) : ratio fl g x i = rIdx fl g i (at' x i) := rfl

/-- Facts about the parameters of a grid returned by `new`. -/
structure WF (fl : ℝ → ℝ) (g : GridSearch) : Prop where
  ndim : g.ndim = 2 ∨ g.ndim = 3
  ndivPos : ∀ i < g.ndim, 1 ≤ g.ndiv.getD i 0
  coef : g.coefficient = [1, g.ndiv.getD 0 0, g.ndiv.getD 0 0 * g.ndiv.getD 1 0]
  tolPos : 0 < g.tolerance
  xmax : ∀ i < g.ndim, at' g.xmax i = fl (at' g.xmin i + fl (g.sideLength * fl ((g.ndiv.getD i 0 : Nat) : ℝ)))
  tolDist : g.tolDist = fl (fl (Real.sqrt g.ndim) * g.tolerance)

/-- The size of the containers is well above the tolerance and the rounding errors of coordinates up to `B`. -/
structure Fits (u B : ℝ) (g : GridSearch) : Prop where
  bound : ∀ i < g.ndim, |at' g.xmin i| ≤ B ∧ |at' g.xmax i| ≤ B
  side : 2 * g.tolerance + 40 * (u * B) < g.sideLength

section numbers
variable (R : Rounding fl u)
include R

/-- The upper limit of the grid. -/
theorem limit_near {a s n B : ℝ} (hs : 0 < s) (hn : 0 ≤ n) (ha : |a| ≤ B) (hb : |fl (a + fl (s * fl n))| ≤ B) :
    |fl (a + fl (s * fl n)) - (a + s * n)| ≤ 6 * (u * B) ∧ s * n ≤ 11 / 5 * B := by
  obtain ⟨u0, u1⟩ := R.small
  have hB : 0 ≤ B := (abs_nonneg a).trans ha
  have hN := R.nonneg hn
  set N := fl n with hNdef
  have hsN : 0 ≤ s * N := mul_nonneg hs.le hN
  have hP := R.nonneg hsN
  set P := fl (s * N) with hPdef
  set b := fl (a + P) with hbdef
  have e1 := R.error (a + P)
  rw [← hbdef] at e1
  have h1 : |a + P| ≤ 51 / 50 * B := by
    have t : |a + P| ≤ |b| + |b - (a + P)| := by
      have := abs_sub_abs_le_abs_sub (a + P) b
      rw [abs_sub_comm] at this
      linarith
    nlinarith [abs_nonneg (a + P)]
  have e1' : |b - (a + P)| ≤ 51 / 50 * (u * B) := e1.trans (by nlinarith)
  have h2 : P ≤ 101 / 50 * B := by
    have := abs_le.1 h1; have := abs_le.1 ha; linarith
  have l2 := R.lower hsN
  rw [← hPdef] at l2
  have h3 : s * N ≤ 206 / 100 * B := by nlinarith
  have e2 := R.near (x := s * N) (M := 206 / 100 * B) (by rwa [abs_of_nonneg hsN])
  rw [← hPdef] at e2
  have l3 := R.lower hn
  rw [← hNdef] at l3
  have h4 : s * n ≤ 21 / 10 * B := by
    have : s * ((1 - u) * n) ≤ s * N := mul_le_mul_of_nonneg_left l3 hs.le
    have h0 : 0 ≤ s * n := mul_nonneg hs.le hn
    nlinarith
  have e3 : |s * N - s * n| ≤ u * (21 / 10 * B) := by
    have := R.error n
    rw [← hNdef, abs_of_nonneg hn] at this
    rw [← mul_sub, abs_mul, abs_of_pos hs]
    calc s * |N - n| ≤ s * (u * n) := mul_le_mul_of_nonneg_left this hs.le
      _ = u * (s * n) := by ring
      _ ≤ _ := mul_le_mul_of_nonneg_left h4 u0
  have hE : 0 ≤ u * B := mul_nonneg u0 hB
  refine ⟨?_, by linarith⟩
  rw [abs_le] at *
  constructor <;> nlinarith

/-- The scaled coordinate before it is cut to an integer. -/
theorem scaled_near {a b v s B : ℝ} (hs : 0 < s) (ha : |a| ≤ B) (hb : |b| ≤ B) (h1 : a ≤ v) (h2 : v ≤ b) :
    |s * fl (fl (v - a) / s) - (v - a)| ≤ 5 * (u * B) := by
  obtain ⟨u0, u1⟩ := R.small
  have hB : 0 ≤ B := (abs_nonneg a).trans ha
  rw [abs_le] at ha hb
  have hv : |v - a| ≤ 2 * B := by rw [abs_of_nonneg (by linarith)]; linarith
  have e1 := R.near hv
  have hD := R.nonneg (x := v - a) (by linarith)
  set D := fl (v - a)
  have hDB : D ≤ 101 / 50 * B := by
    have := abs_le.1 hv
    rw [abs_le] at e1
    nlinarith
  have hDs : 0 ≤ D / s := div_nonneg hD hs.le
  have e2 := R.error (D / s)
  rw [abs_of_nonneg hDs] at e2
  have e3 : |s * fl (D / s) - D| ≤ u * (101 / 50 * B) := by
    have : s * fl (D / s) - D = s * (fl (D / s) - D / s) := by rw [mul_sub, mul_div_cancel₀ _ hs.ne']
    rw [this, abs_mul, abs_of_pos hs]
    calc s * |fl (D / s) - D / s| ≤ s * (u * (D / s)) := mul_le_mul_of_nonneg_left e2 hs.le
      _ = u * D := by rw [mul_left_comm, mul_div_cancel₀ _ hs.ne']
      _ ≤ _ := mul_le_mul_of_nonneg_left hDB u0
  have hE : 0 ≤ u * B := mul_nonneg u0 hB
  rw [abs_le] at *
  constructor <;> nlinarith

end numbers

section index
variable (R : Rounding fl u) {g : GridSearch} (hw : WF fl g) {B : ℝ} (hf : Fits u B g) {i : Nat} (hi : i < g.ndim)
include R hw hf hi

theorem bound_nonneg : 0 ≤ u * B := mul_nonneg R.small.1 ((abs_nonneg _).trans (hf.bound i hi).1)

theorem side_pos : 0 < g.sideLength := by
  have := hw.tolPos; have := hf.side; have := bound_nonneg R hw hf hi; linarith

theorem xmax_near : |at' g.xmax i - (at' g.xmin i + g.sideLength * ((g.ndiv.getD i 0 : Nat) : ℝ))| ≤ 6 * (u * B) ∧
    g.sideLength * ((g.ndiv.getD i 0 : Nat) : ℝ) ≤ 11 / 5 * B := by
  have h := (hf.bound i hi).2
  rw [hw.xmax i hi] at h ⊢
  exact limit_near R (side_pos R hw hf hi) (Nat.cast_nonneg _) (hf.bound i hi).1 h

/-- The scaled coordinate. -/
theorem q_near {v : ℝ} (h1 : at' g.xmin i ≤ v) (h2 : v ≤ at' g.xmax i) :
    |g.sideLength * fl (fl (v - at' g.xmin i) / g.sideLength) - (v - at' g.xmin i)| ≤ 5 * (u * B) :=
  scaled_near R (side_pos R hw hf hi) (hf.bound i hi).1 (hf.bound i hi).2 h1 h2

theorem q_nonneg {v : ℝ} (h1 : at' g.xmin i ≤ v) : 0 ≤ fl (fl (v - at' g.xmin i) / g.sideLength) :=
  R.nonneg (div_nonneg (R.nonneg (by linarith)) (side_pos R hw hf hi).le)

theorem q_mono {v w : ℝ} (h : v ≤ w) : fl (fl (v - at' g.xmin i) / g.sideLength) ≤ fl (fl (w - at' g.xmin i) / g.sideLength) :=
  R.mono (div_le_div_of_nonneg_right (R.mono (by linarith)) (side_pos R hw hf hi).le)

theorem floor_le {v : ℝ} (h1 : at' g.xmin i ≤ v) (h2 : v ≤ at' g.xmax i) :
    ⌊fl (fl (v - at' g.xmin i) / g.sideLength)⌋₊ ≤ g.ndiv.getD i 0 := by
  have hs := side_pos R hw hf hi
  have a := abs_le.1 (q_near R hw hf hi h1 h2)
  have b := abs_le.1 (xmax_near R hw hf hi).1
  have hE := bound_nonneg R hw hf hi
  have hst := hf.side
  have ht := hw.tolPos
  rw [← Nat.lt_succ_iff, Nat.floor_lt (q_nonneg R hw hf hi h1)]
  push_cast
  by_contra hc
  rw [not_lt] at hc
  have := mul_le_mul_of_nonneg_left hc hs.le
  nlinarith

theorem rIdx_lt {v : ℝ} (h1 : at' g.xmin i ≤ v) (h2 : v ≤ at' g.xmax i) : rIdx fl g i v < g.ndiv.getD i 0 := by
  have := floor_le R hw hf hi h1 h2
  have := hw.ndivPos i hi
  unfold rIdx
  split <;> omega

theorem rIdx_mono {v w : ℝ} (h1 : at' g.xmin i ≤ v) (h : v ≤ w) (h2 : w ≤ at' g.xmax i) : rIdx fl g i v ≤ rIdx fl g i w := by
  have a := floor_le R hw hf hi (h1.trans h) h2
  have b := Nat.floor_mono (q_mono R hw hf hi h)
  have := hw.ndivPos i hi
  unfold rIdx
  split <;> split <;> omega

/-- A coordinate is in the slice of its index, up to rounding. -/
theorem rIdx_box {v : ℝ} (h1 : at' g.xmin i ≤ v) (h2 : v ≤ at' g.xmax i) :
    g.sideLength * rIdx fl g i v ≤ v - at' g.xmin i + 5 * (u * B) ∧ v - at' g.xmin i ≤ g.sideLength * (rIdx fl g i v + 1) + 11 * (u * B) := by
  have hs := side_pos R hw hf hi
  have a := abs_le.1 (q_near R hw hf hi h1 h2)
  have hE := bound_nonneg R hw hf hi
  have f1 := Nat.floor_le (q_nonneg R hw hf hi h1)
  have f2 := Nat.lt_floor_add_one (fl (fl (v - at' g.xmin i) / g.sideLength))
  have hp := hw.ndivPos i hi
  have b := abs_le.1 (xmax_near R hw hf hi).1
  unfold rIdx
  split
  · rename_i hc
    rw [hc] at f1
    have e : ((⌊fl (fl (v - at' g.xmin i) / g.sideLength)⌋₊ - 1 : Nat) : ℝ) = ((g.ndiv.getD i 0 : Nat) : ℝ) - 1 := by
      rw [hc, Nat.cast_sub hp, Nat.cast_one]
    rw [e]
    have := mul_le_mul_of_nonneg_left f1 hs.le
    constructor
    · nlinarith
    · rw [sub_add_cancel]; nlinarith
  · have g1 := mul_le_mul_of_nonneg_left f1 hs.le
    have g2 := mul_le_mul_of_nonneg_left f2.le hs.le
    constructor <;> linarith

/-- One of the two halo coordinates is inside and in the same slice as the query coordinate. -/
theorem halo_dim {v q : ℝ} (h1 : at' g.xmin i ≤ v) (h2 : v ≤ at' g.xmax i) (q1 : at' g.xmin i ≤ q) (q2 : q ≤ at' g.xmax i)
    (hq : IsFloat fl q) (hv : |q - v| ≤ g.tolerance) :
    ∃ w, (w = fl (v - g.tolerance) ∨ w = fl (v + g.tolerance)) ∧ at' g.xmin i ≤ w ∧ w ≤ at' g.xmax i ∧ rIdx fl g i w = rIdx fl g i q := by
  have hs := side_pos R hw hf hi
  have ht := hw.tolPos
  have hst := hf.side
  have hE := bound_nonneg R hw hf hi
  have hp := hw.ndivPos i hi
  have hp' : (1 : ℝ) ≤ ((g.ndiv.getD i 0 : Nat) : ℝ) := by exact_mod_cast hp
  obtain ⟨ab, hsn⟩ := xmax_near R hw hf hi
  rw [abs_le] at ab hv
  have hlen : g.sideLength ≤ g.sideLength * ((g.ndiv.getD i 0 : Nat) : ℝ) := by nlinarith
  obtain ⟨b1, b2⟩ := hf.bound i hi
  rw [abs_le] at b1 b2
  have near : ∀ z, |z| ≤ 3 * B → |fl z - z| ≤ 3 * (u * B) := fun z hz => (R.near hz).trans_eq (by ring)
  have n1 := near (v - g.tolerance) (by rw [abs_le]; constructor <;> linarith)
  have n2 := near (v + g.tolerance) (by rw [abs_le]; constructor <;> linarith)
  have m1 : fl (v - g.tolerance) ≤ q := by rw [← (show fl q = q from hq)]; exact R.mono (by linarith)
  have m2 : q ≤ fl (v + g.tolerance) := by rw [← (show fl q = q from hq)]; exact R.mono (by linarith)
  rw [abs_le] at n1 n2
  set lo := fl (v - g.tolerance)
  set hi' := fl (v + g.tolerance)
  by_cases hlo : at' g.xmin i ≤ lo
  · have r1 := rIdx_mono R hw hf hi hlo m1 q2
    have c := (rIdx_box R hw hf hi hlo (m1.trans q2)).2
    by_cases hhi : hi' ≤ at' g.xmax i
    · have r2 := rIdx_mono R hw hf hi q1 m2 hhi
      have b := (rIdx_box R hw hf hi (q1.trans m2) hhi).1
      have hd : rIdx fl g i hi' ≤ rIdx fl g i lo + 1 := by
        by_contra hc
        rw [not_le] at hc
        have : (rIdx fl g i lo : ℝ) + 2 ≤ (rIdx fl g i hi' : ℝ) := by exact_mod_cast hc
        nlinarith
      have hor : rIdx fl g i lo = rIdx fl g i q ∨ rIdx fl g i hi' = rIdx fl g i q := by omega
      rcases hor with h | h
      · exact ⟨lo, .inl rfl, hlo, m1.trans q2, h⟩
      · exact ⟨hi', .inr rfl, q1.trans m2, hhi, h⟩
    · rw [not_le] at hhi
      refine ⟨lo, .inl rfl, hlo, m1.trans q2, le_antisymm r1 ?_⟩
      have hlt := rIdx_lt R hw hf hi q1 q2
      by_contra hc
      rw [not_le] at hc
      have h3 : rIdx fl g i lo + 2 ≤ g.ndiv.getD i 0 := by omega
      have h3' : (rIdx fl g i lo : ℝ) + 2 ≤ ((g.ndiv.getD i 0 : Nat) : ℝ) := by exact_mod_cast h3
      nlinarith
  · rw [not_le] at hlo
    have hhi : hi' ≤ at' g.xmax i := by linarith
    refine ⟨hi', .inr rfl, q1.trans m2, hhi, le_antisymm ?_ (rIdx_mono R hw hf hi q1 m2 hhi)⟩
    have b := (rIdx_box R hw hf hi (q1.trans m2) hhi).1
    by_contra hc
    rw [not_le] at hc
    have h1' : 1 ≤ rIdx fl g i hi' := by omega
    have : (1 : ℝ) ≤ (rIdx fl g i hi' : ℝ) := by exact_mod_cast h1'
    nlinarith

end index

end Rounded
end
end Gemlab
