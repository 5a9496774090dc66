import Verif.Proofs.RoundedCells
import Verif.Proofs.Rounded

/-! Rounding errors in `GridCells::new` and `calc_container_key`. -/
namespace Gemlab.Rounded.Cells
noncomputable section
open Classical
open Gemlab.Mesh

variable {fl : ℝ → ℝ} {u : ℝ}

/-- The limits of the grid in one direction: `x0` and `x1` are the limits of the mesh, `b` is the border. -/
theorem limits (R : Rounding fl u) {x0 x1 b M side : ℝ} (f0 : IsFloat fl x0) (f1 : IsFloat fl x1) (h : x0 ≤ x1) (h0 : |x0| ≤ M) (h1 : |x1| ≤ M) (hb : 0 < b)
    (hB : 10 * (u * (M + b)) ≤ b) (hs : 0 < side) :
    fl (x0 - b) ≤ x0 ∧ fl (x0 - b) < fl (x1 + b) ∧ x1 - fl (x0 - b) ≤ 21 / 10 * (M + b) ∧
      x1 ≤ fl (fl (x0 - b) + fl (side * fl ((⌈fl (fl (fl (x1 + b) - fl (x0 - b)) / side)⌉₊ : Nat) : ℝ))) := by
  obtain ⟨u0, u1⟩ := R.small
  have hM : 0 ≤ M := (abs_nonneg _).trans h0
  have b0 := abs_le.1 h0
  have b1 := abs_le.1 h1
  have hK : 0 ≤ u * (M + b) := by positivity
  have hK1 : u * (M + b) ≤ 1 / 100 * (M + b) := mul_le_mul_of_nonneg_right u1 (by linarith)
  have e0 := abs_le.1 (R.near (x := x0 - b) (M := M + b) (by rw [abs_le]; constructor <;> linarith))
  have e1 := abs_le.1 (R.near (x := x1 + b) (M := M + b) (by rw [abs_le]; constructor <;> linarith))
  have l0 : fl (x0 - b) ≤ x0 := by
    have := R.mono (show x0 - b ≤ x0 by linarith)
    rwa [show fl x0 = x0 from f0] at this
  set X0 := fl (x0 - b)
  set X1 := fl (x1 + b)
  have hlt : X0 < X1 := by linarith
  refine ⟨l0, hlt, by linarith, ?_⟩
  have hD : 0 ≤ X1 - X0 := by linarith
  have d1 := R.lower hD
  have hd0 := R.nonneg hD
  have q1 := R.lower (div_nonneg hd0 hs.le)
  have n1 := Nat.le_ceil (fl (fl (X1 - X0) / side))
  set n := ((⌈fl (fl (X1 - X0) / side)⌉₊ : Nat) : ℝ)
  have hn : 0 ≤ n := Nat.cast_nonneg _
  have N1 := R.lower hn
  have hN := R.nonneg hn
  have w1 := R.lower (mul_nonneg hs.le hN)
  have c1 : (1 - u) * fl (X1 - X0) ≤ side * n := by
    have : (1 - u) * (fl (X1 - X0) / side) ≤ n := q1.trans n1
    rw [← mul_div_assoc, div_le_iff₀ hs] at this
    linarith
  have c2 : (1 - u) * (side * n) ≤ side * fl n := by
    have := mul_le_mul_of_nonneg_left N1 hs.le
    linarith
  have p : 0 ≤ 1 - u := by linarith
  have c3 : (1 - u) * ((1 - u) * ((1 - u) * ((1 - u) * (X1 - X0)))) ≤ fl (side * fl n) := by
    refine le_trans (mul_le_mul_of_nonneg_left ?_ p) w1
    refine le_trans (mul_le_mul_of_nonneg_left ?_ p) c2
    exact le_trans (mul_le_mul_of_nonneg_left d1 p) c1
  have c4 : (1 - 4 * u) * (X1 - X0) ≤ fl (side * fl n) := by
    refine le_trans ?_ c3
    have : (1 - 4 * u) ≤ (1 - u) * ((1 - u) * ((1 - u) * (1 - u))) := by nlinarith [mul_nonneg u0 u0, mul_nonneg (mul_nonneg u0 u0) p]
    have := mul_le_mul_of_nonneg_right this hD
    linarith
  have hDle : X1 - X0 ≤ 202 / 100 * (M + b) := by linarith
  have c5 : u * (X1 - X0) ≤ 202 / 100 * (u * (M + b)) := by
    have := mul_le_mul_of_nonneg_left hDle u0; linarith
  have fin : x1 ≤ X0 + fl (side * fl n) := by linarith
  have := R.mono fin
  rwa [show fl x1 = x1 from f1] at this

/-- The index (before the correction at the upper limit) along one direction. -/
def rawIdx (fl : ℝ → ℝ) (side x0 v : ℝ) : Nat := ⌊fl (fl (v - x0) / side)⌋₊

theorem rawIdx_mono (R : Rounding fl u) {side x0 v w : ℝ} (hs : 0 < side) (h : v ≤ w) : rawIdx fl side x0 v ≤ rawIdx fl side x0 w :=
  Nat.floor_mono (R.mono (div_le_div_of_nonneg_right (R.mono (by linarith)) hs.le))

/-- An interval not longer than the largest extent `L` meets at most two containers, in spite of rounding. -/
theorem rawIdx_gap (R : Rounding fl u) {x0 a b L t K : ℝ} (h0 : x0 ≤ a) (hab : a ≤ b) (hE : fl (b - a) ≤ L) (ht : 0 < t) (hK : b - x0 ≤ 21 / 10 * K)
    (hT : 5 * (u * K) ≤ t) : 0 < fl (L + fl (2 * t)) ∧ rawIdx fl (fl (L + fl (2 * t))) x0 b ≤ rawIdx fl (fl (L + fl (2 * t))) x0 a + 1 := by
  obtain ⟨u0, u1⟩ := R.small
  have p : 0 < 1 - u := by linarith
  have hw : 0 ≤ b - a := by linarith
  have hL : 0 ≤ L := (R.nonneg hw).trans hE
  have ht2 := R.lower (x := 2 * t) (by linarith)
  have ht3 := R.pos (x := 2 * t) (by linarith)
  have hs0 := R.lower (x := L + fl (2 * t)) (by linarith)
  have hs : 0 < fl (L + fl (2 * t)) := R.pos (by linarith)
  refine ⟨hs, ?_⟩
  set side := fl (L + fl (2 * t))
  have ha : 0 ≤ a - x0 := by linarith
  have hb : 0 ≤ b - x0 := by linarith
  have a1 := R.lower ha
  have a0 := R.nonneg ha
  have a2 := R.lower (div_nonneg a0 hs.le)
  have b1 := R.upper hb
  have b0 := R.nonneg hb
  have b2 := R.upper (div_nonneg b0 hs.le)
  have wl := (R.lower hw).trans hE
  have key : fl (fl (b - x0) / side) < fl (fl (a - x0) / side) + 1 := by
    have A : (1 - u) * (1 - u) * (a - x0) / side ≤ fl (fl (a - x0) / side) := by
      refine le_trans ?_ a2
      rw [mul_assoc, mul_div_assoc]
      exact mul_le_mul_of_nonneg_left (div_le_div_of_nonneg_right a1 hs.le) p.le
    have B : fl (fl (b - x0) / side) ≤ (1 + u) * (1 + u) * (b - x0) / side := by
      refine b2.trans ?_
      rw [mul_assoc, mul_div_assoc (1 + u)]
      exact mul_le_mul_of_nonneg_left (div_le_div_of_nonneg_right b1 hs.le) (by linarith)
    refine lt_of_le_of_lt B (lt_of_lt_of_le ?_ (add_le_add_left A 1))
    rw [div_add_one hs.ne']
    refine div_lt_div_of_pos_right ?_ hs
    have e : (1 + u) * (1 + u) * (b - x0) = (1 - u) * (1 - u) * (a - x0) + (1 - u) * ((1 - u) * (b - a)) + 4 * u * (b - x0) := by ring
    rw [e]
    have s1 : (1 - u) * ((1 - u) * (b - a)) ≤ (1 - u) * L := mul_le_mul_of_nonneg_left wl p.le
    have s2 : u * (b - x0) ≤ u * (21 / 10 * K) := mul_le_mul_of_nonneg_left hK u0
    have s3 : (1 - u) * L + (1 - u) * ((1 - u) * (2 * t)) ≤ side := by
      refine le_trans ?_ hs0
      have := mul_le_mul_of_nonneg_left ht2 p.le
      linarith
    have s4 : 196 / 100 * t ≤ (1 - u) * ((1 - u) * (2 * t)) := by nlinarith [mul_nonneg u0 u0]
    nlinarith
  calc rawIdx fl side x0 b ≤ ⌊fl (fl (a - x0) / side) + 1⌋₊ := Nat.floor_mono key.le
    _ = _ := Nat.floor_add_one (R.nonneg (div_nonneg a0 hs.le))

/-- Index along one direction. -/
def axIdx (fl : ℝ → ℝ) (side x0 : ℝ) (n : Nat) (v : ℝ) : Nat := if rawIdx fl side x0 v = n then rawIdx fl side x0 v - 1 else rawIdx fl side x0 v

theorem axIdx_between (R : Rounding fl u) {side x0 a b v : ℝ} {n : Nat} (hs : 0 < side) (hg : rawIdx fl side x0 b ≤ rawIdx fl side x0 a + 1)
    (hav : a ≤ v) (hvb : v ≤ b) : axIdx fl side x0 n v = axIdx fl side x0 n a ∨ axIdx fl side x0 n v = axIdx fl side x0 n b := by
  have m1 := rawIdx_mono R (x0 := x0) hs hav
  have m2 := rawIdx_mono R (x0 := x0) hs hvb
  have : rawIdx fl side x0 v = rawIdx fl side x0 a ∨ rawIdx fl side x0 v = rawIdx fl side x0 b := by omega
  unfold axIdx
  rcases this with h | h <;> rw [h] <;> simp

theorem key2 (side : ℝ) (ndiv : List Nat) (xmin x : List ℝ) : containerKey fl 2 side ndiv xmin x =
    axIdx fl side (at' xmin 0) (ndiv.getD 0 0) (at' x 0) + axIdx fl side (at' xmin 1) (ndiv.getD 1 0) (at' x 1) * ndiv.getD 0 0 := rfl

theorem key3 (side : ℝ) (ndiv : List Nat) (xmin x : List ℝ) : containerKey fl 3 side ndiv xmin x =
    axIdx fl side (at' xmin 0) (ndiv.getD 0 0) (at' x 0) + axIdx fl side (at' xmin 1) (ndiv.getD 1 0) (at' x 1) * ndiv.getD 0 0 +
      axIdx fl side (at' xmin 2) (ndiv.getD 2 0) (at' x 2) * ndiv.getD 0 0 * ndiv.getD 1 0 := rfl

open Gemlab.GridCells (corners)

/-- The container of a point of the box is that of one of the corners. -/
theorem key_mem (R : Rounding fl u) {ndim : Nat} (hd : ndim = 2 ∨ ndim = 3) {side : ℝ} (hs : 0 < side) {ndiv : List Nat} {xmin x : List ℝ}
    {b : List ℝ × List ℝ} (hx : ∀ i < ndim, at' b.1 i ≤ at' x i ∧ at' x i ≤ at' b.2 i)
    (hg : ∀ i < ndim, rawIdx fl side (at' xmin i) (at' b.2 i) ≤ rawIdx fl side (at' xmin i) (at' b.1 i) + 1) :
    ∃ c ∈ corners ndim b, containerKey fl ndim side ndiv xmin x = containerKey fl ndim side ndiv xmin c := by
  have ax : ∀ i < ndim, ∃ e ∈ [b.1, b.2], axIdx fl side (at' xmin i) (ndiv.getD i 0) (at' x i) = axIdx fl side (at' xmin i) (ndiv.getD i 0) (at' e i) := by
    intro i hi
    rcases axIdx_between R hs (n := ndiv.getD i 0) (hg i hi) (hx i hi).1 (hx i hi).2 with h | h
    · exact ⟨b.1, by simp, h⟩
    · exact ⟨b.2, by simp, h⟩
  rcases hd with rfl | rfl
  · obtain ⟨r, hr, e0⟩ := ax 0 (by omega)
    obtain ⟨s, hs', e1⟩ := ax 1 (by omega)
    refine ⟨[at' r 0, at' s 1], ?_, ?_⟩
    · unfold corners
      refine List.mem_flatMap.mpr ⟨r, hr, List.mem_flatMap.mpr ⟨s, hs', ?_⟩⟩
      simp
    · rw [key2, key2, e0, e1]; rfl
  · obtain ⟨r, hr, e0⟩ := ax 0 (by omega)
    obtain ⟨s, hs', e1⟩ := ax 1 (by omega)
    obtain ⟨t, ht, e2⟩ := ax 2 (by omega)
    refine ⟨[at' r 0, at' s 1, at' t 2], ?_, ?_⟩
    · unfold corners
      refine List.mem_flatMap.mpr ⟨r, hr, List.mem_flatMap.mpr ⟨s, hs', ?_⟩⟩
      rw [List.mem_map]
      exact ⟨t, by simpa using ht, by simp⟩
    · rw [key3, key3, e0, e1, e2]; rfl

end
end Gemlab.Rounded.Cells
