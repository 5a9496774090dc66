import Verif.Spec.InverseMap
import Verif.Proofs.PolyCurve
import Verif.Proofs.Definite
import Mathlib.LinearAlgebra.Matrix.ToLinearEquiv
import Mathlib.Analysis.Calculus.Deriv.MeanValue

/-!
# The iterations of `approximate_ksi`
-/
namespace Gemlab.InverseMap
noncomputable section
open Gemlab.Spec.Integ Gemlab.Spec.InverseMap Gemlab.Shapes Gemlab.Scratchpad

variable {inv : MatInverse} {pad : Scratchpad} {x ξ η : Nat → ℝ} {tol : ℝ}

/-- Two pads of the same element. -/
def Same (p q : Scratchpad) : Prop := q.kind = p.kind ∧ q.spaceNdim = p.spaceNdim ∧ q.X = p.X ∧ q.okXxt = p.okXxt

theorem Same.jac {p q : Scratchpad} (h : Same p q) (ξ : Nat → ℝ) : jac q ξ = jac p ξ := by
  funext i j
  unfold Spec.Integ.jac
  rw [h.1, h.2.2.1]

theorem Same.trans {p q r : Scratchpad} (h : Same p q) (h' : Same q r) : Same p r :=
  ⟨h'.1.trans h.1, h'.2.1.trans h.2.1, h'.2.2.1.trans h.2.2.1, h'.2.2.2.trans h.2.2.2⟩

/-- `approximate_ksi` stops when the residual is small. -/
theorem loop_stop (hok : pad.okXxt = true) (h : residualNorm pad x ξ ≤ tol) (fuel it : Nat) :
    ksiLoop inv x tol (fuel + 1) it pad ξ = .ok (it, ξ, pad.calcInterp ξ) := by
  unfold ksiLoop
  rw [calcCoords_ok hok, Res.bind_ok]
  dsimp only
  rw [if_pos]
  unfold residualNorm at h
  simp only [sq] at h
  exact h

/-- Otherwise, it makes a step of Newton's method. -/
theorem loop_step (hinv : InverseSpec inv) (hok : pad.okXxt = true) (hk : pad.kind.ndim = pad.spaceNdim) (h : ¬ residualNorm pad x ξ ≤ tol)
    (hi : ∃ r, inv pad.spaceNdim (jac pad ξ) = .ok r) (fuel it : Nat) :
    ∃ pad' η, ksiLoop inv x tol (fuel + 1) it pad ξ = ksiLoop inv x tol fuel (it + 1) pad' η ∧ Same pad pad' ∧ NewtonStep pad x ξ η := by
  obtain ⟨⟨d, ji⟩, hi⟩ := hi
  have hcj : calcJacobian inv (pad.calcInterp ξ) ξ = .ok (d, { (pad.calcInterp ξ).fillJacobian ξ with invJacobian := ji }) := by
    unfold calcJacobian
    rw [if_neg (by simp [Scratchpad.calcInterp, hok])]
    dsimp only
    rw [if_pos (show ((pad.calcInterp ξ).fillJacobian ξ).kind.ndim = ((pad.calcInterp ξ).fillJacobian ξ).spaceNdim from hk),
      show inv ((pad.calcInterp ξ).fillJacobian ξ).spaceNdim ((pad.calcInterp ξ).fillJacobian ξ).jacobian = .ok (d, ji) from hi]
    rfl
  refine ⟨{ (pad.calcInterp ξ).fillJacobian ξ with invJacobian := ji },
    fun j => if j < pad.kind.ndim then ξ j + ∑ l ∈ Finset.range pad.spaceNdim, ji j l * (x l - Shapes.calcCoords pad.kind pad.X ξ l) else ξ j, ?_, ⟨rfl, rfl, rfl, rfl⟩, ?_⟩
  · conv_lhs => unfold ksiLoop
    rw [calcCoords_ok hok, Res.bind_ok]
    dsimp only
    rw [if_neg, hcj, Res.bind_ok]
    · rfl
    unfold residualNorm at h
    simp only [sq] at h
    exact h
  · intro i hi'
    have hr := (hinv _ _ _ _ hi).2
    change ∑ m ∈ Finset.range pad.kind.nnode, pad.X m i * Shapes.calcInterp pad.kind ξ m + ∑ j ∈ Finset.range pad.spaceNdim, jac pad ξ i j *
      ((if j < pad.kind.ndim then ξ j + ∑ l ∈ Finset.range pad.spaceNdim, ji j l * (x l - Shapes.calcCoords pad.kind pad.X ξ l) else ξ j) - ξ j) = x i
    have e : ∑ j ∈ Finset.range pad.spaceNdim, jac pad ξ i j *
        ((if j < pad.kind.ndim then ξ j + ∑ l ∈ Finset.range pad.spaceNdim, ji j l * (x l - Shapes.calcCoords pad.kind pad.X ξ l) else ξ j) - ξ j) =
        x i - Shapes.calcCoords pad.kind pad.X ξ i := by
      rw [Finset.sum_congr rfl fun j hj => by
        rw [if_pos (by rw [hk]; exact Finset.mem_range.1 hj), add_sub_cancel_left, Finset.mul_sum], Finset.sum_comm,
        Finset.sum_congr rfl fun l hl => by
          rw [Finset.sum_congr rfl fun j _ => (mul_assoc _ _ _).symm, ← Finset.sum_mul, hr i hi' l (Finset.mem_range.1 hl)]]
      simp only [ite_mul, one_mul, zero_mul, Finset.sum_ite_eq, Finset.mem_range, hi', if_true]
    rw [e]
    change Shapes.calcCoords pad.kind pad.X ξ i + (x i - Shapes.calcCoords pad.kind pad.X ξ i) = x i
    ring

/-- The iterations succeed if the residual is small after `n` steps. -/
theorem loop_run (hinv : InverseSpec inv) {p0 : Scratchpad} (hok : p0.okXxt = true) (hk : p0.kind.ndim = p0.spaceNdim) (P : Nat → (Nat → ℝ) → Prop)
    (hi : ∀ k ξ, P k ξ → ¬ residualNorm p0 x ξ ≤ tol → ∃ r, inv p0.spaceNdim (jac p0 ξ) = .ok r)
    (hP : ∀ k ξ η, P k ξ → ¬ residualNorm p0 x ξ ≤ tol → NewtonStep p0 x ξ η → P (k + 1) η) (n : Nat) (hn : ∀ ξ, P n ξ → residualNorm p0 x ξ ≤ tol)
    (k : Nat) (hkn : k ≤ n) (pad : Scratchpad) (hs : Same p0 pad) (ξ : Nat → ℝ) (h : P k ξ) (fuel : Nat) (hf : n - k < fuel) :
    ∃ it η pad', ksiLoop inv x tol fuel k pad ξ = .ok (it, η, pad') ∧ it ≤ n ∧ P it η ∧ residualNorm p0 x η ≤ tol := by
  have hres (ξ : Nat → ℝ) : residualNorm pad x ξ = residualNorm p0 x ξ := by unfold residualNorm; rw [hs.1, hs.2.1, hs.2.2.1]
  obtain ⟨fuel, rfl⟩ : ∃ f, fuel = f + 1 := ⟨fuel - 1, by omega⟩
  by_cases hr : residualNorm p0 x ξ ≤ tol
  · exact ⟨k, ξ, _, loop_stop (hs.2.2.2.trans hok) (by rw [hres]; exact hr) fuel k, hkn, h, hr⟩
  · have hlt : k < n := by
      rcases Nat.lt_or_ge k n with h1 | h1
      · exact h1
      · exact absurd (hn ξ (by rw [show n = k by omega]; exact h)) hr
    obtain ⟨pad', η, h1, h2, h3⟩ := loop_step hinv (hs.2.2.2.trans hok) (by rw [hs.1, hs.2.1]; exact hk) (by rw [hres]; exact hr)
      (by rw [hs.2.1, hs.jac]; exact hi k ξ h hr) fuel k
    have h3' : NewtonStep p0 x ξ η := by
      intro i hi
      have := h3 i (by rw [hs.2.1]; exact hi)
      rw [hs.jac, hs.1, hs.2.1, hs.2.2.1] at this
      exact this
    rw [h1]
    exact loop_run hinv hok hk P hi hP n hn (k + 1) hlt pad' (hs.trans h2) η (hP k ξ η h hr h3') fuel (by omega)
termination_by n - k

/-! ## The first guess -/

theorem foldl_min_le (f : Nat → ℝ) (l : List Nat) (b : ℝ) : l.foldl (fun acc m => min acc (f m)) b ≤ b ∧ ∀ m ∈ l, l.foldl (fun acc m => min acc (f m)) b ≤ f m := by
  induction l generalizing b with
  | nil => simp
  | cons a l ih =>
    obtain ⟨h1, h2⟩ := ih (min b (f a))
    refine ⟨h1.trans (min_le_left _ _), fun m hm => ?_⟩
    rcases List.mem_cons.1 hm with rfl | hm
    · exact h1.trans (min_le_right _ _)
    · exact h2 m hm

theorem le_foldl_max (f : Nat → ℝ) (l : List Nat) (b : ℝ) : b ≤ l.foldl (fun acc m => max acc (f m)) b ∧ ∀ m ∈ l, f m ≤ l.foldl (fun acc m => max acc (f m)) b := by
  induction l generalizing b with
  | nil => simp
  | cons a l ih =>
    obtain ⟨h1, h2⟩ := ih (max b (f a))
    refine ⟨(le_max_left _ _).trans h1, fun m hm => ?_⟩
    rcases List.mem_cons.1 hm with rfl | hm
    · exact (le_max_right _ _).trans h1
    · exact h2 m hm

/-- The guess is in the box of local coordinates. -/
theorem guess_mem (big low : ℝ) (hx : InNodeBox pad x) {j : Nat} (hj : j < pad.spaceNdim) :
    ksiMin pad.kind ≤ guessKsi big low pad x j ∧ guessKsi big low pad x j ≤ ksiMax := by
  obtain ⟨⟨m, hm, h1⟩, n, hn, h2⟩ := hx j hj
  have a1 : nodeMin big pad j ≤ x j := ((foldl_min_le (fun m => pad.xxt j m) _ big).2 m (List.mem_range.2 hm)).trans h1
  have a2 : x j ≤ nodeMax low pad j := le_trans h2 ((le_foldl_max (fun m => pad.xxt j m) _ low).2 n (List.mem_range.2 hn))
  have b0 : 0 ≤ (x j - nodeMin big pad j) / (nodeMax low pad j - nodeMin big pad j) := div_nonneg (by linarith) (by linarith)
  have b1 : (x j - nodeMin big pad j) / (nodeMax low pad j - nodeMin big pad j) ≤ 1 := div_le_one_of_le₀ (by linarith) (by linarith)
  unfold guessKsi ksiMin ksiMax
  by_cases ht : pad.kind.isTriOrTet = true
  · simp only [ht, if_true]
    rw [one_mul]
    constructor <;> linarith
  · simp only [ht, Bool.false_eq_true, if_false]
    rw [mul_div_assoc]
    constructor <;> linarith

/-! ## Contraction -/

theorem coords_line (pad : Scratchpad) (hk : pad.kind.ndim = pad.spaceNdim) (C : Nat → ℝ) (ξ η : Nat → ℝ) (i : Nat) :
    ∃ c ∈ Set.Ioo (0 : ℝ) 1, (∑ k ∈ Finset.range pad.spaceNdim, C k * (Shapes.calcCoords pad.kind pad.X η k - Shapes.calcCoords pad.kind pad.X ξ k)) - (η i - ξ i) =
      (∑ j ∈ Finset.range pad.spaceNdim, (∑ k ∈ Finset.range pad.spaceNdim, C k * jac pad (fun l => ξ l + c * (η l - ξ l)) k j) * (η j - ξ j)) - (η i - ξ i) := by
  have hd (t : ℝ) : HasDerivAt (fun t => (∑ k ∈ Finset.range pad.spaceNdim, C k * Shapes.calcCoords pad.kind pad.X (fun l => ξ l + t * (η l - ξ l)) k))
      (∑ k ∈ Finset.range pad.spaceNdim, C k * ∑ j ∈ Finset.range pad.spaceNdim, jac pad (fun l => ξ l + t * (η l - ξ l)) k j * (η j - ξ j)) t := by
    refine HasDerivAt.fun_sum fun k _ => HasDerivAt.const_mul _ ?_
    have := calcCoords_curve pad.kind pad.X (γ := fun t l => ξ l + t * (η l - ξ l)) (t := t) (fun i _ => Definite.line_deriv _ _ _ i) k
    rw [hk] at this
    exact this
  obtain ⟨c, hc, h⟩ := exists_hasDerivAt_eq_slope _ _ (zero_lt_one (α := ℝ)) (fun t _ => (hd t).continuousAt.continuousWithinAt) (fun t _ => hd t)
  refine ⟨c, hc, ?_⟩
  congr 1
  have e1 : (fun l => ξ l + (1 : ℝ) * (η l - ξ l)) = η := by funext l; ring
  have e0 : (fun l => ξ l + (0 : ℝ) * (η l - ξ l)) = ξ := by funext l; ring
  rw [e1, e0] at h
  rw [sub_zero, div_one, ← Finset.sum_sub_distrib] at h
  rw [Finset.sum_congr rfl fun k _ => mul_sub _ _ _, ← h]
  generalize jac pad (fun l => ξ l + c * (η l - ξ l)) = J
  simp only [Finset.sum_mul, Finset.mul_sum]
  rw [Finset.sum_comm]
  exact Finset.sum_congr rfl fun k _ => Finset.sum_congr rfl fun j _ => by ring

theorem exists_max (d : Nat) (hd : 0 < d) (y : Nat → ℝ) : ∃ i < d, ∀ j < d, |y j| ≤ |y i| := by
  obtain ⟨i, hi, h⟩ := Finset.exists_max_image (Finset.range d) (fun j => |y j|) ⟨0, Finset.mem_range.2 hd⟩
  exact ⟨i, Finset.mem_range.1 hi, fun j hj => h j (Finset.mem_range.2 hj)⟩

theorem row_bound {d : Nat} {a y : Nat → ℝ} {ε r : ℝ} (hr : 0 ≤ r) (ha : ∑ j ∈ Finset.range d, |a j| ≤ ε) (hy : ∀ j < d, |y j| ≤ r) : |∑ j ∈ Finset.range d, a j * y j| ≤ ε * r := by
  refine (Finset.abs_sum_le_sum_abs _ _).trans ?_
  refine le_trans (Finset.sum_le_sum fun j hj => ?_) (by rw [← Finset.sum_mul]; exact mul_le_mul_of_nonneg_right ha hr)
  rw [abs_mul]
  exact mul_le_mul_of_nonneg_left (hy j (Finset.mem_range.1 hj)) (abs_nonneg _)

theorem delta_sum {d i : Nat} (hi : i < d) (y : Nat → ℝ) : ∑ j ∈ Finset.range d, (if i = j then 1 else 0) * y j = y i := by
  simp [hi]

theorem abs_le_of {a b c : ℝ} (h : a = b - c) : |a| ≤ |b| + |c| := by rw [h]; exact abs_sub _ _

/-- `I + E` with `|E| ≤ ε < 1` is injective. -/
theorem inj_bound {d : Nat} (hd : 0 < d) {A : Nat → Nat → ℝ} {ε s : ℝ} (hA : ∀ i < d, ∑ j ∈ Finset.range d, |A i j - if i = j then 1 else 0| ≤ ε) {y : Nat → ℝ}
    (h : ∀ i < d, |∑ j ∈ Finset.range d, A i j * y j| ≤ s) : ∀ i < d, (1 - ε) * |y i| ≤ s := by
  obtain ⟨m, hm, hmax⟩ := exists_max d hd y
  have h1 : |y m| ≤ s + ε * |y m| := by
    have e : y m = (∑ j ∈ Finset.range d, A m j * y j) - ∑ j ∈ Finset.range d, (A m j - if m = j then 1 else 0) * y j := by
      simp only [sub_mul, Finset.sum_sub_distrib, delta_sum hm]; ring
    calc |y m| ≤ |∑ j ∈ Finset.range d, A m j * y j| + |∑ j ∈ Finset.range d, (A m j - if m = j then 1 else 0) * y j| := abs_le_of e
      _ ≤ s + ε * |y m| := add_le_add (h m hm) (row_bound (abs_nonneg _) (hA m hm) hmax)
  intro i hi
  by_cases hε : ε ≤ 1
  · nlinarith [hmax i hi, abs_nonneg (y i)]
  · have := (abs_nonneg _).trans (h m hm)
    nlinarith [abs_nonneg (y i)]

/-- The elements of the box at distance at most `r`. -/
theorem coords_bound (hk : pad.kind.ndim = pad.spaceNdim) {C : Nat → Nat → ℝ} {R ε r : ℝ} (hA : NearAffine pad C ξ R ε) (hr : r ≤ R) (h0 : 0 ≤ r)
    (h : ∀ j < pad.spaceNdim, |η j - ξ j| ≤ r) {i : Nat} (hi : i < pad.spaceNdim) :
    |(∑ k ∈ Finset.range pad.spaceNdim, C i k * (Shapes.calcCoords pad.kind pad.X η k - Shapes.calcCoords pad.kind pad.X ξ k)) - (η i - ξ i)| ≤ ε * r := by
  obtain ⟨c, hc, e⟩ := coords_line pad hk (C i) ξ η i
  rw [e, ← delta_sum hi fun j => η j - ξ j, ← Finset.sum_sub_distrib, Finset.sum_congr rfl fun j _ => (sub_mul _ _ _).symm]
  refine row_bound h0 (hA _ (fun j hj => ?_) i hi) h
  rw [add_sub_cancel_left, abs_mul, abs_of_pos hc.1]
  exact le_trans (le_trans (mul_le_of_le_one_left (abs_nonneg _) hc.2.le) (h j hj)) hr

theorem det_ne {d : Nat} (hd : 0 < d) {C J : Nat → Nat → ℝ} {ε : ℝ} (hε : ε < 1)
    (hA : ∀ i < d, ∑ j ∈ Finset.range d, |∑ k ∈ Finset.range d, C i k * J k j - if i = j then 1 else 0| ≤ ε) : detN d J ≠ 0 := by
  intro h0
  obtain ⟨v, hv, h⟩ := Matrix.exists_mulVec_eq_zero_iff.2 h0
  let y : Nat → ℝ := fun j => if h : j < d then v ⟨j, h⟩ else 0
  have hz : ∀ k < d, ∑ j ∈ Finset.range d, J k j * y j = 0 := by
    intro k hk
    have := congrFun h ⟨k, hk⟩
    rw [Matrix.mulVec, dotProduct] at this
    rw [← Fin.sum_univ_eq_sum_range (fun j => J k j * y j) d]
    simpa [y] using this
  have hb := inj_bound hd (A := fun i j => ∑ k ∈ Finset.range d, C i k * J k j) (s := 0) hA (y := y) (fun i hi => by
    simp only [Finset.sum_mul]
    rw [Finset.sum_comm, Finset.sum_eq_zero, abs_zero]
    intro k hk
    rw [Finset.sum_congr rfl fun j _ => mul_assoc _ _ _, ← Finset.mul_sum, hz k (Finset.mem_range.1 hk), mul_zero])
  refine hv (funext fun i => ?_)
  have := hb i i.2
  have h1 : |y i| ≤ 0 := by nlinarith [abs_nonneg (y i)]
  have h2 := abs_eq_zero.1 (le_antisymm h1 (abs_nonneg _))
  simpa [y] using h2

/-- A step of Newton's method reduces the distance. -/
theorem step_bound (hk : pad.kind.ndim = pad.spaceNdim) (hd : 0 < pad.spaceNdim) {C : Nat → Nat → ℝ} {R ε r : ℝ} (hA : NearAffine pad C ξ R ε) (hr : r ≤ R) (h0 : 0 ≤ r)
    (hx : MapsTo pad ξ x) (h : ∀ j < pad.spaceNdim, |η j - ξ j| ≤ r) {ζ : Nat → ℝ} (hs : NewtonStep pad x η ζ) :
    ∀ j < pad.spaceNdim, (1 - ε) * |ζ j - ξ j| ≤ 2 * ε * r := by
  have hE := hA η fun j hj => (h j hj).trans hr
  refine inj_bound hd (A := fun i j => ∑ k ∈ Finset.range pad.spaceNdim, C i k * jac pad η k j) hE fun i hi => ?_
  have e : ∑ j ∈ Finset.range pad.spaceNdim, (∑ k ∈ Finset.range pad.spaceNdim, C i k * jac pad η k j) * (ζ j - ξ j) =
      (∑ j ∈ Finset.range pad.spaceNdim, ((∑ k ∈ Finset.range pad.spaceNdim, C i k * jac pad η k j) - if i = j then 1 else 0) * (η j - ξ j)) -
      ((∑ k ∈ Finset.range pad.spaceNdim, C i k * (Shapes.calcCoords pad.kind pad.X η k - Shapes.calcCoords pad.kind pad.X ξ k)) - (η i - ξ i)) := by
    have h1 : ∑ j ∈ Finset.range pad.spaceNdim, (∑ k ∈ Finset.range pad.spaceNdim, C i k * jac pad η k j) * (ζ j - η j) =
        - ∑ k ∈ Finset.range pad.spaceNdim, C i k * (Shapes.calcCoords pad.kind pad.X η k - Shapes.calcCoords pad.kind pad.X ξ k) := by
      simp only [Finset.sum_mul]
      rw [Finset.sum_comm, ← Finset.sum_neg_distrib]
      refine Finset.sum_congr rfl fun k hk => ?_
      have a := hs k (Finset.mem_range.1 hk)
      have b := hx k (Finset.mem_range.1 hk)
      rw [Finset.sum_congr rfl fun j _ => mul_assoc _ _ _, ← Finset.mul_sum, ← mul_neg]
      congr 1
      change Shapes.calcCoords pad.kind pad.X η k + _ = _ at a
      change Shapes.calcCoords pad.kind pad.X ξ k = _ at b
      linarith
    have h2 : ∀ j, (ζ j - ξ j) = (ζ j - η j) + (η j - ξ j) := fun j => by ring
    simp only [h2, mul_add, Finset.sum_add_distrib, h1, sub_mul, Finset.sum_sub_distrib, delta_sum hi]
    ring
  rw [e]
  refine (abs_sub _ _).trans ?_
  have := row_bound h0 (hE i hi) h
  have := coords_bound hk hA hr h0 h hi
  linarith

end
end Gemlab.InverseMap
