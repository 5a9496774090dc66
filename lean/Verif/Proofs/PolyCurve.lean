import Verif.Proofs.PolyDeriv
import Verif.Proofs.Shapes
import Mathlib.Analysis.Calculus.Deriv.Prod
import Mathlib.Analysis.Calculus.Deriv.Comp
import Mathlib.Algebra.BigOperators.Field

/-! # Chain rule for expressions and shape functions along curves -/
namespace Gemlab.PE

/-- The expression mentions only the first `n` coordinates. -/
def varsLt (n : Nat) : PE → Bool
  | c _ => true
  | x i => decide (i < n)
  | add a b => varsLt n a && varsLt n b
  | sub a b => varsLt n a && varsLt n b
  | mul a b => varsLt n a && varsLt n b
  | neg a => varsLt n a
  | div a b => varsLt n a && varsLt n b

theorem eval_congr_vars {K : Type} [Field K] {n : Nat} {ξ ξ' : Nat → K} (h : ∀ i < n, ξ i = ξ' i) (e : PE) (hv : varsLt n e = true) :
    eval ξ e = eval ξ' e := by
  induction e with
  | c q => rfl
  | x i => exact h i (by simpa [varsLt] using hv)
  | add a b ia ib => simp only [varsLt, Bool.and_eq_true] at hv; simp only [eval, ia hv.1, ib hv.2]
  | sub a b ia ib => simp only [varsLt, Bool.and_eq_true] at hv; simp only [eval, ia hv.1, ib hv.2]
  | mul a b ia ib => simp only [varsLt, Bool.and_eq_true] at hv; simp only [eval, ia hv.1, ib hv.2]
  | neg a ia => simp only [eval, ia hv]
  | div a b ia ib => simp only [varsLt, Bool.and_eq_true] at hv; simp only [eval, ia hv.1, ib hv.2]

theorem hasDerivAt_curve {n : Nat} {γ : ℝ → Nat → ℝ} {γ' : Nat → ℝ} {t : ℝ} (hγ : ∀ i < n, HasDerivAt (fun s => γ s i) (γ' i) t) (e : PE)
    (h : constDen e = true) (hv : varsLt n e = true) :
    HasDerivAt (fun s => eval (γ s) e) (∑ i ∈ Finset.range n, γ' i * eval (γ t) (diff i e)) t := by
  induction e with
  | c q => simpa [eval, diff] using hasDerivAt_const t ((q : ℝ))
  | x j =>
    have hj : j < n := by simpa [varsLt] using hv
    have e1 : ∑ i ∈ Finset.range n, γ' i * eval (γ t) (diff i (x j)) = γ' j := by
      rw [Finset.sum_eq_single j]
      · simp [diff, eval]
      · intro b _ hb
        simp [diff, eval, Ne.symm hb]
      · intro hn; exact absurd (Finset.mem_range.2 hj) hn
    rw [e1]
    exact hγ j hj
  | add a b iha ihb =>
    simp only [constDen, varsLt, Bool.and_eq_true] at h hv
    have := (iha h.1 hv.1).add (ihb h.2 hv.2)
    rw [← Finset.sum_add_distrib] at this
    simp only [← mul_add] at this
    exact this
  | sub a b iha ihb =>
    simp only [constDen, varsLt, Bool.and_eq_true] at h hv
    have := (iha h.1 hv.1).sub (ihb h.2 hv.2)
    rw [← Finset.sum_sub_distrib] at this
    simp only [← mul_sub] at this
    exact this
  | mul a b iha ihb =>
    simp only [constDen, varsLt, Bool.and_eq_true] at h hv
    have := (iha h.1 hv.1).mul (ihb h.2 hv.2)
    rw [Finset.sum_mul, Finset.mul_sum, ← Finset.sum_add_distrib] at this
    refine this.congr_deriv ?_
    apply Finset.sum_congr rfl
    intro i _
    simp only [diff, eval]
    ring
  | neg a iha =>
    have := (iha h hv).neg
    rw [← Finset.sum_neg_distrib] at this
    refine this.congr_deriv ?_
    apply Finset.sum_congr rfl
    intro i _
    simp only [diff, eval]
    ring
  | div a b iha ihb =>
    simp only [constDen, varsLt, Bool.and_eq_true] at h hv
    have := (iha h.1 hv.1).div_const (eval (γ t) b)
    have hf : (fun s => eval (γ s) (div a b)) = fun s => eval (γ s) a / eval (γ t) b := by
      funext s
      simp only [eval]
      rw [eval_closed (γ s) (γ t) b h.2]
    rw [hf]
    refine this.congr_deriv ?_
    rw [Finset.sum_div]
    apply Finset.sum_congr rfl
    intro i _
    simp only [diff, eval]
    ring

end Gemlab.PE

namespace Gemlab.Shapes

def chkVars (k : GeoKind) : Bool := (List.range k.nnode).all fun m => ((interp k).getD m 0).varsLt k.ndim && ((interp k).getD m 0).constDen &&
  (List.range k.ndim).all fun i => (((deriv k).getD m []).getD i 0).varsLt k.ndim
theorem chkVars_ok (k : GeoKind) : chkVars k = true := by cases k <;> decide +kernel

/-- The shape functions depend only on the coordinates of the reference space. -/
theorem calcInterp_congr {K : Type} [Field K] (k : GeoKind) {ξ ξ' : Nat → K} (h : ∀ i < k.ndim, ξ i = ξ' i) {m : Nat} (hm : m < k.nnode) :
    calcInterp k ξ m = calcInterp k ξ' m := by
  have hc := chkVars_ok k
  simp only [chkVars, List.all_eq_true, List.mem_range, Bool.and_eq_true] at hc
  exact PE.eval_congr_vars h _ (hc m hm).1.1

/-- Chain rule for a shape function along a curve in the reference space. -/
theorem calcInterp_curve (k : GeoKind) {γ : ℝ → Nat → ℝ} {γ' : Nat → ℝ} {t : ℝ} (hγ : ∀ i < k.ndim, HasDerivAt (fun s => γ s i) (γ' i) t)
    {m : Nat} (hm : m < k.nnode) :
    HasDerivAt (fun s => calcInterp k (γ s) m) (∑ j ∈ Finset.range k.ndim, γ' j * calcDeriv k (γ t) m j) t := by
  have hc := chkVars_ok k
  simp only [chkVars, List.all_eq_true, List.mem_range, Bool.and_eq_true] at hc
  have h := chkDeriv_ok k
  simp only [chkDeriv, List.all_eq_true, List.mem_range, Bool.and_eq_true] at h
  have h1 := PE.hasDerivAt_curve hγ ((interp k).getD m 0) (hc m hm).1.2 (hc m hm).1.1
  refine h1.congr_deriv ?_
  apply Finset.sum_congr rfl
  intro j hj
  rw [PE.eval_eq_of_same (h m hm j (Finset.mem_range.1 hj)).2]
  rfl

/-- Chain rule for the isoparametric map along a curve. -/
theorem calcCoords_curve (k : GeoKind) (X : Nat → Nat → ℝ) {γ : ℝ → Nat → ℝ} {γ' : Nat → ℝ} {t : ℝ}
    (hγ : ∀ i < k.ndim, HasDerivAt (fun s => γ s i) (γ' i) t) (i : Nat) :
    HasDerivAt (fun s => calcCoords k X (γ s) i)
      (∑ j ∈ Finset.range k.ndim, (∑ m ∈ Finset.range k.nnode, X m i * calcDeriv k (γ t) m j) * γ' j) t := by
  unfold calcCoords
  have : HasDerivAt (fun s => ∑ m ∈ Finset.range k.nnode, X m i * calcInterp k (γ s) m)
      (∑ m ∈ Finset.range k.nnode, X m i * ∑ j ∈ Finset.range k.ndim, γ' j * calcDeriv k (γ t) m j) t := by
    apply HasDerivAt.fun_sum
    intro m hm
    exact (calcInterp_curve k hγ (Finset.mem_range.1 hm)).const_mul _
  refine this.congr_deriv ?_
  simp only [Finset.mul_sum, Finset.sum_mul]
  rw [Finset.sum_comm]
  apply Finset.sum_congr rfl
  intro j _
  apply Finset.sum_congr rfl
  intro m _
  ring

end Gemlab.Shapes
