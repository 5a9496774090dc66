import Verif.Lib.PolyExpr
import Mathlib.Analysis.Calculus.Deriv.Mul
import Mathlib.Analysis.Calculus.Deriv.Add

/-! # The formal derivative of an expression is its derivative -/
namespace Gemlab.PE

theorem hasDerivAt (e : PE) (h : constDen e = true) (i : Nat) (ξ : Nat → ℝ) :
    HasDerivAt (fun v => eval (Function.update ξ i v) e) (eval ξ (diff i e)) (ξ i) := by
  have hupd : Function.update ξ i (ξ i) = ξ := Function.update_eq_self i ξ
  induction e with
  | c q => simpa [eval, diff] using hasDerivAt_const (ξ i) ((q : ℝ))
  | x j =>
    by_cases hj : j = i
    · subst hj
      simpa [eval, diff] using hasDerivAt_id' (ξ j)
    · have : (fun v => eval (Function.update ξ i v) (x j)) = fun _ => ξ j := by
        funext v; simp [eval, Function.update_of_ne hj]
      rw [this]
      simpa [diff, hj, eval] using hasDerivAt_const (ξ i) (ξ j)
  | add a b iha ihb =>
    simp only [constDen, Bool.and_eq_true] at h
    exact (iha h.1).add (ihb h.2)
  | sub a b iha ihb =>
    simp only [constDen, Bool.and_eq_true] at h
    exact (iha h.1).sub (ihb h.2)
  | mul a b iha ihb =>
    simp only [constDen, Bool.and_eq_true] at h
    have := (iha h.1).mul (ihb h.2)
    rw [hupd] at this
    exact this
  | neg a iha => exact (iha h).neg
  | div a b iha ihb =>
    simp only [constDen, Bool.and_eq_true] at h
    have := (iha h.1).div_const (eval ξ b)
    have hf : (fun v => eval (Function.update ξ i v) (div a b)) = fun v => eval (Function.update ξ i v) a / eval ξ b := by
      funext v
      simp only [eval]
      rw [eval_closed (Function.update ξ i v) ξ b h.2]
    rw [hf]
    exact this

end Gemlab.PE
