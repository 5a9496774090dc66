import Verif.Spec.Rounding
import Mathlib.Data.Real.Basic
import Mathlib.Order.Basic

/-!
# Floating-point numbers as a type

`Num fl` consists of the real numbers that rounding does not change; the sum of two of them is the rounded exact sum.
-/
namespace Gemlab
noncomputable section

/-- The floating-point numbers of the rounding `fl`. -/
def Num (fl : ℝ → ℝ) (_idem : ∀ x, fl (fl x) = fl x) : Type := {x : ℝ // IsFloat fl x}

namespace Num
variable {fl : ℝ → ℝ} {idem : ∀ x, fl (fl x) = fl x}

/-- The value as a real number. -/
def val (x : Num fl idem) : ℝ := x.1

instance : LinearOrder (Num fl idem) := inferInstanceAs (LinearOrder {x : ℝ // IsFloat fl x})
instance : Add (Num fl idem) := ⟨fun a b => ⟨fl (a.1 + b.1), idem _⟩⟩
instance : Zero (Num fl idem) := ⟨⟨fl 0, idem _⟩⟩
instance : One (Num fl idem) := ⟨⟨fl 1, idem _⟩⟩

end Num
end
end Gemlab
