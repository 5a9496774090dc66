import Mathlib.Data.List.Chain

/-! # Specification vocabulary: walks in a relation -/
namespace Gemlab.Spec

/-- `w` is a walk from `a` to `b` along the relation `E`: a non-empty list of nodes starting with `a`, ending with `b`,
in which consecutive nodes are related. It has `w.length - 1` steps. -/
def IsWalk (E : Nat → Nat → Prop) (w : List Nat) (a b : Nat) : Prop :=
  w.head? = some a ∧ w.getLast? = some b ∧ w.IsChain E

/-- `k` is the smallest number of steps of a walk from `a` to `b`. -/
def IsDistance (E : Nat → Nat → Prop) (a b k : Nat) : Prop :=
  (∃ w, IsWalk E w a b ∧ w.length = k + 1) ∧ ∀ w, IsWalk E w a b → k + 1 ≤ w.length

/-- `b` can be reached from `a`. -/
def Reach (E : Nat → Nat → Prop) (a b : Nat) : Prop := ∃ w, IsWalk E w a b

/-- The graph on the nodes `0, …, n-1` is connected. -/
def Connected (E : Nat → Nat → Prop) (n : Nat) : Prop := ∀ a b, a < n → b < n → Reach E a b

end Gemlab.Spec
