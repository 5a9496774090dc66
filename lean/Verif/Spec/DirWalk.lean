import Mathlib.Order.Defs.LinearOrder

/-! # Specification vocabulary: weighted directed walks -/
namespace Gemlab.Spec

/-- `Path A nodes a b s`: the list `nodes` is a directed walk from `a` to `b` along arcs (`A x y w`: there is an arc from
`x` to `y` with weight `w`), and `s` is the sum of the weights of its arcs. -/
inductive Path {W : Type} [Add W] [Zero W] (A : Nat → Nat → W → Prop) : List Nat → Nat → Nat → W → Prop where
  | here (a : Nat) : Path A [a] a a 0
  | cons {a b c : Nat} {w s : W} {l : List Nat} : A a b w → Path A l b c s → Path A (a :: l) a c (w + s)

/-- The arcs given by the user: edge number `e` goes from `edges[e].0` to `edges[e].1` with weight `weights[e]`. -/
def GivenArc {W : Type} (edges : List (Nat × Nat)) (weights : List W) (a b : Nat) (w : W) : Prop :=
  ∃ e : Nat, edges[e]? = some (a, b) ∧ weights[e]? = some w

/-- The arc the code uses from `a` to `b`: among parallel edges, the one listed last. -/
def EffArc {W : Type} (edges : List (Nat × Nat)) (weights : List W) (a b : Nat) (w : W) : Prop :=
  ∃ e : Nat, edges[e]? = some (a, b) ∧ weights[e]? = some w ∧ ∀ e' : Nat, e < e' → edges[e']? ≠ some (a, b)

/-- No two edges have the same start and the same end. -/
def NoParallel (edges : List (Nat × Nat)) : Prop := edges.Nodup

/-- No edge starts and ends at the same node. -/
def NoSelfLoop (edges : List (Nat × Nat)) : Prop := ∀ e ∈ edges, e.1 ≠ e.2

/-- What is assumed of a rounded (floating-point) addition of non-negative numbers: it is monotone and never
returns less than one of its operands. It need not be associative, commutative or strictly monotone. -/
structure RoundedAdd (W : Type) [LinearOrder W] [Add W] [Zero W] : Prop where
  le_left : ∀ a b : W, 0 ≤ a → 0 ≤ b → a ≤ a + b
  le_right : ∀ a b : W, 0 ≤ a → 0 ≤ b → b ≤ a + b
  mono : ∀ a b c d : W, 0 ≤ a → 0 ≤ b → a ≤ c → b ≤ d → a + b ≤ c + d

end Gemlab.Spec
