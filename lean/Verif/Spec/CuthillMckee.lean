import Verif.Spec.GraphSource

/-! # Specification vocabulary: the order in which Cuthill and McKee number the nodes of a graph

Written from the description of the method: number a root first; then take the numbered nodes in turn and number their
neighbours that have no number yet, those with fewer neighbours first, ties by node id. Nothing here mentions queues,
flags or rows. -/
namespace Gemlab.Spec

open Classical in
/-- Number of neighbours of a node. -/
noncomputable def Source.degree (src : Source) (x : Nat) : Nat := (List.range src.n).countP (fun y => decide (src.Adj x y))

/-- `p` is the earliest position of `seq` holding a neighbour of `x`. -/
def FirstNeighbour (E : Nat → Nat → Prop) (seq : List Nat) (x p : Nat) : Prop :=
  (∃ u, seq[p]? = some u ∧ E u x) ∧ ∀ q u, seq[q]? = some u → E u x → p ≤ q

/-- `seq` lists the nodes `0..n-1`, each once, in the order of Cuthill and McKee from `root`. -/
structure IsCuthillMckee (src : Source) (root : Nat) (seq : List Nat) : Prop where
  /-- every node has exactly one place -/
  perm : seq.Perm (List.range src.n)
  /-- the root comes first -/
  head : seq[0]? = some root
  /-- every other node comes after one of its neighbours -/
  after : ∀ i x, 0 < i → seq[i]? = some x → ∃ p, p < i ∧ FirstNeighbour src.Adj seq x p
  /-- the node with the earlier first neighbour comes first; among the nodes with the same first neighbour, the one
  with the smaller degree, and then the one with the smaller id -/
  order : ∀ i j x y p q, 0 < i → i < j → seq[i]? = some x → seq[j]? = some y → FirstNeighbour src.Adj seq x p →
    FirstNeighbour src.Adj seq y q → p < q ∨ (p = q ∧ (src.degree x < src.degree y ∨ (src.degree x = src.degree y ∧ x < y)))

open Classical in
/-- Number of nodes at distance `k` from `root`. -/
noncomputable def Source.levelSize (src : Source) (root k : Nat) : Nat :=
  (List.range src.n).countP (fun y => decide (IsDistance src.Adj root y k))

end Gemlab.Spec
