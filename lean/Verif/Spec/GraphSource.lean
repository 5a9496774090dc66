import Verif.Model.GraphUnd
import Verif.Spec.Walk

/-! # Specification vocabulary: the graphs a user can build

A user builds a `GraphUnd` from a table of edges or from a mesh. `Source` is that input, described without reference to
the adjacency structure computed by the code. -/
namespace Gemlab.Spec
open Gemlab.GraphUnd

/-- The input from which an undirected graph is built. -/
inductive Source where
  /-- `GraphUnd::from_edges`: a table of pairs of node ids -/
  | edges (es : List (Nat × Nat))
  /-- `GraphUnd::from_mesh`: the number of points, and the list of points of every cell -/
  | mesh (npoint : Nat) (cells : List (List Nat))

/-- One more than the largest id in a table of edges. -/
def maxIdPlusOne (es : List (Nat × Nat)) : Nat := es.foldr (fun e m => max m (max e.1 e.2 + 1)) 0

/-- Number of nodes of the graph. -/
def Source.n : Source → Nat
  | .edges es => maxIdPlusOne es
  | .mesh npoint _ => npoint

/-- Two nodes are adjacent: they appear together in the table; or they are different points of one cell. -/
def Source.Adj : Source → Nat → Nat → Prop
  | .edges es, a, b => (a, b) ∈ es ∨ (b, a) ∈ es
  | .mesh _ cells, a, b => a ≠ b ∧ ∃ c ∈ cells, a ∈ c ∧ b ∈ c

/-- Acceptable input: ids used by the edges are exactly `0..n-1`; the cells' points exist. -/
def Source.WF : Source → Prop
  | .edges es => ∀ i, i < maxIdPlusOne es → ∃ e ∈ es, e.1 = i ∨ e.2 = i
  | .mesh npoint cells => ∀ c ∈ cells, ∀ p ∈ c, p < npoint

/-- The call made by the user. -/
def Source.build : Source → (calcDegree checkConnectivity : Bool) → Res Graph
  | .edges es, cd, cc => fromEdges es cd cc
  | .mesh npoint cells, cd, cc => fromMesh npoint cells cd cc

/-- `g` is a graph object built from `src`, at any later moment of its life: the scratch vectors
(`queue`, `explored`, `distance`, `parent`) may hold anything left over by previous calls (`explored` keeps its length). -/
def IsGraphOf (src : Source) (cd : Bool) (g : Graph) : Prop :=
  ∃ cc g0, src.build cd cc = .ok g0 ∧ g.adjacency = g0.adjacency ∧ g.degree = g0.degree ∧
    g.pMinDegree = g0.pMinDegree ∧ g.nedge = g0.nedge ∧ g.explored.length = g.adjacency.length

/-- `k` is the eccentricity of `r`: the largest distance from `r` to a node. -/
def IsEccentricity (E : Nat → Nat → Prop) (n r k : Nat) : Prop :=
  (∃ u, u < n ∧ IsDistance E r u k) ∧ ∀ u d, u < n → IsDistance E r u d → d ≤ k

end Gemlab.Spec
