import Verif.Spec.Convert2d
import Verif.Props.Shapes

/-!
# Tables and places used by the proofs about `convert_2d`
-/
namespace Gemlab.Mesh.Conv
noncomputable section
open Gemlab.Shapes Gemlab.Spec

/-- The corners at the ends of the local edges, for each class. -/
def ends (t : Bool) (e : Nat) : Nat × Nat :=
  if t then ([(1, 0), (2, 1), (0, 2)] : List (Nat × Nat)).getD e (0, 0)
  else ([(1, 0), (2, 1), (3, 2), (0, 3)] : List (Nat × Nat)).getD e (0, 0)

theorem ends_eq (k : GeoKind) (h : k.ndim = 2) : ∀ e < k.nedge,
    edgeNode k e 0 = (ends (decide (k.classOf = .tri)) e).1 ∧ edgeNode k e 1 = (ends (decide (k.classOf = .tri)) e).2 := by
  cases k <;> first | exact absurd h (by decide) | decide +kernel

theorem nedge_eq (k : GeoKind) (h : k.ndim = 2) : k.nedge = if k.classOf = .tri then 3 else 4 := by
  cases k <;> first | exact absurd h (by decide) | rfl

theorem nedge_le (k : GeoKind) (h : k.ndim = 2) : k.nedge ≤ k.nnode ∧ 2 ≤ k.edgeNnode := by
  cases k <;> first | exact absurd h (by decide) | decide

theorem class_2d (k : GeoKind) : k.ndim = 2 ↔ k.classOf = .tri ∨ k.classOf = .qua := by
  cases k <;> decide

/-- Facts about two kinds of the same class. -/
theorem same_class {s t : GeoKind} (hs : s.ndim = 2) (h : t.classOf = s.classOf) :
    t.ndim = 2 ∧ t.nedge = s.nedge ∧ (∀ e < s.nedge, edgeNode t e 0 = edgeNode s e 0 ∧ edgeNode t e 1 = edgeNode s e 1) := by
  have ht : t.ndim = 2 := by rw [class_2d, h]; exact (class_2d s).1 hs
  have hn : t.nedge = s.nedge := by rw [nedge_eq t ht, nedge_eq s hs, h]
  refine ⟨ht, hn, fun e he => ?_⟩
  have a := ends_eq t ht e (hn ▸ he)
  have b := ends_eq s hs e he
  rw [h] at a
  exact ⟨a.1.trans b.1.symm, a.2.trans b.2.symm⟩

theorem ends_lt (k : GeoKind) (h : k.ndim = 2) : ∀ e < k.nedge, edgeNode k e 0 < k.nedge ∧ edgeNode k e 1 < k.nedge ∧ edgeNode k e 0 ≠ edgeNode k e 1 := by
  cases k <;> first | exact absurd h (by decide) | decide +kernel

/-- The two end nodes determine the edge. -/
theorem ends_inj (k : GeoKind) (h : k.ndim = 2) : ∀ e < k.nedge, ∀ e' < k.nedge,
    (edgeNode k e 0 = edgeNode k e' 0 ∧ edgeNode k e 1 = edgeNode k e' 1) ∨ (edgeNode k e 0 = edgeNode k e' 1 ∧ edgeNode k e 1 = edgeNode k e' 0) → e = e' := by
  cases k <;> first | exact absurd h (by decide) | decide +kernel

theorem edgeOfNode_some (k : GeoKind) (h : k.ndim = 2) : ∀ n < k.nnode, ∀ x ∈ edgeOfNode k n,
    k.nedge ≤ n ∧ x.1 < k.nedge ∧ 2 ≤ x.2 ∧ x.2 < k.edgeNnode ∧ edgeNode k x.1 x.2 = n := by
  cases k <;> first | exact absurd h (by decide) | decide +kernel

theorem edgeOfNode_edge (k : GeoKind) (h : k.ndim = 2) : ∀ e < k.nedge, ∀ i < k.edgeNnode, 2 ≤ i →
    edgeOfNode k (edgeNode k e i) = some (e, i) ∧ k.nedge ≤ edgeNode k e i := by
  cases k <;> first | exact absurd h (by decide) | decide +kernel

theorem nodeToEdge_eq (k : GeoKind) (h : k.ndim = 2) : ∀ n < k.nnode,
    (nodeToEdge k)[n]? = some (match edgeOfNode k n with | some x => x.1 | none => usizeMax) := by
  cases k <;> first | exact absurd h (by decide) | decide +kernel

theorem edgePos_facts (k : GeoKind) (h : k.ndim = 2) : edgePos k 0 = 0 ∧ edgePos k 1 = 1 ∧
    (∀ i < k.edgeNnode, ∀ j < k.edgeNnode, edgePos k i = edgePos k j → i = j) ∧
    (∀ i < k.edgeNnode, ∃ j < k.edgeNnode, edgePos k i + edgePos k j = 1 ∧ (2 ≤ i → 2 ≤ j)) := by
  cases k <;> first | exact absurd h (by decide) | decide +kernel

theorem edgeKind_some (k : GeoKind) (h : k.ndim = 2) : ∃ ek, k.edgeKind = some ek ∧ ek.nnode = k.edgeNnode := by
  cases k <;> first | exact absurd h (by decide) | exact ⟨_, rfl, rfl⟩

theorem edgePos_eq {k ek : GeoKind} (h : k.edgeKind = some ek) (i : Nat) : edgePos k i = (refCoordQ ek i 0 + 1) / 2 := by
  unfold edgePos; rw [h]; rfl

/-- The inward edges are the outward edges backwards. -/
theorem inward_eq (k : GeoKind) (h : k.ndim = 2) (e i j : Nat) (he : e < k.nedge) (hi : i < k.edgeNnode) (hj : j < k.edgeNnode)
    (hp : edgePos k i + edgePos k j = 1) : edgeNodeInward k e i = edgeNode k e j := by
  obtain ⟨ek, h1, h2⟩ := edgeKind_some k h
  rw [edgePos_eq h1, edgePos_eq h1] at hp
  exact Props.Shapes.C30_inward_is_reversed k ek h1 h e j i he (h2 ▸ hj) (h2 ▸ hi) (by linarith)

/-- Reference position of a node on an edge. -/
theorem refCoord_edge (s t : GeoKind) (hs : s.ndim = 2) (h : t.classOf = s.classOf) (e i : Nat) (he : e < t.nedge) (hi : i < t.edgeNnode) :
    (refCoord t (edgeNode t e i) : Nat → ℝ) = edgePoint s e (((2 * edgePos t i - 1 : ℚ)) : ℝ) := by
  obtain ⟨ht, hn, hends⟩ := same_class hs h
  obtain ⟨ek, h1, h2⟩ := edgeKind_some t ht
  have hcorner : ∀ n < t.nedge, refCoordQ t n = refCoordQ s n := by
    have c0 : ∀ k : GeoKind, k.ndim = 2 → ∀ n < k.nedge, ∀ i < 2, refCoordQ k n i = refCoordQ (if k.classOf = .tri then .tri3 else .qua4) n i := by
      intro k hk; cases k <;> first | exact absurd hk (by decide) | decide +kernel
    intro n hlt
    funext i
    by_cases hi : i < 2
    · rw [c0 t ht n hlt i hi, c0 s hs n (hn ▸ hlt) i hi, h]
    · rw [refCoordQ_ge t n i (by omega), refCoordQ_ge s n i (by omega)]
  have hpos : (((2 * edgePos t i - 1 : ℚ)) : ℝ) = refCoord ek i 0 := by
    rw [edgePos_eq h1]; unfold refCoord; push_cast; ring
  have hl := ends_lt t ht e he
  have hep : ∀ η : ℝ, edgePoint s e η = edgePoint t e η := by
    intro η; funext j
    unfold edgePoint refCoord
    rw [← (hends e (hn ▸ he)).1, ← (hends e (hn ▸ he)).2, hcorner _ hl.1, hcorner _ hl.2.1]
  rw [hpos, hep]
  funext j
  by_cases hj : j < 2
  · exact (Props.Shapes.C30_edge_nodes_position t ek h1 e i j he (h2 ▸ hi) (by omega)).symm
  · unfold edgePoint refCoord
    rw [refCoordQ_ge t _ j (by omega), refCoordQ_ge t _ j (by omega), refCoordQ_ge t _ j (by omega)]
    simp

theorem refCoord_corner (s t : GeoKind) (hs : s.ndim = 2) (h : t.classOf = s.classOf) (n : Nat) (hlt : n < t.nedge) :
    (refCoord t n : Nat → ℝ) = refCoord s n := by
  obtain ⟨ht, hn, _⟩ := same_class hs h
  have c0 : ∀ k : GeoKind, k.ndim = 2 → ∀ n < k.nedge, ∀ i < 2, refCoordQ k n i = refCoordQ (if k.classOf = .tri then .tri3 else .qua4) n i := by
    intro k hk; cases k <;> first | exact absurd hk (by decide) | decide +kernel
  funext i
  unfold refCoord
  by_cases hi : i < 2
  · rw [c0 t ht n hlt i hi, c0 s hs n (hn ▸ hlt) i hi, h]
  · rw [refCoordQ_ge t n i (by omega), refCoordQ_ge s n i (by omega)]

end
end Gemlab.Mesh.Conv
