import Verif.Proofs.Convert2d

/-!
# Places of nodes in a conforming mesh
-/
namespace Gemlab.Mesh.Conv
noncomputable section
open Gemlab.Shapes Gemlab.Spec

/-- A valid mesh of cells of kind `k`, to be converted to `t`. -/
structure Uniform (m : Mesh ℝ) (k t : GeoKind) : Prop where
  valid : ValidMesh m
  ndim : m.ndim = 2
  kind : ∀ cell ∈ m.cells, cell.kind = k
  k2 : k.ndim = 2
  cls : t.classOf = k.classOf

variable {m : Mesh ℝ} {k t : GeoKind}

theorem nodeOf_eq {K : Type} {m : Mesh K} {c : Nat} {cell : Cell} (hc : m.cells[c]? = some cell) {n : Nat} (hn : n < cell.points.length) :
    cell.points[n]? = some (nodeOf m c n) := by
  unfold nodeOf
  rw [hc]
  simp [hn]

namespace Uniform
variable (U : Uniform m k t)
include U

theorem t2 : t.ndim = 2 := (same_class U.k2 U.cls).1
theorem nedge : t.nedge = k.nedge := (same_class U.k2 U.cls).2.1
theorem ends0 {e : Nat} (he : e < t.nedge) : edgeNode t e 0 = edgeNode k e 0 := ((same_class U.k2 U.cls).2.2 e (U.nedge ▸ he)).1
theorem ends1 {e : Nat} (he : e < t.nedge) : edgeNode t e 1 = edgeNode k e 1 := ((same_class U.k2 U.cls).2.2 e (U.nedge ▸ he)).2

theorem cell {c : Nat} (hc : c < m.cells.length) : ∃ cell, m.cells[c]? = some cell ∧ cell.kind = k ∧ cell.points.length = k.nnode ∧
    ∀ n < k.nnode, cell.points[n]? = some (nodeOf m c n) ∧ nodeOf m c n < m.points.length := by
  have hmem := List.getElem_mem hc
  have hkind := U.kind _ hmem
  have hlen := U.valid.nnode _ hmem
  rw [hkind] at hlen
  have h1 : m.cells[c]? = some m.cells[c] := by rw [List.getElem?_eq_getElem hc]
  refine ⟨_, h1, hkind, hlen, fun n hn => ?_⟩
  have h2 := nodeOf_eq h1 (hlen ▸ hn)
  exact ⟨h2, U.valid.inRange _ hmem _ (List.mem_of_getElem? h2)⟩

theorem hasEdge {c e : Nat} (hc : c < m.cells.length) (he : e < t.nedge) {key : Nat × Nat} (h1 : key.1 ≤ key.2)
    (h : key = (nodeOf m c (edgeNode t e 0), nodeOf m c (edgeNode t e 1)) ∨ key = (nodeOf m c (edgeNode t e 1), nodeOf m c (edgeNode t e 0))) :
    HasEdge m key c e := by
  obtain ⟨cell, e1, e2, e3, e4⟩ := U.cell hc
  have hl := ends_lt t U.t2 e he
  have hkk := nedge_le k U.k2
  have hn := U.nedge
  refine ⟨cell, nodeOf m c (edgeNode t e 0), nodeOf m c (edgeNode t e 1), e1, by rw [e2, U.k2], by rw [e2]; omega, ?_, ?_, h1, h⟩
  · rw [e2, ← U.ends0 he]; exact (e4 _ (by omega)).1
  · rw [e2, ← U.ends1 he]; exact (e4 _ (by omega)).1

theorem of_hasEdge {c e : Nat} {key : Nat × Nat} (h : HasEdge m key c e) : c < m.cells.length ∧ e < t.nedge ∧
    (key = (nodeOf m c (edgeNode t e 0), nodeOf m c (edgeNode t e 1)) ∨ key = (nodeOf m c (edgeNode t e 1), nodeOf m c (edgeNode t e 0))) := by
  obtain ⟨cell, a, b, e1, e2, e3, e4, e5, h1, h⟩ := h
  have hc : c < m.cells.length := by
    by_contra hc; rw [List.getElem?_eq_none (by omega)] at e1; simp at e1
  obtain ⟨cell', f1, f2, f3, f4⟩ := U.cell hc
  rw [e1, Option.some.injEq] at f1; subst f1
  rw [f2] at e3 e4 e5
  have he : e < t.nedge := by rw [U.nedge]; exact e3
  have hl := ends_lt t U.t2 e he
  have hkk := nedge_le k U.k2
  have hn := U.nedge
  rw [← U.ends0 he, (f4 _ (by omega)).1, Option.some.injEq] at e4
  rw [← U.ends1 he, (f4 _ (by omega)).1, Option.some.injEq] at e5
  subst e4 e5
  exact ⟨hc, he, h⟩

theorem place_corner {c n : Nat} (hn : n < t.nedge) : place m t c n = .corner (nodeOf m c n) := by
  unfold place; rw [if_pos hn]

theorem place_edge {c e i : Nat} (he : e < t.nedge) (hi : i < t.edgeNnode) (h2 : 2 ≤ i) :
    place m t c (edgeNode t e i) = if nodeOf m c (edgeNode t e 0) < nodeOf m c (edgeNode t e 1)
      then .edge (nodeOf m c (edgeNode t e 0)) (nodeOf m c (edgeNode t e 1)) (edgePos t i)
      else .edge (nodeOf m c (edgeNode t e 1)) (nodeOf m c (edgeNode t e 0)) (1 - edgePos t i) := by
  have hf := edgeOfNode_edge t U.t2 e he i hi h2
  unfold place
  rw [if_neg (by omega), hf.1]

theorem place_inside {c n : Nat} (hn : t.nedge ≤ n) (h : edgeOfNode t n = none) : place m t c n = .inside c n := by
  unfold place
  rw [if_neg (by omega), h]

/-- Every node is a corner, on an edge, or inside. -/
theorem node_cases {n : Nat} (hn : n < t.nnode) : n < t.nedge ∨ (∃ e i, e < t.nedge ∧ i < t.edgeNnode ∧ 2 ≤ i ∧ n = edgeNode t e i) ∨
    (t.nedge ≤ n ∧ edgeOfNode t n = none) := by
  by_cases h : n < t.nedge
  · exact .inl h
  · right
    cases hx : edgeOfNode t n with
    | none => exact .inr ⟨by omega, rfl⟩
    | some x =>
      obtain ⟨_, h1, h2, h3, h4⟩ := edgeOfNode_some t U.t2 n hn x (by rw [hx]; rfl)
      exact .inl ⟨x.1, x.2, h1, h3, h2, h4.symm⟩

/-- Two nodes on edges at the same place. -/
theorem place_edge_eq (C : Conforming m k) {c c' e e' i i' : Nat} (hc : c < m.cells.length) (hc' : c' < m.cells.length)
    (he : e < t.nedge) (he' : e' < t.nedge) (hi : i < t.edgeNnode) (hi' : i' < t.edgeNnode) (h2 : 2 ≤ i) (h2' : 2 ≤ i')
    (h : place m t c (edgeNode t e i) = place m t c' (edgeNode t e' i')) :
    (c = c' ∧ e = e' ∧ i = i') ∨ (c ≠ c' ∧ edgePos t i + edgePos t i' = 1 ∧ ∃ key, HasEdge m key c e ∧ HasEdge m key c' e') := by
  have hl := ends_lt t U.t2 e he
  have hl' := ends_lt t U.t2 e' he'
  have hn := U.nedge
  obtain ⟨hp0, hp1, hpi, _⟩ := edgePos_facts t U.t2
  obtain ⟨kp0, kp1, _, _⟩ := edgePos_facts k U.k2
  have hkk := nedge_le k U.k2
  have hne : nodeOf m c (edgeNode t e 0) ≠ nodeOf m c (edgeNode t e 1) :=
    fun hh => hl.2.2 (C.corners c hc _ (by omega) _ (by omega) hh)
  have hne' : nodeOf m c' (edgeNode t e' 0) ≠ nodeOf m c' (edgeNode t e' 1) :=
    fun hh => hl'.2.2 (C.corners c' hc' _ (by omega) _ (by omega) hh)
  rw [U.place_edge he hi h2, U.place_edge he' hi' h2'] at h
  -- the same direction
  have same : nodeOf m c (edgeNode t e 0) = nodeOf m c' (edgeNode t e' 0) → nodeOf m c (edgeNode t e 1) = nodeOf m c' (edgeNode t e' 1) →
      edgePos t i = edgePos t i' → c = c' ∧ e = e' ∧ i = i' := by
    intro q0 q1 q2
    have hcc : c = c' := by
      by_contra hcc
      have key : ∃ key, HasEdge m key c e ∧ HasEdge m key c' e' := by
        by_cases hlt : nodeOf m c (edgeNode t e 0) ≤ nodeOf m c (edgeNode t e 1)
        · exact ⟨_, U.hasEdge hc he hlt (.inl rfl), U.hasEdge hc' he' hlt (.inl (by rw [q0, q1]))⟩
        · exact ⟨(nodeOf m c (edgeNode t e 1), nodeOf m c (edgeNode t e 0)), U.hasEdge hc he (by simp; omega) (.inr rfl),
            U.hasEdge hc' he' (by simp; omega) (.inr (by rw [q0, q1]))⟩
      obtain ⟨key, k1, k2⟩ := key
      have := C.opposed key c e c' e' hcc k1 k2 0 (by omega) 1 (by omega) (by rw [kp0, kp1]; norm_num)
      rw [← U.ends0 he, ← U.ends1 he', ← q1] at this
      exact hne this
    subst hcc
    exact ⟨rfl, ends_inj t U.t2 e he e' he' (.inl ⟨C.corners c hc _ (by omega) _ (by omega) q0, C.corners c hc _ (by omega) _ (by omega) q1⟩),
      hpi i hi i' hi' q2⟩
  have opp : nodeOf m c (edgeNode t e 0) = nodeOf m c' (edgeNode t e' 1) → nodeOf m c (edgeNode t e 1) = nodeOf m c' (edgeNode t e' 0) →
      edgePos t i + edgePos t i' = 1 → c ≠ c' ∧ edgePos t i + edgePos t i' = 1 ∧ ∃ key, HasEdge m key c e ∧ HasEdge m key c' e' := by
    intro q0 q1 q2
    refine ⟨?_, q2, ?_⟩
    · intro hcc
      subst hcc
      have a0 := C.corners c hc _ (by omega) _ (by omega) q0
      have a1 := C.corners c hc _ (by omega) _ (by omega) q1
      have he1 := ends_inj t U.t2 e he e' he' (.inr ⟨a0, a1⟩)
      subst he1
      exact hl.2.2 a0
    · by_cases hlt : nodeOf m c (edgeNode t e 0) ≤ nodeOf m c (edgeNode t e 1)
      · exact ⟨_, U.hasEdge hc he hlt (.inl rfl), U.hasEdge hc' he' hlt (.inr (by rw [q0, q1]))⟩
      · exact ⟨(nodeOf m c (edgeNode t e 1), nodeOf m c (edgeNode t e 0)), U.hasEdge hc he (by simp; omega) (.inr rfl),
          U.hasEdge hc' he' (by simp; omega) (.inl (by rw [q0, q1]))⟩
  split at h <;> split at h <;> injection h with q0 q1 q2
  · exact .inl (same q0 q1 q2)
  · exact .inr (opp q0 q1 (by linarith))
  · exact .inr (opp q1 q0 (by linarith))
  · exact .inl (same q1 q0 (by linarith))

/-- The nodes of one cell are at different places. -/
theorem place_inj (C : Conforming m k) {c n n' : Nat} (hc : c < m.cells.length) (hn : n < t.nnode) (hn' : n' < t.nnode)
    (h : place m t c n = place m t c n') : n = n' := by
  have hne := U.nedge
  rcases U.node_cases hn with a | ⟨e, i, a1, a2, a3, rfl⟩ | ⟨a1, a2⟩ <;> rcases U.node_cases hn' with b | ⟨e', i', b1, b2, b3, rfl⟩ | ⟨b1, b2⟩
  · rw [U.place_corner a, U.place_corner b] at h
    injection h with h
    exact C.corners c hc _ (by omega) _ (by omega) h
  · rw [U.place_corner a, U.place_edge b1 b2 b3] at h
    split at h <;> exact absurd h (by simp)
  · rw [U.place_corner a, U.place_inside b1 b2] at h; exact absurd h (by simp)
  · rw [U.place_corner b, U.place_edge a1 a2 a3] at h
    split at h <;> exact absurd h (by simp)
  · rcases U.place_edge_eq C hc hc a1 b1 a2 b2 a3 b3 h with ⟨_, rfl, rfl⟩ | ⟨h, _⟩
    · rfl
    · exact absurd rfl h
  · rw [U.place_inside b1 b2, U.place_edge a1 a2 a3] at h
    split at h <;> exact absurd h (by simp)
  · rw [U.place_corner b, U.place_inside a1 a2] at h; exact absurd h (by simp)
  · rw [U.place_inside a1 a2, U.place_edge b1 b2 b3] at h
    split at h <;> exact absurd h (by simp)
  · rw [U.place_inside a1 a2, U.place_inside b1 b2] at h
    injection h

/-- Nodes of two cells at the same place: a common corner, or opposite nodes of a common edge. -/
theorem place_other (C : Conforming m k) {c n c' n' : Nat} (hc : c < m.cells.length) (hc' : c' < m.cells.length) (hcc : c ≠ c')
    (hn : n < t.nnode) (hn' : n' < t.nnode) (h : place m t c n = place m t c' n') :
    (n < t.nedge ∧ n' < t.nedge ∧ nodeOf m c n = nodeOf m c' n') ∨
    ∃ e i e' i', e < t.nedge ∧ i < t.edgeNnode ∧ 2 ≤ i ∧ e' < t.nedge ∧ i' < t.edgeNnode ∧ 2 ≤ i' ∧ n = edgeNode t e i ∧ n' = edgeNode t e' i' ∧
      edgePos t i + edgePos t i' = 1 ∧ ∃ key, HasEdge m key c e ∧ HasEdge m key c' e' := by
  rcases U.node_cases hn with a | ⟨e, i, a1, a2, a3, rfl⟩ | ⟨a1, a2⟩ <;> rcases U.node_cases hn' with b | ⟨e', i', b1, b2, b3, rfl⟩ | ⟨b1, b2⟩
  · rw [U.place_corner a, U.place_corner b] at h
    injection h with h
    exact .inl ⟨a, b, h⟩
  · rw [U.place_corner a, U.place_edge b1 b2 b3] at h
    split at h <;> exact absurd h (by simp)
  · rw [U.place_corner a, U.place_inside b1 b2] at h; exact absurd h (by simp)
  · rw [U.place_corner b, U.place_edge a1 a2 a3] at h
    split at h <;> exact absurd h (by simp)
  · right
    rcases U.place_edge_eq C hc hc' a1 b1 a2 b2 a3 b3 h with ⟨h, _⟩ | ⟨_, h1, h2⟩
    · exact absurd h hcc
    · exact ⟨e, i, e', i', a1, a2, a3, b1, b2, b3, rfl, rfl, h1, h2⟩
  · rw [U.place_inside b1 b2, U.place_edge a1 a2 a3] at h
    split at h <;> exact absurd h (by simp)
  · rw [U.place_corner b, U.place_inside a1 a2] at h; exact absurd h (by simp)
  · rw [U.place_inside a1 a2, U.place_edge b1 b2 b3] at h
    split at h <;> exact absurd h (by simp)
  · rw [U.place_inside a1 a2, U.place_inside b1 b2] at h
    injection h with h _
    exact absurd h hcc

/-- Opposite nodes of a common edge are at the same place. -/
theorem place_opposite (C : Conforming m k) {c c' e e' i i' : Nat} (hcc : c ≠ c') (hi : i < t.edgeNnode) (hi' : i' < t.edgeNnode)
    (h2 : 2 ≤ i) (h2' : 2 ≤ i') {key : Nat × Nat} (k1 : HasEdge m key c e) (k2 : HasEdge m key c' e') (hp : edgePos t i + edgePos t i' = 1) :
    place m t c (edgeNode t e i) = place m t c' (edgeNode t e' i') := by
  obtain ⟨hc, he, _⟩ := U.of_hasEdge k1
  obtain ⟨hc', he', _⟩ := U.of_hasEdge k2
  obtain ⟨kp0, kp1, _, _⟩ := edgePos_facts k U.k2
  have hkk := nedge_le k U.k2
  have hl := ends_lt t U.t2 e he
  have hn := U.nedge
  have hne : nodeOf m c (edgeNode t e 0) ≠ nodeOf m c (edgeNode t e 1) :=
    fun hh => hl.2.2 (C.corners c hc _ (by omega) _ (by omega) hh)
  have q0 := C.opposed key c e c' e' hcc k1 k2 0 (by omega) 1 (by omega) (by rw [kp0, kp1]; norm_num)
  have q1 := C.opposed key c e c' e' hcc k1 k2 1 (by omega) 0 (by omega) (by rw [kp0, kp1]; norm_num)
  rw [← U.ends0 he, ← U.ends1 he'] at q0
  rw [← U.ends1 he, ← U.ends0 he'] at q1
  rw [U.place_edge he hi h2, U.place_edge he' hi' h2', ← q0, ← q1]
  by_cases hlt : nodeOf m c (edgeNode t e 0) < nodeOf m c (edgeNode t e 1)
  · rw [if_pos hlt, if_neg (by omega)]
    congr 1; linarith
  · rw [if_neg hlt, if_pos (by omega)]
    congr 1; linarith

/-- Nodes at the same place have the same coordinates. -/
theorem iso_of_place (C : Conforming m k) {c n c' n' : Nat} (hc : c < m.cells.length) (hc' : c' < m.cells.length)
    (hn : n < t.nnode) (hn' : n' < t.nnode) (h : place m t c n = place m t c' n') (j : Nat) : isoNode m k t c n j = isoNode m k t c' n' j := by
  by_cases hcc : c = c'
  · subst hcc
    rw [U.place_inj C hc hn hn' h]
  · have hkk := nedge_le k U.k2
    have hne := U.nedge
    rcases U.place_other C hc hc' hcc hn hn' h with ⟨a, b, hab⟩ | ⟨e, i, e', i', a1, a2, a3, b1, b2, b3, rfl, rfl, hp, key, k1, k2⟩
    · unfold isoNode
      rw [refCoord_corner k t U.k2 U.cls n a, refCoord_corner k t U.k2 U.cls n' b, Props.Shapes.C26_interpolation_at_nodes k _ n (by omega),
        Props.Shapes.C26_interpolation_at_nodes k _ n' (by omega), hab]
    · obtain ⟨ek, h1, h2⟩ := edgeKind_some k U.k2
      unfold isoNode
      rw [refCoord_edge k t U.k2 U.cls e i a1 a2, refCoord_edge k t U.k2 U.cls e' i' b1 b2]
      have hη : (((2 * edgePos t i - 1 : ℚ)) : ℝ) = - (((2 * edgePos t i' - 1 : ℚ)) : ℝ) := by
        rw [← Rat.cast_neg]; congr 1; linarith
      rw [hη]
      refine Props.Shapes.C29_edge_conforming k k ek h1 h1 e' e (by omega) (by omega) _ _ ?_ _
      intro p q hp' hq' hpq
      have hQ : refCoordQ ek q 0 = - refCoordQ ek p 0 := by unfold refCoord at hpq; exact_mod_cast hpq
      have := C.opposed key c e c' e' hcc k1 k2 q (h2 ▸ hq') p (h2 ▸ hp') (by rw [edgePos_eq h1, edgePos_eq h1]; linarith)
      rw [this]

theorem iso_corner {c n j : Nat} (hn : n < t.nedge) : isoNode m k t c n j = (coordsOf m (nodeOf m c n)).getD j 0 := by
  have hkk := nedge_le k U.k2
  have hne := U.nedge
  unfold isoNode
  rw [refCoord_corner k t U.k2 U.cls n hn, Props.Shapes.C26_interpolation_at_nodes k _ n (by omega)]

end Uniform
end
end Gemlab.Mesh.Conv
