import Verif.Proofs.Convert2d5
import Verif.Props.Features3
import Verif.Proofs.ShapeUpgrade
import Mathlib.Tactic.IntervalCases

/-!
# C46: conversion of 2D meshes (`Mesh::convert_2d`)
-/
namespace Gemlab.Mesh
noncomputable section
open Gemlab.Shapes Gemlab.Spec Gemlab.Mesh.Conv

/-- The corners of the cells do not all have the same `x` or the same `y`. -/
def Spread (m : Mesh ℝ) (k : GeoKind) : Prop := ∀ i < 2, ∃ c < m.cells.length, ∃ n < k.nedge, ∃ c' < m.cells.length, ∃ n' < k.nedge,
  (coordsOf m (nodeOf m c n)).getD i 0 < (coordsOf m (nodeOf m c' n')).getD i 0

/-- **C46.** Meshes that are not 2D, without cells, or whose first cell is not of the class of the target, or not a triangle or
quadrilateral, are rejected with an error. -/
theorem C46_rejects (o : Orders) (m : Mesh ℝ) (target : GeoKind)
    (h : m.ndim ≠ 2 ∨ m.cells = [] ∨ ∃ cell, m.cells[0]? = some cell ∧ (target.classOf ≠ cell.kind.classOf ∨ cell.kind.ndim ≠ 2)) :
    ∃ e, convert2d o m target = .err e := by
  unfold convert2d
  by_cases h2 : m.ndim ≠ 2
  · rw [if_pos h2]; exact ⟨_, rfl⟩
  · rw [if_neg h2]
    by_cases hn : m.cells.length < 1
    · rw [if_pos hn]; exact ⟨_, rfl⟩
    · rw [if_neg hn]
      rcases h with h | h | ⟨cell, h0, h⟩
      · exact absurd h h2
      · rw [h] at hn; simp at hn
      · rw [Res.idx_eq_ok.2 h0, Res.bind_ok]
        by_cases hc : target.classOf ≠ cell.kind.classOf
        · rw [if_pos hc]; exact ⟨_, rfl⟩
        · rw [if_neg hc]
          have hcl : target.classOf = cell.kind.classOf := by simpa using hc
          have : target.classOf ≠ .tri ∧ target.classOf ≠ .qua := by
            rcases h with h | h
            · exact absurd hcl h
            · rw [hcl]
              have := mt (class_2d cell.kind).2 h
              exact not_or.1 this
          rw [if_pos this]; exact ⟨_, rfl⟩

/-- **C46.** A mesh with cells of different kinds is never converted. -/
theorem C46_mixed_never_converted (o : Orders) (m : Mesh ℝ) (target : GeoKind) (a b : Cell) (ha : a ∈ m.cells) (hb : b ∈ m.cells) (hab : a.kind ≠ b.kind)
    (M : Mesh ℝ) : convert2d o m target ≠ .ok M := by
  intro h
  unfold convert2d at h
  split at h
  · simp at h
  · split at h
    · simp at h
    · obtain ⟨cell, h0, h⟩ := Res.bind_eq_ok.1 h
      split at h
      · simp at h
      · split at h
        · simp at h
        · obtain ⟨F, _, h⟩ := Res.bind_eq_ok.1 h
          split at h
          · obtain ⟨pad, _, h⟩ := Res.bind_eq_ok.1 h
            obtain ⟨s, h, _⟩ := Res.bind_eq_ok.1 h
            have := Res.foldlM_ok_inv _ _ _ s (fun pre _ => ∀ c ∈ pre, ∀ x, m.cells[c]? = some x → x.kind = cell.kind) (by simp) (by
              intro pre c s1 s2 _ hpre hstep x hx y hy
              rw [List.mem_append, List.mem_singleton] at hx
              rcases hx with hx | rfl
              · exact hpre x hx y hy
              · unfold convStep at hstep
                rw [Res.idx_eq_ok.2 hy, Res.bind_ok] at hstep
                split at hstep
                · simp at hstep
                · rename_i hk; simpa using hk) h
            have all : ∀ x ∈ m.cells, x.kind = cell.kind := by
              intro x hx
              obtain ⟨i, hi, rfl⟩ := List.mem_iff_getElem.1 hx
              exact this i (by simpa using hi) _ (List.getElem?_eq_getElem hi)
            exact hab ((all a ha).trans (all b hb).symm)
          · simp at h

theorem uniform_features (o : Orders) (ho : o.Valid) {m : Mesh ℝ} {k : GeoKind} (U : Uniform m k k)
    (hr : ∀ p ∈ m.points, ∀ v ∈ p.coords, -f64Max ≤ v ∧ v ≤ f64Max) (hs : Spread m k) :
    ∃ F, Features.new o m true = .ok F ∧ F.mesh = m ∧ extractAll2dEdges m = .ok F.all2dEdges := by
  obtain ⟨x, hx, h1, _⟩ := Props.Features.C47_new m U.valid (.inl U.ndim) hr o ho true
  have hkk := nedge_le k U.k2
  have hfp : ∀ c < m.cells.length, ∀ n < k.nedge, Props.Features.FeaturePoint m x (nodeOf m c n) := by
    intro c hc n hn
    left
    -- the corner is an end of an edge
    have hend : ∃ e < k.nedge, edgeNode k e 0 = n := by
      have hk := U.k2
      revert n
      cases k <;> first | exact absurd hk (by decide) | (intro n hn; revert n; decide +kernel)
    obtain ⟨e, he, hen⟩ := hend
    have hkey : ∃ key, HasEdge m key c e ∧ (nodeOf m c n = key.1 ∨ nodeOf m c n = key.2) := by
      rw [← hen]
      by_cases hle : nodeOf m c (edgeNode k e 0) ≤ nodeOf m c (edgeNode k e 1)
      · exact ⟨_, U.hasEdge hc he hle (.inl rfl), .inl rfl⟩
      · exact ⟨_, U.hasEdge hc he (key := (nodeOf m c (edgeNode k e 1), nodeOf m c (edgeNode k e 0))) (by simp; omega) (.inr rfl), .inr rfl⟩
    obtain ⟨key, hh, hn'⟩ := hkey
    rcases hx with ⟨_, hx⟩ | ⟨h3, _⟩
    · have hacc := (hx.accepted key).2 ⟨⟨c, e, hh⟩, .inl rfl⟩
      obtain ⟨f, hf⟩ := Option.isSome_iff_exists.1 hacc
      obtain ⟨_, a1, a2, _, a3, _⟩ := Props.Features.edge_key_points U.valid (.inl ⟨U.ndim, hx⟩) hf
      rcases hn' with h | h <;> rw [h]
      · exact a3 _ a1
      · exact a3 _ a2
    · rw [U.ndim] at h3; omega
  obtain ⟨F, hF, hN⟩ := h1 (by
    intro i hi
    rw [U.ndim] at hi
    obtain ⟨c, hc, n, hn, c', hc', n', hn', hlt⟩ := hs i hi
    exact ⟨_, _, hfp c hc n hn, hfp c' hc' n' hn', hlt⟩)
  exact ⟨F, hF, hN.mesh, hN.all2d U.ndim⟩

/-- **C46.** A valid mesh of triangles (or of quadrilaterals) of one kind is converted to every kind of the same class, whatever the order of
iteration of the hash maps; the result is a valid mesh with the same cells and corners. If the mesh is conforming, points are
shared exactly by the nodes at the same place, and they are where the isoparametric maps of the given cells put them. (The numbers of
nodes must fit in memory.) -/
theorem C46_converts (o : Orders) (ho : o.Valid) (m : Mesh ℝ) (k target : GeoKind) (hv : ValidMesh m) (h2 : m.ndim = 2) (hne : m.cells ≠ [])
    (hk : ∀ cell ∈ m.cells, cell.kind = k) (hk2 : k.ndim = 2) (hcls : target.classOf = k.classOf)
    (hr : ∀ p ∈ m.points, ∀ v ∈ p.coords, -f64Max ≤ v ∧ v ≤ f64Max) (hs : Spread m k) (hb : m.cells.length * target.nnode < usizeMax) :
    ∃ M, convert2d o m target = .ok M ∧ IsRenumbered m target M ∧ (Conforming m k → IsConverted m k target M) := by
  have U : Uniform m k target := ⟨hv, h2, hk, hk2, hcls⟩
  obtain ⟨F, hF, hFm, hall⟩ := uniform_features o ho ⟨hv, h2, hk, hk2, rfl⟩ hr hs
  have hlen : 0 < m.cells.length := List.length_pos_iff.2 hne
  obtain ⟨cell0, e1, e2, _, _⟩ := U.cell hlen
  obtain ⟨pad, hpad, hpk, hps⟩ : ∃ pad, Scratchpad.new m.ndim k = .ok pad ∧ pad.kind = k ∧ pad.spaceNdim = 2 := by
    unfold Scratchpad.new
    rw [h2, if_neg (by omega), if_neg (by omega)]
    exact ⟨_, rfl, rfl, rfl⟩
  obtain ⟨s, hs, I⟩ := loop_ok U hb hFm hall pad hpk hps
  have hnc : (if k.classOf = .tri then 3 else 4) = target.nedge := by rw [U.nedge, nedge_eq k hk2]
  have htt := nedge_le target U.t2
  refine ⟨{ ndim := m.ndim, points := s.points, cells := s.cells, markedEdges := [], markedFaces := [] }, ?_, ?_, ?_⟩
  · unfold convert2d
    rw [if_neg (by simpa using h2), if_neg (by omega), Res.idx_eq_ok.2 e1, Res.bind_ok, e2, if_neg (by simpa using hcls), if_neg (by
      rw [hcls]; have := (class_2d k).1 hk2; tauto), hF, Res.bind_ok, if_pos hb, hpad]
    simp only [unwrapRes, Res.bind_ok, hnc]
    rw [hs, Res.bind_ok]
    rfl
  · have hcell : ∀ (c : Nat) (x : Cell), s.cells[c]? = some x → c < m.cells.length ∧ x.kind = target ∧ x.points.length = target.nnode ∧
        ∀ n < target.nnode, x.points[n]? = some (ptOf s.cells c n) ∧ ptOf s.cells c n < s.points.length := by
      intro c x hx
      have hc : c < m.cells.length := by
        rw [← I.base.shape.len]; exact (List.getElem?_eq_some_iff.1 hx).1
      obtain ⟨a, b⟩ := I.base.shape.cell c x hx
      refine ⟨hc, a, b, fun n hn => ⟨?_, I.base.small c hc n hn (I.done c hc n hn)⟩⟩
      exact nodeOf_eq (m := { ndim := m.ndim, points := s.points, cells := s.cells, markedEdges := [], markedFaces := [] }) hx (b ▸ hn)
    have hcd : ∀ c < m.cells.length, ∀ n < target.nedge, s.corners.get (nodeOf m c n) = some (ptOf s.cells c n) :=
      fun c hc n hn => I.base.hcorner c hc n hn (I.done c hc n (by omega))
    refine ⟨h2, ⟨?_, ?_, ?_, ?_, ?_⟩, I.base.shape.len, ?_, ⟨rfl, rfl⟩, ?_, ?_⟩
    · intro p hp
      obtain ⟨i, hi⟩ := List.getElem?_of_mem hp
      dsimp only
      rw [(I.base.ids i p hi).2, h2]
    · intro i p hp
      exact (I.base.ids i p hp).1
    · intro c x hx
      obtain ⟨hc, _⟩ := hcell c x hx
      have := I.data c _ hc (List.getElem?_eq_getElem hc)
      rw [show s.cells[c]? = some x from hx] at this
      simp at this
      exact this.1
    · intro x hx
      obtain ⟨i, hi⟩ := List.getElem?_of_mem hx
      obtain ⟨_, a, b, _⟩ := hcell i x hi
      rw [a, b]
    · intro x hx p hp
      obtain ⟨i, hi⟩ := List.getElem?_of_mem hx
      obtain ⟨_, a, b, c⟩ := hcell i x hi
      obtain ⟨n, hn⟩ := List.getElem?_of_mem hp
      have hnl := (List.getElem?_eq_some_iff.1 hn).1
      obtain ⟨d1, d2⟩ := c n (b ▸ hnl)
      rw [hn, Option.some.injEq] at d1
      rw [d1]; exact d2
    · intro c cell hc
      have hcl : c < m.cells.length := (List.getElem?_eq_some_iff.1 hc).1
      have hcl' : c < s.cells.length := by rw [I.base.shape.len]; exact hcl
      have hd := I.data c cell hcl hc
      rw [List.getElem?_eq_getElem hcl'] at hd
      simp at hd
      exact ⟨_, List.getElem?_eq_getElem hcl', (I.base.shape.cell c _ (List.getElem?_eq_getElem hcl')).1, hd.2⟩
    · intro c hc n hn
      obtain ⟨src, pp, a1, a2, a3, a4⟩ := I.base.hdata _ _ (hcd c hc n hn)
      rw [coordsOf_eq a1, markerOf_eq a1, ← a3, ← a4]
      exact ⟨coordsOf_eq (m := { ndim := m.ndim, points := s.points, cells := s.cells, markedEdges := [], markedFaces := [] }) a2,
        markerOf_eq (m := { ndim := m.ndim, points := s.points, cells := s.cells, markedEdges := [], markedFaces := [] }) a2⟩
    · intro c hc n hn c' hc' n' hn'
      have e1 := hcd c hc n hn
      have e2 := hcd c' hc' n' hn'
      constructor
      · intro h
        have h' : ptOf s.cells c n = ptOf s.cells c' n' := h
        rw [h'] at e1
        exact I.base.hinj _ _ _ e1 e2
      · intro h
        rw [h, e2, Option.some.injEq] at e1
        exact e1.symm
  · intro C
    have W := I.conf C
    refine ⟨?_, ?_, ?_, ?_⟩
    · intro c hc n hn c' hc' n' hn'
      exact W.shared c hc n hn c' hc' n' hn' (I.done c hc n hn) (I.done c' hc' n' hn')
    · intro c hc n hn j hj
      obtain ⟨p, a1, a2, _⟩ := W.coords c hc n hn (I.done c hc n hn)
      rw [← a2 j hj]
      exact congrArg (fun l : List ℝ => l.getD j 0)
        (coordsOf_eq (m := { ndim := m.ndim, points := s.points, cells := s.cells, markedEdges := [], markedFaces := [] }) a1)
    · intro p hp
      obtain ⟨c, hc, n, hn, e, _⟩ := W.used p hp
      exact ⟨c, hc, n, hn, e⟩
    · intro c hc n hn hf
      obtain ⟨p, a1, _, a3⟩ := W.coords c hc n hn (I.done c hc n hn)
      rw [← a3 hf]
      exact markerOf_eq (m := { ndim := m.ndim, points := s.points, cells := s.cells, markedEdges := [], markedFaces := [] }) a1

/-- **C46.** A mesh whose points all have the same `x` or all the same `y` makes the conversion panic (`Features::new` does). -/
theorem C46_flat_panics (o : Orders) (ho : o.Valid) (m : Mesh ℝ) (k target : GeoKind) (hv : ValidMesh m) (h2 : m.ndim = 2) (hne : m.cells ≠ [])
    (hk : ∀ cell ∈ m.cells, cell.kind = k) (hk2 : k.ndim = 2) (hcls : target.classOf = k.classOf)
    (hr : ∀ p ∈ m.points, ∀ v ∈ p.coords, -f64Max ≤ v ∧ v ≤ f64Max)
    (hflat : ∃ i < 2, ∀ p < m.points.length, ∀ q < m.points.length, (coordsOf m p).getD i 0 = (coordsOf m q).getD i 0) :
    convert2d o m target = .panic := by
  have U : Uniform m k target := ⟨hv, h2, hk, hk2, hcls⟩
  have hlen : 0 < m.cells.length := List.length_pos_iff.2 hne
  obtain ⟨cell0, e1, e2, _, _⟩ := U.cell hlen
  obtain ⟨x, hx, _, hp⟩ := Props.Features.C47_new m hv (.inl h2) hr o ho true
  obtain ⟨i, hi, hflat⟩ := hflat
  have hrange : ∀ p, (coordsOf m p).getD i 0 ≠ 0 → p < m.points.length := by
    intro p h
    by_contra hlt
    unfold coordsOf at h
    rw [List.getElem?_eq_none (by omega)] at h
    simp at h
  have hF : Features.new o m true = .panic := by
    apply hp
    intro h
    obtain ⟨p, q, fp, fq, hlt⟩ := h i (by rw [h2]; exact hi)
    have hin : ∀ p, Props.Features.FeaturePoint m x p → p < m.points.length := by
      rintro p (h | ⟨cell, hc, _, hp⟩)
      · rcases hx with ⟨_, hx⟩ | ⟨h3, _⟩
        · obtain ⟨key, f, hf, hpf⟩ := (hx.points p).1 h
          obtain ⟨c, e, hfirst, ⟨cell, hc, hek, hl, hpp⟩, _⟩ := hx.data key f hf
          obtain ⟨j, hj⟩ := List.getElem?_of_mem hpf
          have hjl := (List.getElem?_eq_some_iff.1 hj).1
          have := hpp j (hl ▸ hjl)
          rw [hj] at this
          exact hv.inRange cell (List.mem_of_getElem? hc) p (List.mem_of_getElem? this.symm)
        · omega
      · exact hv.inRange cell hc p hp
    have := hflat p (hin p fp) q (hin q fq)
    rw [this] at hlt
    exact lt_irrefl _ hlt
  unfold convert2d
  rw [if_neg (by simpa using h2), if_neg (by omega), Res.idx_eq_ok.2 e1, Res.bind_ok, e2, if_neg (by simpa using hcls), if_neg (by
      rw [hcls]; have := (class_2d k).1 hk2; tauto), hF]
  rfl

/-- **C46.** Conversion to a kind with at least as many nodes does not change the geometry: the isoparametric maps of the new cells are
those of the given cells. (Except from `qua9` to `qua12`, and from `qua16` to `qua17`.) -/
theorem C46_upgrade_keeps_geometry (m M : Mesh ℝ) (k target : GeoKind) (hk2 : k.ndim = 2) (hcls : target.classOf = k.classOf)
    (hn : k.nnode ≤ target.nnode) (h1 : (k, target) ≠ (.qua9, .qua12)) (h2 : (k, target) ≠ (.qua16, .qua17)) (h : IsConverted m k target M)
    (c : Nat) (hc : c < m.cells.length) (j : Nat) (hj : j < 2) (ξ : Nat → ℝ) :
    interpolate target (fun n => (coordsOf M (nodeOf M c n)).getD j 0) ξ = interpolate k (fun n => (coordsOf m (nodeOf m c n)).getD j 0) ξ := by
  rw [← interpolate_upgrade (chkContains_ok k target hk2 hcls hn h1 h2)]
  unfold interpolate
  apply Finset.sum_congr rfl
  intro n hn
  exact congrArg (calcInterp target ξ n * ·) (h.coords c hc n (Finset.mem_range.1 hn) j hj)

/-- Two `tri6` cells forming the unit square, with a common edge. -/
def exTri6 : Mesh ℝ :=
  { ndim := 2
    points := [⟨0, -1, [0, 0]⟩, ⟨1, -2, [1, 0]⟩, ⟨2, -3, [1, 1]⟩, ⟨3, -4, [0, 1]⟩, ⟨4, 0, [1/2, 0]⟩, ⟨5, 0, [1, 1/2]⟩, ⟨6, 7, [1/2, 1/2]⟩, ⟨7, 0, [1/2, 1]⟩, ⟨8, 0, [0, 1/2]⟩]
    cells := [⟨0, 1, .tri6, [0, 1, 2, 4, 5, 6]⟩, ⟨1, 2, .tri6, [0, 2, 3, 6, 7, 8]⟩]
    markedEdges := [(5, 0, 1)], markedFaces := [] }

theorem exTri6_uniform : Uniform exTri6 .tri6 .tri15 := by
  refine ⟨⟨?_, ?_, ?_, ?_, ?_⟩, rfl, ?_, rfl, rfl⟩
  · simp [exTri6]
  · intro i p hp
    have hi : i < 9 := (List.getElem?_eq_some_iff.1 hp).1
    interval_cases i <;> simp [exTri6] at hp <;> subst hp <;> rfl
  · intro i p hp
    have hi : i < 2 := (List.getElem?_eq_some_iff.1 hp).1
    interval_cases i <;> simp [exTri6] at hp <;> subst hp <;> rfl
  · simp [exTri6, GeoKind.nnode]
  · simp [exTri6]
  · simp [exTri6]

set_option synthInstance.maxSize 2000 in
set_option synthInstance.maxHeartbeats 400000 in
/-- Non-vacuity: the mesh satisfies all hypotheses of `C46_converts`, so that its upgrade to `tri15` shares the three middle nodes of the common edge
(nodes 11, 5, 10 of the first cell and 6, 3, 7 of the second one) and no other. -/
theorem C46_example (o : Orders) (ho : o.Valid) : ∃ M, convert2d o exTri6 .tri15 = .ok M ∧ IsConverted exTri6 .tri6 .tri15 M ∧
    nodeOf M 0 5 = nodeOf M 1 3 ∧ nodeOf M 0 10 = nodeOf M 1 7 ∧ nodeOf M 0 11 = nodeOf M 1 6 ∧ nodeOf M 0 10 ≠ nodeOf M 1 6 ∧
    markerOf M (nodeOf M 1 7) = 7 := by
  have hcells : exTri6.cells.length = 2 := rfl
  have hC : Conforming exTri6 .tri6 := by
    constructor
    · rw [hcells]; decide +kernel
    · have key : ∀ c < 2, ∀ e < 3, ∀ c' < 2, ∀ e' < 3, c ≠ c' →
          ((nodeOf exTri6 c (edgeNode .tri6 e 0) = nodeOf exTri6 c' (edgeNode .tri6 e' 0) ∧ nodeOf exTri6 c (edgeNode .tri6 e 1) = nodeOf exTri6 c' (edgeNode .tri6 e' 1)) ∨
           (nodeOf exTri6 c (edgeNode .tri6 e 0) = nodeOf exTri6 c' (edgeNode .tri6 e' 1) ∧ nodeOf exTri6 c (edgeNode .tri6 e 1) = nodeOf exTri6 c' (edgeNode .tri6 e' 0))) →
          ∀ i < 3, ∀ j < 3, edgePos .tri6 i + edgePos .tri6 j = 1 → nodeOf exTri6 c (edgeNode .tri6 e i) = nodeOf exTri6 c' (edgeNode .tri6 e' j) := by
        decide +kernel
      have hU : Uniform exTri6 .tri6 .tri6 := { exTri6_uniform with cls := rfl }
      intro k c e c' e' hne h1 h2
      obtain ⟨a1, a2, a3⟩ := hU.of_hasEdge h1
      obtain ⟨b1, b2, b3⟩ := hU.of_hasEdge h2
      apply key c a1 e a2 c' b1 e' b2 hne
      rcases a3 with rfl | rfl <;> rcases b3 with h | h <;> simp only [Prod.mk.injEq] at h <;> tauto
  have hS : Spread exTri6 .tri6 := by
    intro i hi
    refine ⟨0, by decide, 0, by decide, 0, by decide, 2, by decide, ?_⟩
    rw [show nodeOf exTri6 0 0 = 0 from rfl, show nodeOf exTri6 0 2 = 2 from rfl]
    interval_cases i <;> simp [coordsOf, exTri6]
  have hbig : (1 : ℝ) ≤ f64Max := by
    unfold f64Max
    have : (1 : ℝ) ≤ 2 ^ 1023 := one_le_pow₀ (by norm_num)
    exact one_le_mul_of_one_le_of_one_le (by norm_num) this
  have hr : ∀ p ∈ exTri6.points, ∀ v ∈ p.coords, -f64Max ≤ v ∧ v ≤ f64Max := by
    have : ∀ p ∈ exTri6.points, ∀ v ∈ p.coords, (0 : ℝ) ≤ v ∧ v ≤ 1 := by
      simp [exTri6]; norm_num
    intro p hp v hv
    have := this p hp v hv
    constructor <;> linarith
  obtain ⟨M, h1, _, h3⟩ := C46_converts o ho exTri6 .tri6 .tri15 exTri6_uniform.valid rfl (by simp [exTri6]) exTri6_uniform.kind rfl rfl hr hS
    (by rw [hcells]; decide)
  have I := h3 hC
  have e2 := (I.shared 0 (by decide) 10 (by decide) 1 (by decide) 7 (by decide)).2 (by decide +kernel)
  refine ⟨M, h1, I, (I.shared 0 (by decide) 5 (by decide) 1 (by decide) 3 (by decide)).2 (by decide +kernel), e2,
    (I.shared 0 (by decide) 11 (by decide) 1 (by decide) 6 (by decide)).2 (by decide +kernel),
    fun h => absurd ((I.shared 0 (by decide) 10 (by decide) 1 (by decide) 6 (by decide)).1 h) (by decide +kernel), ?_⟩
  rw [← e2, I.marker 0 (by decide) 10 (by decide) (by intro c hc; omega)]
  decide +kernel

end
end Gemlab.Mesh
