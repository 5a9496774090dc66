import Verif.Proofs.Convert2d2
import Verif.Lib.ResList
import Verif.Lib.HMap

/-!
# Invariant of `convert_2d`, and its preservation by single assignments
-/
namespace Gemlab.Mesh.Conv
noncomputable section
open Gemlab.Shapes Gemlab.Spec

/-- Point of a node. -/
def ptOf (D : List Cell) (c n : Nat) : Nat := (((D[c]?).map (·.points)).getD []).getD n 0

theorem nodeOf_eq_ptOf {K : Type} (m : Mesh K) : nodeOf m = ptOf m.cells := rfl

structure Shape (ncell : Nat) (t : GeoKind) (D : List Cell) : Prop where
  len : D.length = ncell
  cell : ∀ (c : Nat) (x : Cell), D[c]? = some x → x.kind = t ∧ x.points.length = t.nnode

theorem Shape.get {ncell : Nat} {t : GeoKind} {D : List Cell} (h : Shape ncell t D) {c n : Nat} (hc : c < ncell) (hn : n < t.nnode) :
    getNode D c n = .ok (ptOf D c n) := by
  have hc' : c < D.length := by rw [h.len]; exact hc
  have hx := h.cell c D[c] (List.getElem?_eq_getElem hc')
  unfold getNode ptOf
  rw [Res.idx_of_lt hc', Res.bind_ok, Res.idx_of_lt (by rw [hx.2]; exact hn), List.getElem?_eq_getElem hc']
  simp [hx.2, hn]

/-- Assigning a point to a node. -/
structure Assigned (D D' : List Cell) (c n p : Nat) : Prop where
  pt : ∀ c' n', ptOf D' c' n' = if c' = c ∧ n' = n then p else ptOf D c' n'
  data : ∀ (c' : Nat), (D'[c']?).map (fun x => (x.id, x.marker)) = (D[c']?).map (fun x => (x.id, x.marker))

theorem Shape.set {ncell : Nat} {t : GeoKind} {D : List Cell} (h : Shape ncell t D) {c n : Nat} (hc : c < ncell) (hn : n < t.nnode) (p : Nat) :
    ∃ D', setNode D c n p = .ok D' ∧ Shape ncell t D' ∧ Assigned D D' c n p := by
  have hc' : c < D.length := by rw [h.len]; exact hc
  have hx := h.cell c D[c] (List.getElem?_eq_getElem hc')
  refine ⟨D.set c { D[c] with points := (D[c]).points.set n p }, ?_, ⟨by simp [h.len], ?_⟩, ?_, ?_⟩
  · unfold setNode
    rw [Res.idx_of_lt hc', Res.bind_ok, if_pos (by rw [hx.2]; exact hn)]
    rfl
  · intro c' x hx'
    rw [List.getElem?_set] at hx'
    split at hx'
    · simp only [hc', if_true, Option.some.injEq] at hx'
      subst hx'
      simp [hx]
    · exact h.cell c' x hx'
  · intro c' n'
    unfold ptOf
    rw [List.getElem?_set]
    by_cases hcc : c = c'
    · subst hcc
      rw [if_pos rfl, if_pos hc', List.getElem?_eq_getElem hc']
      simp only [Option.map_some, Option.getD_some, List.getD_eq_getElem?_getD, List.getElem?_set]
      by_cases hnn : n = n'
      · subst hnn; simp [hx.2, hn]
      · rw [if_neg hnn, if_neg (by rintro ⟨_, rfl⟩; exact hnn rfl)]
    · rw [if_neg hcc, if_neg (by rintro ⟨rfl, _⟩; exact hcc rfl)]
  · intro c'
    rw [List.getElem?_set]
    by_cases hcc : c = c'
    · subst hcc
      rw [if_pos rfl, if_pos hc', List.getElem?_eq_getElem hc']; rfl
    · rw [if_neg hcc]

/-- Points, cells and the map of corners. -/
structure Base (m : Mesh ℝ) (t : GeoKind) (P : List (Point ℝ)) (D : List Cell) (H : HMap Nat Nat) : Prop where
  shape : Shape m.cells.length t D
  small : ∀ c < m.cells.length, ∀ n < t.nnode, ptOf D c n ≠ usizeMax → ptOf D c n < P.length
  ids : ∀ (i : Nat) (p : Point ℝ), P[i]? = some p → p.id = i ∧ p.coords.length = 2
  hsome : ∀ p q, H.get p = some q → ∃ c < m.cells.length, ∃ n < t.nedge, ptOf D c n = q ∧ ptOf D c n ≠ usizeMax ∧ nodeOf m c n = p
  hdata : ∀ p q, H.get p = some q → ∃ src pp, m.points[p]? = some src ∧ P[q]? = some pp ∧ pp.marker = src.marker ∧ pp.coords = src.coords
  hcorner : ∀ c < m.cells.length, ∀ n < t.nedge, ptOf D c n ≠ usizeMax → H.get (nodeOf m c n) = some (ptOf D c n)
  hinj : ∀ p p' q, H.get p = some q → H.get p' = some q → p = p'

/-- No earlier cell has a node at this place. -/
def First (m : Mesh ℝ) (t : GeoKind) (c n : Nat) : Prop := ∀ c' < c, ∀ n' < t.nnode, place m t c' n' ≠ place m t c n

structure Conf (m : Mesh ℝ) (k t : GeoKind) (P : List (Point ℝ)) (D : List Cell) : Prop where
  shared : ∀ c < m.cells.length, ∀ n < t.nnode, ∀ c' < m.cells.length, ∀ n' < t.nnode, ptOf D c n ≠ usizeMax → ptOf D c' n' ≠ usizeMax →
    (ptOf D c n = ptOf D c' n' ↔ place m t c n = place m t c' n')
  coords : ∀ c < m.cells.length, ∀ n < t.nnode, ptOf D c n ≠ usizeMax → ∃ p, P[ptOf D c n]? = some p ∧ (∀ j < 2, p.coords.getD j 0 = isoNode m k t c n j) ∧
    (First m t c n → p.marker = nodeMarker m k t c n)
  used : ∀ p < P.length, ∃ c < m.cells.length, ∃ n < t.nnode, ptOf D c n = p ∧ ptOf D c n ≠ usizeMax

variable {m : Mesh ℝ} {k t : GeoKind} {P : List (Point ℝ)} {D D' : List Cell} {H : HMap Nat Nat} {c n q : Nat}

/-- Copying a point to a node that is not a corner. -/
theorem Base.copy (B : Base m t P D H) (hS : Shape m.cells.length t D') (hA : Assigned D D' c n q) (hn : t.nedge ≤ n) (hq : q < P.length) :
    Base m t P D' H where
  shape := hS
  small := by
    intro c' hc' n' hn'
    rw [hA.pt]
    split
    · intro _; exact hq
    · exact B.small c' hc' n' hn'
  ids := B.ids
  hsome := by
    intro p q' h
    obtain ⟨c', hc', n', hn', e⟩ := B.hsome p q' h
    refine ⟨c', hc', n', hn', ?_⟩
    rw [hA.pt, if_neg (by omega)]
    exact e
  hdata := B.hdata
  hcorner := by
    intro c' hc' n' hn'
    rw [hA.pt, if_neg (by omega)]
    exact B.hcorner c' hc' n' hn'
  hinj := B.hinj

/-- Copying the point of a known corner. -/
theorem Base.corner (B : Base m t P D H) (hS : Shape m.cells.length t D') (hA : Assigned D D' c n q) (hP : P.length < usizeMax)
    (hH : H.get (nodeOf m c n) = some q) (hun : ptOf D c n = usizeMax) : Base m t P D' H where
  shape := hS
  small := by
    intro c' hc' n' hn'
    rw [hA.pt]
    split
    · intro _
      obtain ⟨_, pp, _, h2, _⟩ := B.hdata _ q hH
      by_contra hlt
      rw [List.getElem?_eq_none (by omega)] at h2; simp at h2
    · exact B.small c' hc' n' hn'
  ids := B.ids
  hsome := by
    intro p q' h
    obtain ⟨c', hc', n', hn', e⟩ := B.hsome p q' h
    refine ⟨c', hc', n', hn', ?_⟩
    rw [hA.pt, if_neg (by rintro ⟨rfl, rfl⟩; exact e.2.1 hun)]
    exact e
  hdata := B.hdata
  hcorner := by
    intro c' hc' n' hn'
    rw [hA.pt]
    split
    · rename_i h; obtain ⟨rfl, rfl⟩ := h; intro _; exact hH
    · exact B.hcorner c' hc' n' hn'
  hinj := B.hinj

/-- A new point for a node that is not a corner. -/
theorem Base.new (B : Base m t P D H) (hS : Shape m.cells.length t D') (hA : Assigned D D' c n P.length) (hn : t.nedge ≤ n) (mk : Int) (x : List ℝ)
    (hx : x.length = 2) : Base m t (P ++ [⟨P.length, mk, x⟩]) D' H where
  shape := hS
  small := by
    intro c' hc' n' hn'
    rw [hA.pt]
    split
    · intro _; simp
    · intro h; have := B.small c' hc' n' hn' h; simp; omega
  ids := by
    intro i p hp
    rw [List.getElem?_append] at hp
    split at hp
    · exact B.ids i p hp
    · rename_i hge
      have : i = P.length := by
        by_contra hne
        rw [List.getElem?_eq_none (by simp; omega)] at hp; simp at hp
      subst this
      simp at hp
      subst hp
      exact ⟨rfl, hx⟩
  hsome := by
    intro p q' h
    obtain ⟨c', hc', n', hn', e⟩ := B.hsome p q' h
    refine ⟨c', hc', n', hn', ?_⟩
    rw [hA.pt, if_neg (by omega)]
    exact e
  hdata := by
    intro p q h
    obtain ⟨src, pp, h1, h2, h3⟩ := B.hdata p q h
    refine ⟨src, pp, h1, ?_, h3⟩
    have : q < P.length := (List.getElem?_eq_some_iff.1 h2).1
    rw [List.getElem?_append_left this, h2]
  hcorner := by
    intro c' hc' n' hn'
    rw [hA.pt, if_neg (by omega)]
    exact B.hcorner c' hc' n' hn'
  hinj := B.hinj

/-- A new point for a corner. -/
theorem Base.newCorner (B : Base m t P D H) (hS : Shape m.cells.length t D') (hA : Assigned D D' c n P.length) (hc : c < m.cells.length) (hn : n < t.nedge)
    (hP : P.length < usizeMax) (hH : H.get (nodeOf m c n) = none) (hun : ptOf D c n = usizeMax) (src : Point ℝ)
    (hsrc : m.points[nodeOf m c n]? = some src) (hx : src.coords.length = 2) :
    Base m t (P ++ [⟨P.length, src.marker, src.coords⟩]) D' (H.insert (nodeOf m c n) P.length) where
  shape := hS
  small := by
    intro c' hc' n' hn'
    rw [hA.pt]
    split
    · intro _; simp
    · intro h; have := B.small c' hc' n' hn' h; simp; omega
  ids := by
    intro i p hp
    rw [List.getElem?_append] at hp
    split at hp
    · exact B.ids i p hp
    · rename_i hge
      have : i = P.length := by
        by_contra hne
        rw [List.getElem?_eq_none (by simp; omega)] at hp; simp at hp
      subst this
      simp at hp
      subst hp
      exact ⟨rfl, hx⟩
  hsome := by
    intro p q' h
    rw [HMap.get_insert] at h
    split at h
    · rename_i hp
      rw [Option.some.injEq] at h
      refine ⟨c, hc, n, hn, ?_⟩
      rw [hA.pt, if_pos ⟨rfl, rfl⟩]
      exact ⟨h, by omega, hp.symm⟩
    · obtain ⟨c', hc', n', hn', e⟩ := B.hsome p q' h
      refine ⟨c', hc', n', hn', ?_⟩
      rw [hA.pt, if_neg (by rintro ⟨rfl, rfl⟩; exact e.2.1 hun)]
      exact e
  hdata := by
    intro p q h
    rw [HMap.get_insert] at h
    split at h
    · rename_i hp
      rw [Option.some.injEq] at h
      subst hp h
      exact ⟨src, ⟨P.length, src.marker, src.coords⟩, hsrc, by rw [List.getElem?_append_right (by omega)]; simp, rfl, rfl⟩
    · obtain ⟨src, pp, h1, h2, h3⟩ := B.hdata p q h
      refine ⟨src, pp, h1, ?_, h3⟩
      have : q < P.length := (List.getElem?_eq_some_iff.1 h2).1
      rw [List.getElem?_append_left this, h2]
  hcorner := by
    intro c' hc' n' hn'
    rw [hA.pt, HMap.get_insert]
    split
    · rename_i h; obtain ⟨rfl, rfl⟩ := h; intro _; rw [if_pos rfl]
    · intro hu
      have := B.hcorner c' hc' n' hn' hu
      rw [if_neg (by intro he; rw [he, hH] at this; simp at this)]
      exact this
  hinj := by
    have hlt : ∀ p q, H.get p = some q → q < P.length := by
      intro p q h
      obtain ⟨_, pp, _, h2, _⟩ := B.hdata p q h
      exact (List.getElem?_eq_some_iff.1 h2).1
    intro p p' q h h'
    rw [HMap.get_insert] at h h'
    split at h <;> split at h'
    · simp [*]
    · rw [Option.some.injEq] at h; have := hlt p' q h'; omega
    · rw [Option.some.injEq] at h'; have := hlt p q h; omega
    · exact B.hinj p p' q h h'

/-- Copying the point of a node at the same place. -/
theorem Conf.copy (W : Conf m k t P D) (U : Uniform m k t) (C : Conforming m k) (hA : Assigned D D' c n q) (hc : c < m.cells.length) (hn : n < t.nnode)
    {c'' n'' : Nat} (hc'' : c'' < m.cells.length) (hn'' : n'' < t.nnode) (hq : ptOf D c'' n'' = q) (hqu : q ≠ usizeMax)
    (hpl : place m t c n = place m t c'' n'') (hle : c'' ≤ c) (hmk : First m t c n → nodeMarker m k t c n = nodeMarker m k t c'' n'') :
    Conf m k t P D' := by
  -- a node that had a point keeps it
  have keep : ∀ c' < m.cells.length, ∀ n' < t.nnode, ptOf D c' n' ≠ usizeMax → ptOf D' c' n' = ptOf D c' n' := by
    intro c' hc' n' hn' hu
    rw [hA.pt]
    split
    · rename_i h; obtain ⟨rfl, rfl⟩ := h
      rw [← hq]
      exact ((W.shared c' hc' n' hn' c'' hc'' n'' hn'' hu (by rw [hq]; exact hqu)).2 hpl).symm
    · rfl
  have rep : ∀ c' < m.cells.length, ∀ n' < t.nnode, ptOf D' c' n' ≠ usizeMax → ∃ d < m.cells.length, ∃ r < t.nnode, ptOf D d r ≠ usizeMax ∧
      ptOf D' c' n' = ptOf D d r ∧ place m t c' n' = place m t d r := by
    intro c' hc' n' hn' hu
    rw [hA.pt] at hu ⊢
    split
    · rename_i h; obtain ⟨rfl, rfl⟩ := h
      exact ⟨c'', hc'', n'', hn'', by rw [hq]; exact hqu, hq.symm, hpl⟩
    · rename_i h
      rw [if_neg h] at hu
      exact ⟨c', hc', n', hn', hu, rfl, rfl⟩
  refine ⟨?_, ?_, ?_⟩
  · intro c1 h1 n1 g1 c2 h2 n2 g2 u1 u2
    obtain ⟨d1, a1, r1, b1, v1, w1, p1⟩ := rep c1 h1 n1 g1 u1
    obtain ⟨d2, a2, r2, b2, v2, w2, p2⟩ := rep c2 h2 n2 g2 u2
    rw [w1, w2, p1, p2]
    exact W.shared d1 a1 r1 b1 d2 a2 r2 b2 v1 v2
  · intro c1 h1 n1 g1 u1
    by_cases h : c1 = c ∧ n1 = n
    · obtain ⟨rfl, rfl⟩ := h
      obtain ⟨p, e1, e2, e3⟩ := W.coords c'' hc'' n'' hn'' (by rw [hq]; exact hqu)
      refine ⟨p, ?_, ?_, ?_⟩
      · rw [hA.pt, if_pos ⟨rfl, rfl⟩, ← hq]; exact e1
      · intro j hj
        rw [e2 j hj]
        exact U.iso_of_place C hc'' h1 hn'' g1 hpl.symm j
      · intro hf
        rw [hmk hf]
        apply e3
        intro c' hc' n' hn'
        rw [← hpl]
        exact hf c' (by omega) n' hn'
    · rw [hA.pt, if_neg h] at u1 ⊢
      exact W.coords c1 h1 n1 g1 u1
  · intro p hp
    obtain ⟨c1, h1, n1, g1, e1, u1⟩ := W.used p hp
    refine ⟨c1, h1, n1, g1, ?_⟩
    rw [keep c1 h1 n1 g1 u1]
    exact ⟨e1, u1⟩

/-- A new point for a node at a new place. -/
theorem Conf.new (W : Conf m k t P D) (B : Base m t P D H) (hP : P.length < usizeMax) (hA : Assigned D D' c n P.length) (hc : c < m.cells.length) (hn : n < t.nnode)
    (hun : ptOf D c n = usizeMax) (mk : Int) (x : List ℝ) (hx : ∀ j < 2, x.getD j 0 = isoNode m k t c n j)
    (hmk : First m t c n → mk = nodeMarker m k t c n)
    (hnew : ∀ c' < m.cells.length, ∀ n' < t.nnode, ptOf D c' n' ≠ usizeMax → place m t c' n' ≠ place m t c n) :
    Conf m k t (P ++ [⟨P.length, mk, x⟩]) D' := by
  have old : ∀ c' n', ptOf D c' n' ≠ usizeMax → ptOf D' c' n' = ptOf D c' n' := by
    intro c' n' hu
    rw [hA.pt, if_neg (by rintro ⟨rfl, rfl⟩; exact hu hun)]
  refine ⟨?_, ?_, ?_⟩
  · intro c1 h1 n1 g1 c2 h2 n2 g2 u1 u2
    rw [hA.pt] at u1 u2 ⊢
    rw [hA.pt]
    by_cases e1 : c1 = c ∧ n1 = n <;> by_cases e2 : c2 = c ∧ n2 = n
    · obtain ⟨rfl, rfl⟩ := e1; obtain ⟨rfl, rfl⟩ := e2; simp
    · rw [if_pos e1, if_neg e2]
      rw [if_neg e2] at u2
      have := B.small c2 h2 n2 g2 u2
      obtain ⟨rfl, rfl⟩ := e1
      constructor
      · intro h; omega
      · intro h; exact absurd h.symm (hnew c2 h2 n2 g2 u2)
    · rw [if_pos e2, if_neg e1]
      rw [if_neg e1] at u1
      have := B.small c1 h1 n1 g1 u1
      obtain ⟨rfl, rfl⟩ := e2
      constructor
      · intro h; omega
      · intro h; exact absurd h (hnew c1 h1 n1 g1 u1)
    · rw [if_neg e1, if_neg e2]
      rw [if_neg e1] at u1; rw [if_neg e2] at u2
      exact W.shared c1 h1 n1 g1 c2 h2 n2 g2 u1 u2
  · intro c1 h1 n1 g1 u1
    by_cases e1 : c1 = c ∧ n1 = n
    · obtain ⟨rfl, rfl⟩ := e1
      refine ⟨⟨P.length, mk, x⟩, ?_, hx, hmk⟩
      rw [hA.pt, if_pos ⟨rfl, rfl⟩, List.getElem?_append_right (by omega)]
      simp
    · rw [hA.pt, if_neg e1] at u1 ⊢
      obtain ⟨p, a1, a2⟩ := W.coords c1 h1 n1 g1 u1
      refine ⟨p, ?_, a2⟩
      rw [List.getElem?_append_left (B.small c1 h1 n1 g1 u1)]
      exact a1
  · intro p hp
    by_cases hlt : p < P.length
    · obtain ⟨c1, h1, n1, g1, e1, u1⟩ := W.used p hlt
      refine ⟨c1, h1, n1, g1, ?_⟩
      rw [old c1 n1 u1]
      exact ⟨e1, u1⟩
    · have : p = P.length := by simp at hp; omega
      refine ⟨c, hc, n, hn, ?_⟩
      rw [hA.pt, if_pos ⟨rfl, rfl⟩]
      exact ⟨this.symm, by omega⟩

end
end Gemlab.Mesh.Conv
