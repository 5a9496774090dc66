import Verif.Proofs.Winding
import Verif.Props.Divergence2

/-!
# C78: The extracted boundary encloses exactly the cells
-/
namespace Gemlab.Mesh
open Gemlab.Shapes Gemlab.Spec Gemlab.Props.Features
noncomputable section
open Classical

/-- The extracted boundary edges as directed sides in the plane (from the second to the first point: the cells are on the left). -/
def boundarySides (m : Mesh ℝ) (F : Features) : List ((ℝ × ℝ) × (ℝ × ℝ)) :=
  F.edges.map fun e => (planePoint m (e.2.points.getD 1 0), planePoint m (e.2.points.getD 0 0))

theorem convex_three {a b c : ℝ × ℝ} (h : ConvexCcw [a, b, c]) : 0 < sideOf a b c := by
  obtain ⟨-, hn, h⟩ := h
  simp only [List.nodup_cons, List.mem_cons, List.not_mem_nil, or_false, not_or] at hn
  rcases h (a, b) (by simp [sidesOf]) c (by simp) with rfl | rfl | h
  · exact absurd rfl hn.1.2
  · exact absurd rfl hn.2.1
  · exact h

theorem convex_four {a b c d : ℝ × ℝ} (h : ConvexCcw [a, b, c, d]) : 0 < sideOf a b c ∧ 0 < sideOf b c d ∧ 0 < sideOf c d a ∧ 0 < sideOf d a b := by
  obtain ⟨-, hn, h⟩ := h
  simp only [List.nodup_cons, List.mem_cons, List.not_mem_nil, or_false, not_or] at hn
  obtain ⟨⟨n1, n2, n3⟩, ⟨n4, n5⟩, n6, -⟩ := hn
  refine ⟨?_, ?_, ?_, ?_⟩
  · rcases h (a, b) (by simp [sidesOf]) c (by simp) with h | h | h
    · exact absurd h.symm n2
    · exact absurd h.symm n4
    · exact h
  · rcases h (b, c) (by simp [sidesOf]) d (by simp) with h | h | h
    · exact absurd h.symm n5
    · exact absurd h.symm n6
    · exact h
  · rcases h (c, d) (by simp [sidesOf]) a (by simp) with h | h | h
    · exact absurd h n2
    · exact absurd h n3
    · exact h
  · rcases h (d, a) (by simp [sidesOf]) b (by simp) with h | h | h
    · exact absurd h n5
    · exact absurd h.symm n1
    · exact h

/-- The sides of a convex triangle or quadrilateral run once around the points inside, and not around the points outside. -/
theorem C78_convex {l : List (ℝ × ℝ)} (hl : l.length = 3 ∨ l.length = 4) (h : ConvexCcw l) {p : ℝ × ℝ} (hp : ¬ OnSide l p) :
    windingNumber p (sidesOf l) = if InPolygon l p then 1 else 0 := by
  rcases hl with hl | hl
  · match l, hl with
    | [a, b, c], _ =>
      have := wind3 (p := p) (convex_three h) (fun q => hp ⟨(a, b), by simp [sidesOf], q⟩) (fun q => hp ⟨(b, c), by simp [sidesOf], q⟩) (fun q => hp ⟨(c, a), by simp [sidesOf], q⟩)
      unfold Wind3 at this
      refine ite_same (Q := InPolygon [a, b, c] p) (P := (0 < sideOf a b p ∧ 0 < sideOf b c p ∧ 0 < sideOf c a p)) ?_ ?_
      · rw [← this]; simp [windingNumber, sidesOf]; ring
      · simp [InPolygon, sidesOf]
  · match l, hl with
    | [a, b, c, d], _ =>
      obtain ⟨t1, t2, t3, t4⟩ := convex_four h
      have := wind4 (p := p) t1 t2 t3 t4 (fun q => hp ⟨(a, b), by simp [sidesOf], q⟩) (fun q => hp ⟨(b, c), by simp [sidesOf], q⟩) (fun q => hp ⟨(c, d), by simp [sidesOf], q⟩) (fun q => hp ⟨(d, a), by simp [sidesOf], q⟩)
      unfold Wind4 at this
      refine ite_same (Q := InPolygon [a, b, c, d] p) (P := (0 < sideOf a b p ∧ 0 < sideOf b c p ∧ 0 < sideOf c d p ∧ 0 < sideOf d a p)) ?_ ?_
      · rw [← this]; simp [windingNumber, sidesOf]; ring
      · simp [InPolygon, sidesOf]

/-- The local edges of triangles and quadrilaterals run from one corner to the previous one. -/
theorem edge_corner (k : GeoKind) (hk : k.ndim = 2) :
    (k.classOf = .tri ∧ k.nedge = 3 ∧ (List.range 3).map (fun e => (edgeNode k e 1, edgeNode k e 0)) = [(0, 1), (1, 2), (2, 0)]) ∨
    (k.classOf ≠ .tri ∧ k.nedge = 4 ∧ (List.range 4).map (fun e => (edgeNode k e 1, edgeNode k e 0)) = [(0, 1), (1, 2), (2, 3), (3, 0)]) := by
  cases k <;> first | exact absurd hk (by decide) | decide

/-- The edges of one cell run around the points in its corner polygon. -/
theorem cell_winding {m : Mesh ℝ} {cell : Cell} (hk : cell.kind.ndim = 2) (h : ConvexCcw (cornersOf m cell)) {p : ℝ × ℝ} (hp : ¬ OnSide (cornersOf m cell) p) :
    ∑ e ∈ Finset.range cell.kind.nedge, crossing p (planePoint m (edgeEnds cell e).2) (planePoint m (edgeEnds cell e).1) =
      if InPolygon (cornersOf m cell) p then 1 else 0 := by
  have hw := C78_convex (by unfold cornersOf; split_ifs <;> simp) h hp
  rw [← hw]
  rcases edge_corner cell.kind hk with ⟨h1, h2, h3⟩ | ⟨h1, h2, h3⟩
  · simp only [List.range_succ, List.range_zero, List.nil_append, List.map_append, List.map_cons, List.map_nil, List.cons_append, List.cons.injEq, Prod.mk.injEq, and_true] at h3
    obtain ⟨⟨a1, a2⟩, ⟨a3, a4⟩, a5, a6⟩ := h3
    rw [h2, Finset.sum_range_succ, Finset.sum_range_succ, Finset.sum_range_succ, Finset.sum_range_zero]
    unfold cornersOf edgeEnds
    rw [if_pos h1, a1, a2, a3, a4, a5, a6]
    simp [windingNumber, sidesOf, List.range_succ]
    ring
  · simp only [List.range_succ, List.range_zero, List.nil_append, List.map_append, List.map_cons, List.map_nil, List.cons_append, List.cons.injEq, Prod.mk.injEq, and_true] at h3
    obtain ⟨⟨a1, a2⟩, ⟨a3, a4⟩, ⟨a5, a6⟩, a7, a8⟩ := h3
    rw [h2, Finset.sum_range_succ, Finset.sum_range_succ, Finset.sum_range_succ, Finset.sum_range_succ, Finset.sum_range_zero]
    unfold cornersOf edgeEnds
    rw [if_neg h1, a1, a2, a3, a4, a5, a6, a7, a8]
    simp [windingNumber, sidesOf, List.range_succ]
    ring

/-- The winding number of the extracted boundary around a point is the number of cells that contain the point. -/
theorem C78_enclosed {m : Mesh ℝ} {x : Extracted ℝ} {F : Features} (hF : IsNew m false x F) (h : ValidMesh m) (h2 : m.ndim = 2) (ho : OrientedEdges m)
    (hc : ∀ cell ∈ m.cells, cell.kind.ndim = 2 → ConvexCcw (cornersOf m cell)) (p : ℝ × ℝ)
    (hp : ∀ cell ∈ m.cells, cell.kind.ndim = 2 → ¬ OnSide (cornersOf m cell) p) :
    windingNumber p (boundarySides m F) = m.cells.countP fun cell => cell.kind.ndim = 2 ∧ InPolygon (cornersOf m cell) p := by
  obtain ⟨_, hx⟩ | ⟨h3, _⟩ := hF.extracted
  swap
  · omega
  obtain ⟨hn, hb⟩ := boundary_keys hF h2
  let w : (Σ _ : Nat, Nat) → ℤ := fun y => match m.cells[y.1]? with
    | none => 0
    | some cell => crossing p (planePoint m (edgeEnds cell y.2).2) (planePoint m (edgeEnds cell y.2).1)
  have hw : ∀ {c : Nat} {cell : Cell} (e : Nat), m.cells[c]? = some cell →
      w ⟨c, e⟩ = crossing p (planePoint m (edgeEnds cell e).2) (planePoint m (edgeEnds cell e).1) := by
    intro c cell e hcell
    simp only [w, hcell]
  have key := edges_total h w ho.two (by
    intro key c e c' e' k1 k2 k3
    obtain ⟨cell, g1, -⟩ := k1.mem
    obtain ⟨cell', g2, -⟩ := k2.mem
    rw [hw e g1, hw e' g2, ho.opposite k1 k2 k3 g1 g2, Prod.fst_swap, Prod.snd_swap, crossing_swap]
    ring) F.edges hn hb (fun e => crossing p (planePoint m (e.2.points.getD 1 0)) (planePoint m (e.2.points.getD 0 0))) (by
    rintro ⟨key, f⟩ he c0 k0 hck
    obtain ⟨c', e', hone, huniq⟩ := (hb key).1 (List.mem_map_of_mem he)
    obtain ⟨c'', e'', hfirst, ⟨cell', hc', hek, hlen, hpts⟩, -⟩ := hx.data key f (by rw [← hF.edges]; exact HMap.get_of_mem hn he)
    obtain ⟨rfl, rfl⟩ := huniq _ _ hck
    obtain ⟨rfl, rfl⟩ := huniq _ _ hfirst.1
    have hn2 : 2 ≤ f.kind.nnode := by
      have := (edgeKind_nnode _ _ hek).2
      generalize f.kind = q at this
      cases q <;> first | exact absurd this (by decide) | decide
    rw [hw _ hc']
    show crossing p (planePoint m (f.points.getD 1 0)) (planePoint m (f.points.getD 0 0)) = _
    unfold edgeEnds
    rw [List.getD_eq_getElem?_getD, List.getD_eq_getElem?_getD, hpts 0 (by omega), hpts 1 (by omega), List.getD_eq_getElem?_getD, List.getD_eq_getElem?_getD])
  unfold windingNumber boundarySides
  rw [List.map_map]
  refine Eq.trans (Eq.trans ?_ key) ?_
  · rfl
  unfold allEdges
  rw [Finset.sum_sigma]
  have hsum : ∀ l : List Cell, (∀ (c : Nat) cell, l[c]? = some cell → cell ∈ m.cells) → ∀ g : Nat → ℤ,
      (∀ (c : Nat) cell, l[c]? = some cell → g c = if cell.kind.ndim = 2 ∧ InPolygon (cornersOf m cell) p then 1 else 0) →
      ∑ c ∈ Finset.range l.length, g c = l.countP fun cell => cell.kind.ndim = 2 ∧ InPolygon (cornersOf m cell) p := by
    intro l
    induction l with
    | nil => intros; simp
    | cons a l ih =>
      intro h1 g hg
      rw [List.length_cons, Finset.sum_range_succ', ih (fun c cell hh => h1 (c + 1) cell (by simpa using hh)) (fun c => g (c + 1)) (fun c cell hh => hg (c + 1) cell (by simpa using hh)),
        hg 0 a rfl, List.countP_cons]
      by_cases hq : a.kind.ndim = 2 ∧ InPolygon (cornersOf m a) p
      · simp [hq]
      · simp [hq]
  refine hsum m.cells (fun c cell hh => List.mem_of_getElem? hh) _ ?_
  intro c cell hcell
  rw [hcell, Option.map_some, Option.getD_some]
  by_cases hd : cell.kind.ndim = 2
  · rw [if_pos hd, Finset.sum_congr rfl (fun e _ => hw e hcell), cell_winding hd (hc cell (List.mem_of_getElem? hcell) hd) (hp cell (List.mem_of_getElem? hcell) hd)]
    simp [hd]
  · rw [if_neg hd]; simp [hd]

/-- No two cells overlap where the boundary runs at most once around the points. -/
theorem C78_no_overlap {m : Mesh ℝ} {x : Extracted ℝ} {F : Features} (hF : IsNew m false x F) (h : ValidMesh m) (h2 : m.ndim = 2) (ho : OrientedEdges m)
    (hc : ∀ cell ∈ m.cells, cell.kind.ndim = 2 → ConvexCcw (cornersOf m cell)) (p : ℝ × ℝ)
    (hp : ∀ cell ∈ m.cells, cell.kind.ndim = 2 → ¬ OnSide (cornersOf m cell) p) (hw : windingNumber p (boundarySides m F) ≤ 1)
    {c c' : Nat} {cell cell' : Cell} (h3 : m.cells[c]? = some cell) (h4 : m.cells[c']? = some cell') (h5 : cell.kind.ndim = 2) (h6 : cell'.kind.ndim = 2)
    (h7 : InPolygon (cornersOf m cell) p) (h8 : InPolygon (cornersOf m cell') p) : c = c' := by
  rw [C78_enclosed hF h h2 ho hc p hp] at hw
  have hw' : (m.cells.countP fun cell => cell.kind.ndim = 2 ∧ InPolygon (cornersOf m cell) p) ≤ 1 := by exact_mod_cast hw
  generalize m.cells = l at *
  clear hc hp hw
  induction l generalizing c c' with
  | nil => simp at h3
  | cons a l ih =>
    rw [List.countP_cons] at hw'
    have pos : ∀ {c : Nat} {cell : Cell}, l[c]? = some cell → cell.kind.ndim = 2 → InPolygon (cornersOf m cell) p →
        0 < l.countP fun cell => decide (cell.kind.ndim = 2 ∧ InPolygon (cornersOf m cell) p) := by
      intro c cell q1 q2 q3
      exact List.countP_pos_iff.2 ⟨cell, List.mem_of_getElem? q1, by simp [q2, q3]⟩
    cases c with
    | zero =>
      cases c' with
      | zero => rfl
      | succ j =>
        simp only [List.getElem?_cons_zero, Option.some.injEq, List.getElem?_cons_succ] at h3 h4
        subst h3
        have := pos h4 h6 h8
        rw [if_pos (by simp [h5, h7])] at hw'
        omega
    | succ i =>
      cases c' with
      | zero =>
        simp only [List.getElem?_cons_zero, Option.some.injEq, List.getElem?_cons_succ] at h3 h4
        subst h4
        have := pos h3 h5 h7
        rw [if_pos (by simp [h6, h8])] at hw'
        omega
      | succ j =>
        simp only [List.getElem?_cons_succ] at h3 h4
        rw [ih h3 h4 (by omega)]

end
end Gemlab.Mesh
