import Verif.Props.Piercing
import Verif.Props.Closed3
import Verif.Props.GridCells

/-!
# C87: directions, overlaps and the search for cells
-/
namespace Gemlab.Mesh
open Gemlab.Shapes Gemlab.Spec Gemlab.Piercing Gemlab.Props.Features
noncomputable section
open Classical

/-- `p` is on the line through `a` and `b`. -/
def OnLine (p a b : Space) : Prop := ∃ s t : ℝ, IsMean [(s, a), (t, b)] p

/-- A polynomial of degree two that is not zero has finitely many roots. -/
theorem roots_finite {a b c : ℝ} (h : ¬ (a = 0 ∧ b = 0 ∧ c = 0)) : {t : ℝ | a + b * t + c * t ^ 2 = 0}.Finite := by
  let q : Polynomial ℝ := Polynomial.C a + Polynomial.C b * Polynomial.X + Polynomial.C c * Polynomial.X ^ 2
  have hq : q ≠ 0 := by
    intro h0
    apply h
    refine ⟨?_, ?_, ?_⟩
    · have := congrArg (fun r => Polynomial.coeff r 0) h0
      simpa [q, Polynomial.coeff_X, Polynomial.coeff_X_pow] using this
    · have := congrArg (fun r => Polynomial.coeff r 1) h0
      simpa [q, Polynomial.coeff_X, Polynomial.coeff_X_pow, Polynomial.coeff_C] using this
    · have := congrArg (fun r => Polynomial.coeff r 2) h0
      simpa [q, Polynomial.coeff_X, Polynomial.coeff_X_pow, Polynomial.coeff_C] using this
  refine (Polynomial.finite_setOf_isRoot hq).subset ?_
  intro t ht
  simp only [Set.mem_setOf_eq] at ht ⊢
  simp only [Polynomial.IsRoot, q, Polynomial.eval_add, Polynomial.eval_mul, Polynomial.eval_C, Polynomial.eval_X, Polynomial.eval_pow]
  exact ht

/-- Points that are not on a line. -/
theorem off_line {p a b : Space} (hab : a ≠ b) (h : ¬ OnLine p a b) (t : ℝ) :
    ∃ x y z : ℝ, ¬ (x = 0 ∧ y = 0 ∧ z = 0) ∧ ∀ t, det3 (sub a p) (sub b p) (1, t, t ^ 2) = x + y * t + z * t ^ 2 := by
  obtain ⟨a1, a2, a3⟩ := a
  obtain ⟨b1, b2, b3⟩ := b
  obtain ⟨p1, p2, p3⟩ := p
  refine ⟨(a2 - p2) * (b3 - p3) - (a3 - p3) * (b2 - p2), (a3 - p3) * (b1 - p1) - (a1 - p1) * (b3 - p3), (a1 - p1) * (b2 - p2) - (a2 - p2) * (b1 - p1), ?_, ?_⟩
  · rintro ⟨h1, h2, h3⟩
    apply h
    have mean2 : ∀ s t : ℝ, s + t = 1 → s * a1 + t * b1 = p1 → s * a2 + t * b2 = p2 → s * a3 + t * b3 = p3 → OnLine (p1, p2, p3) (a1, a2, a3) (b1, b2, b3) := by
      intro s t e1 e2 e3 e4
      refine ⟨s, t, ?_, ?_, ?_, ?_⟩ <;> simp only [List.map_cons, List.map_nil, List.sum_cons, List.sum_nil, add_zero] <;> assumption
    by_cases d1 : a1 - b1 = 0
    · by_cases d2 : a2 - b2 = 0
      · have d3 : a3 - b3 ≠ 0 := by
          intro d3
          apply hab
          rw [show a1 = b1 by linarith, show a2 = b2 by linarith, show a3 = b3 by linarith]
        refine mean2 (-(b3 - p3) / (a3 - b3)) ((a3 - p3) / (a3 - b3)) ?_ ?_ ?_ ?_ <;> field_simp <;> linarith
      · refine mean2 (-(b2 - p2) / (a2 - b2)) ((a2 - p2) / (a2 - b2)) ?_ ?_ ?_ ?_ <;> field_simp <;> linarith
    · refine mean2 (-(b1 - p1) / (a1 - b1)) ((a1 - p1) / (a1 - b1)) ?_ ?_ ?_ ?_ <;> field_simp <;> linarith
  · intro t
    simp only [det3, sub]; ring

/-- There is a direction that passes by finitely many lines. -/
theorem exists_direction (p : Space) (L : List (Space × Space)) (h : ∀ e ∈ L, e.1 ≠ e.2 ∧ ¬ OnLine p e.1 e.2) : ∃ d, ∀ e ∈ L, PassesBy p d e.1 e.2 := by
  have hfin : {t : ℝ | ∃ e ∈ L, det3 (sub e.1 p) (sub e.2 p) (1, t, t ^ 2) = 0}.Finite := by
    have : {t : ℝ | ∃ e ∈ L, det3 (sub e.1 p) (sub e.2 p) (1, t, t ^ 2) = 0} = ⋃ e ∈ L.toFinset, {t : ℝ | det3 (sub e.1 p) (sub e.2 p) (1, t, t ^ 2) = 0} := by
      ext t; simp
    rw [this]
    refine Set.Finite.biUnion (Finset.finite_toSet _) fun e he => ?_
    have he' : e ∈ L := List.mem_toFinset.1 he
    obtain ⟨x, y, z, hne, heq⟩ := off_line (h e he').1 (h e he').2 0
    simp only [heq]
    exact roots_finite hne
  obtain ⟨t, ht⟩ := hfin.exists_notMem
  exact ⟨(1, t, t ^ 2), fun e he h0 => ht ⟨e, he, h0⟩⟩

/-- The corners of a tetrahedron that is not flat are different. -/
theorem positive_ne {a b c e : Space} (h : Positive a b c e) : a ≠ b ∧ a ≠ c ∧ a ≠ e ∧ b ≠ c ∧ b ≠ e ∧ c ≠ e := by
  unfold Positive at h
  refine ⟨?_, ?_, ?_, ?_, ?_, ?_⟩ <;> rintro rfl <;> · simp only [det3, sub] at h; ring_nf at h; exact lt_irrefl _ h

/-- **C87.** For every point that is not on the line through two nodes of a cell, there is a direction as required by `C87_enclosed`. -/
theorem C87_direction {m : Mesh ℝ} (hc : ∀ cell ∈ m.cells, cell.kind.ndim = 3 → PositiveCell m cell) (p : Space)
    (hp : ∀ cell ∈ m.cells, cell.kind.ndim = 3 → ∀ i j, i < j → j < 4 → ¬ OnLine p (nodeAt m cell i) (nodeAt m cell j)) :
    ∃ d, ∀ cell ∈ m.cells, cell.kind.ndim = 3 → ∀ i j, i < j → j < 4 → PassesBy p d (nodeAt m cell i) (nodeAt m cell j) := by
  let L : List (Space × Space) := (m.cells.filter fun c => c.kind.ndim = 3).flatMap fun cell =>
    [(0, 1), (0, 2), (0, 3), (1, 2), (1, 3), (2, 3)].map fun e => (nodeAt m cell e.1, nodeAt m cell e.2)
  have hmem : ∀ cell ∈ m.cells, cell.kind.ndim = 3 → ∀ i j, i < j → j < 4 → (nodeAt m cell i, nodeAt m cell j) ∈ L := by
    intro cell h1 h2 i j hij hj
    refine List.mem_flatMap.2 ⟨cell, by simp [h1, h2], List.mem_map.2 ⟨(i, j), ?_, rfl⟩⟩
    have hi : i < 3 := by omega
    interval_cases i <;> interval_cases j <;> first | omega | simp
  obtain ⟨d, hd⟩ := exists_direction p L (by
    intro e he
    obtain ⟨cell, h1, h2⟩ := List.mem_flatMap.1 he
    obtain ⟨h1, h3⟩ := List.mem_filter.1 h1
    have h3 : cell.kind.ndim = 3 := by simpa using h3
    obtain ⟨n1, n2, n3, n4, n5, n6⟩ := positive_ne (hc cell h1 h3)
    obtain ⟨⟨i, j⟩, h4, rfl⟩ := List.mem_map.1 h2
    simp only [List.mem_cons, Prod.mk.injEq, List.not_mem_nil, or_false] at h4
    rcases h4 with ⟨rfl, rfl⟩ | ⟨rfl, rfl⟩ | ⟨rfl, rfl⟩ | ⟨rfl, rfl⟩ | ⟨rfl, rfl⟩ | ⟨rfl, rfl⟩
    · exact ⟨n1, hp cell h1 h3 _ _ (by omega) (by omega)⟩
    · exact ⟨n2, hp cell h1 h3 _ _ (by omega) (by omega)⟩
    · exact ⟨n3, hp cell h1 h3 _ _ (by omega) (by omega)⟩
    · exact ⟨n4, hp cell h1 h3 _ _ (by omega) (by omega)⟩
    · exact ⟨n5, hp cell h1 h3 _ _ (by omega) (by omega)⟩
    · exact ⟨n6, hp cell h1 h3 _ _ (by omega) (by omega)⟩)
  exact ⟨d, fun cell h1 h2 i j h3 h4 => hd _ (hmem cell h1 h2 i j h3 h4)⟩

theorem countP_unique {α : Type} {P : α → Bool} : ∀ {l : List α}, l.countP P ≤ 1 → ∀ {c c' : Nat} {x x' : α},
    l[c]? = some x → l[c']? = some x' → P x → P x' → c = c' := by
  intro l
  induction l with
  | nil => intro _ c c' x x' h; simp at h
  | cons a l ih =>
    intro h c c' x x' h1 h2 h3 h4
    rw [List.countP_cons] at h
    have pos : ∀ {c : Nat} {x : α}, l[c]? = some x → P x → 0 < l.countP P := fun h1 h2 =>
      List.countP_pos_iff.2 ⟨_, List.mem_of_getElem? h1, h2⟩
    cases c with
    | zero =>
      cases c' with
      | zero => rfl
      | succ c' =>
        rw [List.getElem?_cons_zero, Option.some.injEq] at h1
        subst h1
        have := pos (by simpa using h2) h4
        simp only [h3, if_true] at h
        omega
    | succ c =>
      cases c' with
      | zero =>
        rw [List.getElem?_cons_zero, Option.some.injEq] at h2
        subst h2
        have := pos (by simpa using h1) h3
        simp only [h4, if_true] at h
        omega
      | succ c' =>
        exact congrArg (· + 1) (ih (c := c) (c' := c') (by omega) (by simpa using h1) (by simpa using h2) h3 h4)

/-- **C87.** No two cells overlap where the ray leaves the boundary at most once more than it enters it. -/
theorem C87_no_overlap {m : Mesh ℝ} {x : Extracted ℝ} {F : Features} (hF : IsNew m false x F) (h : ValidMesh m) (h3 : m.ndim = 3) (ho : OrientedFaces m)
    (hk : ∀ cell ∈ m.cells, cell.kind.ndim = 3 → cell.kind = .tet4) (hc : ∀ cell ∈ m.cells, cell.kind.ndim = 3 → PositiveCell m cell) (p d : Space)
    (hd : ∀ cell ∈ m.cells, cell.kind.ndim = 3 → ∀ i j, i < j → j < 4 → PassesBy p d (nodeAt m cell i) (nodeAt m cell j))
    (hp : ∀ cell ∈ m.cells, cell.kind.ndim = 3 → ¬ OnFaceOf m p cell) (hw : boundaryPiercing m F p d ≤ 1)
    {c c' : Nat} {cell cell' : Cell} (h1 : m.cells[c]? = some cell) (h2 : m.cells[c']? = some cell') (h5 : cell.kind.ndim = 3) (h6 : cell'.kind.ndim = 3)
    (h7 : InsideCell m p cell) (h8 : InsideCell m p cell') : c = c' := by
  rw [C87_enclosed hF h h3 ho hk hc p d hd hp] at hw
  exact countP_unique (by exact_mod_cast hw) h1 h2 (by simp [h5, h7]) (by simp [h6, h8])

/-- A point that is on no face of a tetrahedron is in its interior or not in it. -/
theorem hull_tetrahedron {m : Mesh ℝ} (h3 : m.ndim = 3) {cell : Cell} (hl : cell.points.length = 4) (h : PositiveCell m cell) {y : List ℝ}
    (hp : ¬ OnFaceOf m (at' y 0, at' y 1, at' y 2) cell) : GridCells.InHull m cell y ↔ InsideCell m (at' y 0, at' y 1, at' y 2) cell := by
  match hq : cell.points, hl with
  | [i, j, k, l], _ =>
    have n0 : nodeAt m cell 0 = spacePoint m i := by simp [nodeAt, hq]
    have n1 : nodeAt m cell 1 = spacePoint m j := by simp [nodeAt, hq]
    have n2 : nodeAt m cell 2 = spacePoint m k := by simp [nodeAt, hq]
    have n3 : nodeAt m cell 3 = spacePoint m l := by simp [nodeAt, hq]
    have hc : ∀ q, GridCells.coord m q 0 = (spacePoint m q).1 ∧ GridCells.coord m q 1 = (spacePoint m q).2.1 ∧ GridCells.coord m q 2 = (spacePoint m q).2.2 :=
      fun q => ⟨rfl, rfl, rfl⟩
    constructor
    · rintro ⟨w, ⟨h1, h4, h5⟩, h6⟩
      rw [hq] at h1 h5
      match w, h1 with
      | [α, β, γ, δ], _ =>
        simp only [List.sum_cons, List.sum_nil, add_zero, List.zipWith_cons_cons, List.zipWith_nil_right] at h4 h5
        have x0 := h5 0 (by omega)
        have x1 := h5 1 (by omega)
        have x2 := h5 2 (by omega)
        rw [(hc i).1, (hc j).1, (hc k).1, (hc l).1] at x0
        rw [(hc i).2.1, (hc j).2.1, (hc k).2.1, (hc l).2.1] at x1
        rw [(hc i).2.2, (hc j).2.2, (hc k).2.2, (hc l).2.2] at x2
        simp only [List.mem_cons, List.not_mem_nil, or_false, forall_eq_or_imp, forall_eq] at h6
        obtain ⟨a0, b0, c0, d0⟩ := h6
        rw [← n0, ← n1, ← n2, ← n3] at x0 x1 x2
        refine ⟨α, β, γ, δ, lt_of_le_of_ne a0 fun e => hp ⟨1, 2, 3, by omega, by omega, by omega, β, γ, δ, b0, c0, d0, ?_⟩,
          lt_of_le_of_ne b0 fun e => hp ⟨0, 2, 3, by omega, by omega, by omega, α, γ, δ, a0, c0, d0, ?_⟩,
          lt_of_le_of_ne c0 fun e => hp ⟨0, 1, 3, by omega, by omega, by omega, α, β, δ, a0, b0, d0, ?_⟩,
          lt_of_le_of_ne d0 fun e => hp ⟨0, 1, 2, by omega, by omega, by omega, α, β, γ, a0, b0, c0, ?_⟩, ?_⟩
        · rw [← e] at h4 x0 x1 x2; exact mean3' (by linarith) (by simp only; linarith) (by simp only; linarith) (by simp only; linarith)
        · rw [← e] at h4 x0 x1 x2; exact mean3' (by linarith) (by simp only; linarith) (by simp only; linarith) (by simp only; linarith)
        · rw [← e] at h4 x0 x1 x2; exact mean3' (by linarith) (by simp only; linarith) (by simp only; linarith) (by simp only; linarith)
        · rw [← e] at h4 x0 x1 x2; exact mean3' (by linarith) (by simp only; linarith) (by simp only; linarith) (by simp only; linarith)
        · refine ⟨?_, ?_, ?_, ?_⟩ <;> simp only [List.map_cons, List.map_nil, List.sum_cons, List.sum_nil, add_zero] <;> linarith
    · rintro ⟨α, β, γ, δ, a0, b0, c0, d0, hm⟩
      obtain ⟨e1, e2, e3, e4⟩ := mean4 hm
      rw [n0, n1, n2, n3] at e2 e3 e4
      refine ⟨[α, β, γ, δ], ⟨by rw [hq]; rfl, by simp only [List.sum_cons, List.sum_nil, add_zero]; linarith, ?_⟩, ?_⟩
      · intro q hlt
        rw [hq]
        simp only [List.sum_cons, List.sum_nil, add_zero, List.zipWith_cons_cons, List.zipWith_nil_right]
        have : q = 0 ∨ q = 1 ∨ q = 2 := by omega
        rcases this with rfl | rfl | rfl
        · rw [(hc i).1, (hc j).1, (hc k).1, (hc l).1]; simp only at e2; linarith
        · rw [(hc i).2.1, (hc j).2.1, (hc k).2.1, (hc l).2.1]; simp only at e3; linarith
        · rw [(hc i).2.2, (hc j).2.2, (hc k).2.2, (hc l).2.2]; simp only at e4; linarith
      · simp only [List.mem_cons, List.not_mem_nil, or_false, forall_eq_or_imp, forall_eq]
        exact ⟨a0.le, b0.le, c0.le, d0.le⟩

/-- **C87.** In a mesh of tetrahedra, `GridCells::search` finds a cell if and only if the boundary surrounds the point; if the ray leaves the boundary
exactly once more than it enters it, the cell that is found is the only one that contains the point. -/
theorem C87_search {m : Mesh ℝ} {x : Extracted ℝ} {F : Features} (hF : IsNew m false x F) (h3 : m.ndim = 3) (ho : OrientedFaces m)
    (hk : ∀ cell ∈ m.cells, cell.kind = .tet4) (hc : ∀ cell ∈ m.cells, PositiveCell m cell)
    {tol border cutoff pct : Option ℝ} (hs : GridCells.Setting m tol border cutoff pct) {g : GridCells} (hg : GridCells.new m tol border cutoff pct = .ok g)
    {iter : List Nat → List Nat} (hit : IterOrder iter) {zeta : List ℝ} (hz : zeta.length = 4) {y : List ℝ} (hy : y.length = 3) (d : Space)
    (hd : ∀ cell ∈ m.cells, ∀ i j, i < j → j < 4 → PassesBy (at' y 0, at' y 1, at' y 2) d (nodeAt m cell i) (nodeAt m cell j))
    (hp : ∀ cell ∈ m.cells, ¬ OnFaceOf m (at' y 0, at' y 1, at' y 2) cell) :
    (0 < boundaryPiercing m F (at' y 0, at' y 1, at' y 2) d ↔ ∃ id z, GridCells.search iter g zeta y = .ok (some id, z)) ∧
    (boundaryPiercing m F (at' y 0, at' y 1, at' y 2) d = 1 → ∃ id z, GridCells.search iter g zeta y = .ok (some id, z) ∧
      ∀ (c : Nat) (cell : Cell), m.cells[c]? = some cell → (GridCells.InHull m cell y ↔ c = id)) := by
  have hkd : ∀ cell ∈ m.cells, cell.kind.ndim = 3 := fun cell h => by rw [hk cell h]; rfl
  have hlen : ∀ cell ∈ m.cells, cell.points.length = 4 := fun cell h => by rw [hs.valid.nnode cell h, hk cell h]; rfl
  have hsim : GridCells.Simplicial m := Or.inr ⟨h3, hk⟩
  have hnd : ∀ cell ∈ m.cells, GridCells.NonDegenerate m cell := by
    intro cell hcell
    have hl := hlen cell hcell
    have hcv := hc cell hcell
    unfold GridCells.NonDegenerate
    rw [h3]
    match hq : cell.points, hl with
    | [i, j, k, l], _ =>
      unfold PositiveCell at hcv
      have n0 : nodeAt m cell 0 = spacePoint m i := by simp [nodeAt, hq]
      have n1 : nodeAt m cell 1 = spacePoint m j := by simp [nodeAt, hq]
      have n2 : nodeAt m cell 2 = spacePoint m k := by simp [nodeAt, hq]
      have n3 : nodeAt m cell 3 = spacePoint m l := by simp [nodeAt, hq]
      rw [n0, n1, n2, n3] at hcv
      exact ne_of_gt hcv
  have hw := C87_enclosed hF hs.valid h3 ho (fun cell h _ => hk cell h) (fun cell h _ => hc cell h) (at' y 0, at' y 1, at' y 2) d
    (fun cell h _ => hd cell h) (fun cell h _ => hp cell h)
  have hhull : ∀ cell ∈ m.cells, (GridCells.InHull m cell y ↔ InsideCell m (at' y 0, at' y 1, at' y 2) cell) := fun cell h =>
    hull_tetrahedron h3 (hlen cell h) (hc cell h) (hp cell h)
  have hiff : 0 < boundaryPiercing m F (at' y 0, at' y 1, at' y 2) d ↔ ∃ cell ∈ m.cells, GridCells.InHull m cell y := by
    rw [hw, Int.natCast_pos, List.countP_pos_iff]
    constructor
    · rintro ⟨cell, h1, h3⟩
      exact ⟨cell, h1, (hhull cell h1).2 (by simpa using (of_decide_eq_true h3).2)⟩
    · rintro ⟨cell, h1, h3⟩
      exact ⟨cell, h1, by simp [hkd cell h1, (hhull cell h1).1 h3]⟩
  have hfound : (∃ cell ∈ m.cells, GridCells.InHull m cell y) → ∃ id z, GridCells.search iter g zeta y = .ok (some id, z) := by
    intro h
    obtain ⟨id, z, -, h1, -⟩ := GridCells.C35_found hs hg hsim hnd hit hz (by rw [hy, h3]) h
    exact ⟨id, z, h1⟩
  have honly : ∀ id z, GridCells.search iter g zeta y = .ok (some id, z) → ∃ c, m.cells[id]? = some c ∧ GridCells.InHull m c y := by
    intro id z h
    obtain ⟨c, h1, h3, -⟩ := GridCells.C35_only_containing hs hg hsim hnd hit h
    exact ⟨c, h1, h3⟩
  refine ⟨⟨fun h => hfound (hiff.1 h), ?_⟩, ?_⟩
  · rintro ⟨id, z, h⟩
    obtain ⟨c, h1, h3⟩ := honly id z h
    exact hiff.2 ⟨c, List.mem_of_getElem? h1, h3⟩
  · intro h
    obtain ⟨id, z, h1⟩ := hfound (hiff.1 (by omega))
    refine ⟨id, z, h1, fun c cell hcell => ?_⟩
    obtain ⟨c', h4, h5⟩ := honly id z h1
    constructor
    · intro h6
      exact C87_no_overlap hF hs.valid h3 ho (fun cell h _ => hk cell h) (fun cell h _ => hc cell h) _ d (fun cell h _ => hd cell h) (fun cell h _ => hp cell h)
        h.le hcell h4 (hkd cell (List.mem_of_getElem? hcell)) (hkd c' (List.mem_of_getElem? h4)) ((hhull cell (List.mem_of_getElem? hcell)).1 h6)
        ((hhull c' (List.mem_of_getElem? h4)).1 h5)
    · rintro rfl
      rw [hcell, Option.some.injEq] at h4
      subst h4
      exact h5

end
end Gemlab.Mesh
