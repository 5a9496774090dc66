import Verif.Props.Winding
import Verif.Props.Closed3
import Verif.Props.GridCells
import Verif.Props.Divergence5

/-!
# C78: boundary sides that are subdivided; finding cells
-/
namespace Gemlab.Mesh
open Gemlab.Shapes Gemlab.Spec Gemlab.Props.Features
noncomputable section
open Classical

/-- Subdividing a side does not change what it contributes. -/
theorem C78_subdivide {a b c : ℝ × ℝ} (p : ℝ × ℝ) (h : b ∈ segment ℝ a c) : crossing p a b + crossing p b c = crossing p a c := by
  -- the rising case
  have up : ∀ {a b c : ℝ × ℝ}, b ∈ segment ℝ a c → a.2 ≤ p.2 → p.2 < c.2 → crossing p a b + crossing p b c = crossing p a c := by
    rintro a b c ⟨u, v, hu, hv, huv, rfl⟩ ha hc
    have s1 : sideOf a (u • a + v • c) p = v * sideOf a c p := by
      obtain rfl : u = 1 - v := by linarith
      simp only [sideOf, Prod.fst_add, Prod.snd_add, Prod.smul_fst, Prod.smul_snd, smul_eq_mul]; ring
    have s2 : sideOf (u • a + v • c) c p = u * sideOf a c p := by
      obtain rfl : u = 1 - v := by linarith
      simp only [sideOf, Prod.fst_add, Prod.snd_add, Prod.smul_fst, Prod.smul_snd, smul_eq_mul]; ring
    have hy : (u • a + v • c).2 = u * a.2 + v * c.2 := rfl
    rcases le_or_gt (u • a + v • c).2 p.2 with hb | hb
    · have hu' : 0 < u := by
        rcases lt_or_eq_of_le hu with h | h
        · exact h
        · exfalso
          rw [← h, zero_add] at huv
          rw [hy, ← h, huv] at hb
          linarith
      rw [crossing_low ha hb, crossing_up hb hc, crossing_up ha hc, zero_add, s2]
      congr 1
      exact propext ⟨fun q => pos_of_mul_pos_right q hu, fun q => mul_pos hu' q⟩
    · have hv' : 0 < v := by
        rcases lt_or_eq_of_le hv with h | h
        · exact h
        · exfalso
          rw [← h, add_zero] at huv
          rw [hy, ← h, huv] at hb
          linarith
      rw [crossing_up ha hb, crossing_high hb hc, crossing_up ha hc, add_zero, s1]
      congr 1
      exact propext ⟨fun q => pos_of_mul_pos_right q hv, fun q => mul_pos hv' q⟩
  have hy : ∃ u v : ℝ, 0 ≤ u ∧ 0 ≤ v ∧ u + v = 1 ∧ b.2 = u * a.2 + v * c.2 := by
    obtain ⟨u, v, h1, h2, h3, rfl⟩ := h
    exact ⟨u, v, h1, h2, h3, rfl⟩
  obtain ⟨u, v, h1, h2, h3, h4⟩ := hy
  have e : u = 1 - v := by linarith
  rcases le_or_gt a.2 p.2 with ha | ha <;> rcases le_or_gt c.2 p.2 with hc | hc
  · have hb : b.2 ≤ p.2 := by
      have q1 := mul_le_mul_of_nonneg_left ha h1
      have q2 := mul_le_mul_of_nonneg_left hc h2
      have q3 : u * p.2 + v * p.2 = p.2 := by rw [e]; ring
      linarith
    rw [crossing_low ha hb, crossing_low hb hc, crossing_low ha hc]; rfl
  · exact up h ha hc
  · have := up (by rw [segment_symm]; exact h) hc ha
    rw [crossing_swap p a c, crossing_swap p b c, crossing_swap p a b] at this
    omega
  · have hb : p.2 < b.2 := by
      have q3 : u * p.2 + v * p.2 = p.2 := by rw [e]; ring
      rcases lt_or_eq_of_le h1 with h | h
      · have q1 := mul_lt_mul_of_pos_left ha h
        have q2 := mul_le_mul_of_nonneg_left hc.le h2
        linarith
      · have hv : v = 1 := by linarith
        rw [h4, ← h, hv]; linarith
    rw [crossing_high ha hb, crossing_high hb hc, crossing_high ha hc]; rfl

/-- A point that is on no side of a triangle is in its interior or not in it. -/
theorem hull_polygon {m : Mesh ℝ} (h2 : m.ndim = 2) {cell : Cell} (hk : cell.kind = .tri3) (hl : cell.points.length = 3) (h : ConvexCcw (cornersOf m cell)) {x : List ℝ}
    (hp : ¬ OnSide (cornersOf m cell) (at' x 0, at' x 1)) : GridCells.InHull m cell x ↔ InPolygon (cornersOf m cell) (at' x 0, at' x 1) := by
  match hq : cell.points, hl with
  | [i, j, k], _ =>
    have hcor : cornersOf m cell = [planePoint m i, planePoint m j, planePoint m k] := by
      simp [cornersOf, hk, hq, List.range_succ, GeoKind.classOf]
    rw [hcor] at h hp ⊢
    have ht := convex_three h
    have t2 : 0 < sideOf (planePoint m j) (planePoint m k) (planePoint m i) := by rw [sideOf_cycle]; exact ht
    have t3 : 0 < sideOf (planePoint m k) (planePoint m i) (planePoint m j) := by rw [sideOf_cycle]; exact t2
    have hc : ∀ q, GridCells.coord m q 0 = (planePoint m q).1 ∧ GridCells.coord m q 1 = (planePoint m q).2 := fun q => ⟨rfl, rfl⟩
    constructor
    · rintro ⟨w, ⟨h1, h3, h4⟩, h5⟩
      rw [hq] at h1 h4
      match w, h1 with
      | [u, v, z], _ =>
        simp only [List.sum_cons, List.sum_nil, add_zero, List.zipWith_cons_cons, List.zipWith_nil_right] at h3 h4
        have x0 := h4 0 (by omega)
        have x1 := h4 1 (by omega)
        rw [(hc i).1, (hc j).1, (hc k).1] at x0
        rw [(hc i).2, (hc j).2, (hc k).2] at x1
        simp only [List.mem_cons, List.not_mem_nil, or_false, forall_eq_or_imp, forall_eq] at h5
        obtain ⟨hu, hv, hz⟩ := h5
        have n : ∀ a b c : ℝ × ℝ, ∀ u v z : ℝ, u + (v + z) = 1 → at' x 0 = u * a.1 + (v * b.1 + z * c.1) → at' x 1 = u * a.2 + (v * b.2 + z * c.2) →
            sideOf a b (at' x 0, at' x 1) = z * sideOf a b c := by
          intro a b c u v z e1 e2 e3
          obtain rfl : u = 1 - v - z := by linarith
          simp only [sideOf, e2, e3]; ring
        have pos : ∀ a b c : ℝ × ℝ, ∀ u v z : ℝ, 0 ≤ u → 0 ≤ v → 0 ≤ z → 0 < sideOf a b c → (at' x 0, at' x 1) ∉ segment ℝ a b → u + (v + z) = 1 →
            at' x 0 = u * a.1 + (v * b.1 + z * c.1) → at' x 1 = u * a.2 + (v * b.2 + z * c.2) → 0 < sideOf a b (at' x 0, at' x 1) := by
          intro a b c u v z gu gv gz hs hns e1 e2 e3
          rw [n a b c u v z e1 e2 e3]
          refine mul_pos (lt_of_le_of_ne gz fun hz0 => hns ⟨u, v, gu, gv, by linarith, ?_⟩) hs
          rw [← hz0] at e2 e3
          apply Prod.ext
          · show u * a.1 + v * b.1 = at' x 0
            linarith
          · show u * a.2 + v * b.2 = at' x 1
            linarith
        intro s hs
        simp only [sidesOf, List.cons_append, List.nil_append, List.zip_cons_cons, List.zip_nil_right, List.mem_cons, List.not_mem_nil, or_false] at hs
        rcases hs with rfl | rfl | rfl
        · exact pos _ _ _ u v z hu hv hz ht (fun q => hp ⟨_, by simp [sidesOf], q⟩) h3 x0 x1
        · exact pos _ _ _ v z u hv hz hu t2 (fun q => hp ⟨_, by simp [sidesOf], q⟩) (by linarith) (by linarith) (by linarith)
        · exact pos _ _ _ z u v hz hu hv t3 (fun q => hp ⟨_, by simp [sidesOf], q⟩) (by linarith) (by linarith) (by linarith)
    · intro hin
      have s1 := hin (planePoint m i, planePoint m j) (by simp [sidesOf])
      have s2 := hin (planePoint m j, planePoint m k) (by simp [sidesOf])
      have s3 := hin (planePoint m k, planePoint m i) (by simp [sidesOf])
      dsimp only at s1 s2 s3
      refine ⟨[sideOf (planePoint m j) (planePoint m k) (at' x 0, at' x 1) / sideOf (planePoint m i) (planePoint m j) (planePoint m k),
        sideOf (planePoint m k) (planePoint m i) (at' x 0, at' x 1) / sideOf (planePoint m i) (planePoint m j) (planePoint m k),
        sideOf (planePoint m i) (planePoint m j) (at' x 0, at' x 1) / sideOf (planePoint m i) (planePoint m j) (planePoint m k)], ⟨?_, ?_, ?_⟩, ?_⟩
      · rw [hq]; rfl
      · simp only [List.sum_cons, List.sum_nil, add_zero]
        rw [← add_div, ← add_div, div_eq_one_iff_eq ht.ne']
        unfold sideOf; ring
      · intro l hl
        rw [hq]
        simp only [List.sum_cons, List.sum_nil, add_zero, List.zipWith_cons_cons, List.zipWith_nil_right]
        have : l = 0 ∨ l = 1 := by omega
        rw [div_mul_eq_mul_div, div_mul_eq_mul_div, div_mul_eq_mul_div, ← add_div, ← add_div, eq_div_iff ht.ne']
        rcases this with rfl | rfl
        · rw [(hc i).1, (hc j).1, (hc k).1]; unfold sideOf; ring
        · rw [(hc i).2, (hc j).2, (hc k).2]; unfold sideOf; ring
      · intro v hv
        simp only [List.mem_cons, List.not_mem_nil, or_false] at hv
        rcases hv with rfl | rfl | rfl
        · exact (div_pos s2 ht).le
        · exact (div_pos s3 ht).le
        · exact (div_pos s1 ht).le

/-- In a mesh of triangles, `GridCells::search` finds a cell if and only if the extracted boundary runs around the point; if the boundary runs exactly once
around the point, the cell that is found is the only one that contains the point. -/
theorem C78_search {m : Mesh ℝ} {x : Extracted ℝ} {F : Features} (hF : IsNew m false x F) (h2 : m.ndim = 2) (ho : OrientedEdges m)
    (hk : ∀ cell ∈ m.cells, cell.kind = .tri3) (hc : ∀ cell ∈ m.cells, ConvexCcw (cornersOf m cell))
    {tol border cutoff pct : Option ℝ} (hs : GridCells.Setting m tol border cutoff pct) {g : GridCells} (hg : GridCells.new m tol border cutoff pct = .ok g)
    {iter : List Nat → List Nat} (hit : IterOrder iter) {zeta : List ℝ} (hz : zeta.length = 4) {y : List ℝ} (hy : y.length = 2)
    (hp : ∀ cell ∈ m.cells, ¬ OnSide (cornersOf m cell) (at' y 0, at' y 1)) :
    (0 < windingNumber (at' y 0, at' y 1) (boundarySides m F) ↔ ∃ id z, GridCells.search iter g zeta y = .ok (some id, z)) ∧
    (windingNumber (at' y 0, at' y 1) (boundarySides m F) = 1 → ∃ id z, GridCells.search iter g zeta y = .ok (some id, z) ∧
      ∀ (c : Nat) (cell : Cell), m.cells[c]? = some cell → (GridCells.InHull m cell y ↔ c = id)) := by
  have hkd : ∀ cell ∈ m.cells, cell.kind.ndim = 2 := fun cell h => by rw [hk cell h]; rfl
  have hlen : ∀ cell ∈ m.cells, cell.points.length = 3 := fun cell h => by rw [hs.valid.nnode cell h, hk cell h]; rfl
  have hsim : GridCells.Simplicial m := Or.inl ⟨h2, hk⟩
  have hnd : ∀ cell ∈ m.cells, GridCells.NonDegenerate m cell := by
    intro cell hcell
    have hl := hlen cell hcell
    have hcv := hc cell hcell
    unfold GridCells.NonDegenerate
    rw [h2]
    match hq : cell.points, hl with
    | [i, j, k], _ =>
      have hcor : cornersOf m cell = [planePoint m i, planePoint m j, planePoint m k] := by
        simp [cornersOf, hk cell hcell, hq, List.range_succ, GeoKind.classOf]
      rw [hcor] at hcv
      have := convex_three hcv
      intro h0
      have e : sideOf (planePoint m i) (planePoint m j) (planePoint m k) = 0 := h0
      linarith
  have hw := C78_enclosed hF hs.valid h2 ho (fun cell h _ => hc cell h) (at' y 0, at' y 1) (fun cell h _ => hp cell h)
  have hhull : ∀ cell ∈ m.cells, (GridCells.InHull m cell y ↔ InPolygon (cornersOf m cell) (at' y 0, at' y 1)) := fun cell h =>
    hull_polygon h2 (hk cell h) (hlen cell h) (hc cell h) (hp cell h)
  have hiff : 0 < windingNumber (at' y 0, at' y 1) (boundarySides m F) ↔ ∃ cell ∈ m.cells, GridCells.InHull m cell y := by
    rw [hw, Int.natCast_pos, List.countP_pos_iff]
    constructor
    · rintro ⟨cell, h1, h3⟩
      exact ⟨cell, h1, (hhull cell h1).2 (by simpa using (of_decide_eq_true h3).2)⟩
    · rintro ⟨cell, h1, h3⟩
      exact ⟨cell, h1, by simp [hkd cell h1, (hhull cell h1).1 h3]⟩
  have hfound : (∃ cell ∈ m.cells, GridCells.InHull m cell y) → ∃ id z, GridCells.search iter g zeta y = .ok (some id, z) := by
    intro h
    obtain ⟨id, z, -, h1, -⟩ := GridCells.C35_found hs hg hsim hnd hit hz (by rw [hy, h2]) h
    exact ⟨id, z, h1⟩
  have honly : ∀ id z, GridCells.search iter g zeta y = .ok (some id, z) → ∃ c, m.cells[id]? = some c ∧ GridCells.InHull m c y := by
    intro id z h
    obtain ⟨c, h1, h3, -⟩ := GridCells.C35_only_containing hs hg hsim hnd hit h
    exact ⟨c, h1, h3⟩
  refine ⟨⟨fun h => hfound (hiff.1 h), ?_⟩, ?_⟩
  · rintro ⟨id, z, h⟩
    obtain ⟨c, h1, h3⟩ := honly id z h
    exact hiff.2 ⟨c, List.mem_of_getElem? h1, h3⟩
  · intro h
    obtain ⟨id, z, h1⟩ := hfound (hiff.1 (by omega))
    refine ⟨id, z, h1, fun c cell hcell => ?_⟩
    obtain ⟨c', h3, h4⟩ := honly id z h1
    constructor
    · intro h5
      exact C78_no_overlap hF hs.valid h2 ho (fun cell h _ => hc cell h) (at' y 0, at' y 1) (fun cell h _ => hp cell h) h.le hcell h3
        (hkd cell (List.mem_of_getElem? hcell)) (hkd c' (List.mem_of_getElem? h3)) ((hhull cell (List.mem_of_getElem? hcell)).1 h5) ((hhull c' (List.mem_of_getElem? h3)).1 h4)
    · rintro rfl
      rw [hcell, Option.some.injEq] at h3
      subst h3
      exact h4

/-- C78 for subdivided blocks: if the cells are convex, the boundary runs around a point as often as there are cells that contain it. -/
theorem C78_block {inv : MatInverse} {nrow : Nat} {at_ : Nat → Nat → ℝ} {b : Block} {target : GeoKind} {M : Mesh ℝ} (h : Block.Reached inv nrow 2 at_ b) (hf : Block.NotTooFine b)
    (ht : Block.TargetOk b target) (hM : Block.IsSubdivision b target M) {x : Extracted ℝ} {F : Features} (hF : IsNew M false x F)
    (hc : ∀ cell ∈ M.cells, ConvexCcw (cornersOf M cell)) (p : ℝ × ℝ) (hp : ∀ cell ∈ M.cells, ¬ OnSide (cornersOf M cell) p) :
    windingNumber p (boundarySides M F) = M.cells.countP fun cell => InPolygon (cornersOf M cell) p := by
  have h2 : M.ndim = 2 := by rw [hM.ndim]; exact h.wf.ndim_eq
  rw [C78_enclosed hF (Block.C55_valid hM) h2 (C73_block_fits_2d h hf ht hM) (fun c hc' _ => hc c hc') p (fun c hc' _ => hp c hc')]
  congr 1
  refine List.countP_congr fun cell hcell => ?_
  obtain ⟨c, hlt, hq⟩ := List.mem_iff_getElem.1 hcell
  obtain ⟨i, j, k, hg, -, hk, -⟩ := block_cell hM (by rw [List.getElem?_eq_getElem hlt, hq])
  have hq : target.classOf = .qua := by
    have := ht
    unfold Block.TargetOk at this
    rw [if_pos h.wf.ndim_eq] at this
    exact this
  have : cell.kind.ndim = 2 := by
    rw [hk]
    revert hq
    cases target <;> first | (intro; rfl) | (intro h; exact absurd h (by decide))
  simp [this]

/-! ## The hypotheses are met -/

theorem not_on_side {a b p : ℝ × ℝ} (h : sideOf a b p ≠ 0) : p ∉ segment ℝ a b := by
  rintro ⟨u, v, -, -, h3, rfl⟩
  apply h
  obtain rfl : u = 1 - v := by linarith
  simp only [sideOf, Prod.fst_add, Prod.snd_add, Prod.smul_fst, Prod.smul_snd, smul_eq_mul]; ring

/-- The boundary of the square and the triangle runs once around a point of the triangle, and not around a point beyond the slanted edge. -/
example (o : Orders) (hord : o.Valid) : ∃ x F, Features.new o quaTri false = .ok F ∧ IsNew quaTri false x F ∧
    windingNumber (5 / 4, 1 / 4) (boundarySides quaTri F) = 1 ∧ windingNumber (7 / 4, 3 / 4) (boundarySides quaTri F) = 0 := by
  obtain ⟨x, F, hF, hnew⟩ := quaTri_new o hord
  have c1 : cornersOf quaTri ⟨0, 1, .qua4, [0, 1, 2, 3]⟩ = [(0, 0), (1, 0), (1, 1), (0, 1)] := by
    simp [cornersOf, List.range_succ, GeoKind.classOf, planePoint, quaTri, coordsOf]
  have c2 : cornersOf quaTri ⟨1, 1, .tri3, [1, 4, 2]⟩ = [(1, 0), (2, 0), (1, 1)] := by
    simp [cornersOf, List.range_succ, GeoKind.classOf, planePoint, quaTri, coordsOf]
  have hconv : ∀ cell ∈ quaTri.cells, cell.kind.ndim = 2 → ConvexCcw (cornersOf quaTri cell) := by
    intro cell hc _
    simp only [quaTri, List.mem_cons, List.not_mem_nil, or_false] at hc
    rcases hc with rfl | rfl
    · rw [c1]; norm_num [ConvexCcw, sidesOf, sideOf]
    · rw [c2]; norm_num [ConvexCcw, sidesOf, sideOf]
  have hoff : ∀ p : ℝ × ℝ, p = (5 / 4, 1 / 4) ∨ p = (7 / 4, 3 / 4) → ∀ cell ∈ quaTri.cells, cell.kind.ndim = 2 → ¬ OnSide (cornersOf quaTri cell) p := by
    rintro p hp cell hc - ⟨s, hs, h⟩
    refine not_on_side ?_ h
    simp only [quaTri, List.mem_cons, List.not_mem_nil, or_false] at hc
    rcases hc with rfl | rfl
    · rw [c1] at hs
      simp only [sidesOf, List.cons_append, List.nil_append, List.zip_cons_cons, List.zip_nil_right, List.mem_cons, List.not_mem_nil, or_false] at hs
      rcases hs with rfl | rfl | rfl | rfl <;> rcases hp with rfl | rfl <;> norm_num [sideOf]
    · rw [c2] at hs
      simp only [sidesOf, List.cons_append, List.nil_append, List.zip_cons_cons, List.zip_nil_right, List.mem_cons, List.not_mem_nil, or_false] at hs
      rcases hs with rfl | rfl | rfl <;> rcases hp with rfl | rfl <;> norm_num [sideOf]
  refine ⟨x, F, hF, hnew, ?_, ?_⟩
  · rw [C78_enclosed hnew quaTri_valid rfl quaTri_oriented hconv _ (hoff _ (.inl rfl))]
    show ((List.countP _ [_, _] : Nat) : ℤ) = 1
    rw [List.countP_cons, List.countP_cons, List.countP_nil, c1, c2]
    norm_num [InPolygon, sidesOf, sideOf, GeoKind.ndim]
  · rw [C78_enclosed hnew quaTri_valid rfl quaTri_oriented hconv _ (hoff _ (.inr rfl))]
    show ((List.countP _ [_, _] : Nat) : ℤ) = 0
    rw [List.countP_cons, List.countP_cons, List.countP_nil, c1, c2]
    norm_num [InPolygon, sidesOf, sideOf, GeoKind.ndim]

end
end Gemlab.Mesh
