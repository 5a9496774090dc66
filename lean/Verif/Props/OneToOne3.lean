import Verif.Props.OneToOne2
import Verif.Props.Winding2

/-!
# C79: cells of meshes
-/
namespace Gemlab.Mesh
open Gemlab.Shapes Gemlab.Scratchpad Gemlab.Spec.Analytical Gemlab.Props.Features
noncomputable section
open Classical

/-- In a mesh accepted by `check_all`, the Jacobian determinant of a Tri3 in the plane or a Tet4 in space is positive at all local coordinates, and the map is
one-to-one. -/
theorem C79_check_all {inv : MatInverse} (hinv : InverseSpec inv) (hp : ∀ n a, inv n a ≠ .panic) (hreg : ∀ n a, detN n a ≠ 0 → ∃ R, inv n a = .ok R)
    (m : Mesh ℝ) (hc : ∀ p ∈ m.points, p.coords.length = m.ndim) (hok : checkAll inv m = .ok ()) {c : Nat} {cell : Cell} (hcell : m.cells[c]? = some cell)
    (hk : cell.kind = .tri3 ∨ cell.kind = .tet4) (hd : cell.kind.ndim = m.ndim) :
    ∃ pad, getPad m c = .ok pad ∧ (∀ ξ, ∃ d q, calcJacobian inv pad ξ = .ok (d, q) ∧ 0 < d) ∧
      ∀ r s t r' s' t' x q x' q', GaussSpec.InReference cell.kind.classOf r s t → GaussSpec.InReference cell.kind.classOf r' s' t' →
        Scratchpad.calcCoords pad m.ndim (point r s t) = .ok (x, q) → Scratchpad.calcCoords pad m.ndim (point r' s' t') = .ok (x', q') → (∀ i < m.ndim, x i = x' i) →
        r = r' ∧ s = s' ∧ t = t' := by
  obtain ⟨hv, hall⟩ := (C76_check_all hinv hp m hc).2.1 hok
  obtain ⟨hn, hle, hdet⟩ := hall cell (List.mem_of_getElem? hcell)
  obtain ⟨pad, hpad, hold⟩ := (C53_get_pad m hv c).1 cell hcell hn hle
  have hkp : pad.kind = .tri3 ∨ pad.kind = .tet4 := by rw [hold.kind]; exact hk
  have hdp : pad.kind.ndim = pad.spaceNdim := by rw [hold.kind, hold.space]; exact hd
  have hpos : 0 < detAt pad (fun _ => 1 / 3) := by
    have := hdet hd
    unfold detAt
    rw [hold.space]
    refine lt_of_lt_of_eq this (detN_congr ?_)
    intro i hi j _
    unfold cellJacobian
    rw [hold.kind]
    exact Finset.sum_congr rfl fun n hn => by rw [hold.coords n i (Finset.mem_range.1 hn) hi]
  have hjac : ∀ ξ, ∃ d q, calcJacobian inv pad ξ = .ok (d, q) ∧ 0 < d := by
    intro ξ
    obtain ⟨⟨d, q⟩, hR⟩ := jacobian_exists hreg hold.ok hdp hpos.ne'
    rw [C79_simplex inv hkp _ ξ] at hR
    refine ⟨d, q, hR, ?_⟩
    rw [C79_simplex inv hkp ξ fun _ => 1 / 3] at hR
    rw [(jacobian_det hinv hdp hR).1]
    exact hpos
  refine ⟨pad, hpad, hjac, ?_⟩
  intro r s t r' s' t' x q x' q' h1 h2 h3 h4 h5
  rw [← hold.space] at h3 h4 h5
  rw [← hold.kind] at h1 h2
  exact C79_one_to_one hinv (by rcases hkp with h | h <;> rw [h] <;> decide) hdp (fun r s t _ => by
    obtain ⟨d, q, h, -⟩ := hjac (point r s t)
    exact ⟨_, h⟩) h1 h2 h3 h4 h5

/-- On the boundary of a convex polygon, a point with no area to a side is on the side. -/
theorem side_of_zero {a b c z p : ℝ × ℝ} (hab : a ≠ b) (h : sideOf a b p = 0) (h1 : 0 < sideOf b c a) (h2 : 0 ≤ sideOf b c p) (h3 : 0 < sideOf z a b) (h4 : 0 ≤ sideOf z a p) :
    p ∈ segment ℝ a b := by
  obtain ⟨τ, x1, x2⟩ := exists_between hab h
  have f1 : sideOf b c p = (1 - τ) * sideOf b c a := by unfold sideOf; rw [x1, x2]; ring
  have f2 : sideOf z a p = τ * sideOf z a b := by unfold sideOf; rw [x1, x2]; ring
  have g1 : 0 ≤ 1 - τ := by
    by_contra hh
    push Not at hh
    have := mul_neg_of_neg_of_pos hh h1
    linarith
  have g2 : 0 ≤ τ := by
    by_contra hh
    push Not at hh
    have := mul_neg_of_neg_of_pos hh h3
    linarith
  refine ⟨1 - τ, τ, g1, g2, by ring, Prod.ext ?_ ?_⟩
  · show (1 - τ) * a.1 + τ * b.1 = p.1
    rw [x1]; ring
  · show (1 - τ) * a.2 + τ * b.2 = p.2
    rw [x2]; ring

/-- A point that is on no side is in the interior or outside. -/
theorem closed_iff {l : List (ℝ × ℝ)} (hl : l.length = 3 ∨ l.length = 4) (h : ConvexCcw l) {p : ℝ × ℝ} (hp : ¬ OnSide l p) : InClosedPolygon l p ↔ InPolygon l p := by
  refine ⟨fun hc => ?_, fun hi s hs => (hi s hs).le⟩
  have hn := h.2.1
  have r : ∀ {x y w : ℝ × ℝ}, 0 < sideOf x y w → 0 < sideOf y w x := by intro x y w h; rw [sideOf_cycle]; exact h
  rcases hl with hl | hl
  · match l, hl with
    | [a, b, c], _ =>
      have t := convex_three h
      simp only [List.nodup_cons, List.mem_cons, List.not_mem_nil, or_false, not_or] at hn
      have c1 := hc (a, b) (by simp [sidesOf])
      have c2 := hc (b, c) (by simp [sidesOf])
      have c3 := hc (c, a) (by simp [sidesOf])
      dsimp only at c1 c2 c3
      intro s hs
      have hs' := hs
      simp only [sidesOf, List.cons_append, List.nil_append, List.zip_cons_cons, List.zip_nil_right, List.mem_cons, List.not_mem_nil, or_false] at hs
      rcases hs with rfl | rfl | rfl
      · exact lt_of_le_of_ne c1 fun h0 => hp ⟨_, hs', side_of_zero hn.1.1 h0.symm (r t) c2 (r (r t)) c3⟩
      · exact lt_of_le_of_ne c2 fun h0 => hp ⟨_, hs', side_of_zero hn.2.1 h0.symm (r (r t)) c3 t c1⟩
      · exact lt_of_le_of_ne c3 fun h0 => hp ⟨_, hs', side_of_zero (Ne.symm hn.1.2) h0.symm t c1 (r t) c2⟩
  · match l, hl with
    | [a, b, c, d], _ =>
      obtain ⟨t1, t2, t3, t4⟩ := convex_four h
      simp only [List.nodup_cons, List.mem_cons, List.not_mem_nil, or_false, not_or] at hn
      obtain ⟨⟨n1, n2, n3⟩, ⟨n4, n5⟩, n6, -⟩ := hn
      have c1 := hc (a, b) (by simp [sidesOf])
      have c2 := hc (b, c) (by simp [sidesOf])
      have c3 := hc (c, d) (by simp [sidesOf])
      have c4 := hc (d, a) (by simp [sidesOf])
      dsimp only at c1 c2 c3 c4
      intro s hs
      have hs' := hs
      simp only [sidesOf, List.cons_append, List.nil_append, List.zip_cons_cons, List.zip_nil_right, List.mem_cons, List.not_mem_nil, or_false] at hs
      rcases hs with rfl | rfl | rfl | rfl
      · exact lt_of_le_of_ne c1 fun h0 => hp ⟨_, hs', side_of_zero n1 h0.symm (r t1) c2 t4 c4⟩
      · exact lt_of_le_of_ne c2 fun h0 => hp ⟨_, hs', side_of_zero n4 h0.symm (r t2) c3 t1 c1⟩
      · exact lt_of_le_of_ne c3 fun h0 => hp ⟨_, hs', side_of_zero n6 h0.symm (r t3) c4 t2 c2⟩
      · exact lt_of_le_of_ne c4 fun h0 => hp ⟨_, hs', side_of_zero (Ne.symm n3) h0.symm (r t4) c1 t3 c3⟩

/-- The point `p` of the plane is at the local coordinates `r`, `s` of the cell `c`. -/
def IsPlace (m : Mesh ℝ) (c : Nat) (r s : ℝ) (p : ℝ × ℝ) : Prop :=
  ∃ cell pad x q, m.cells[c]? = some cell ∧ getPad m c = .ok pad ∧ GaussSpec.InReference cell.kind.classOf r s 0 ∧
    Scratchpad.calcCoords pad 2 (point r s 0) = .ok (x, q) ∧ x 0 = p.1 ∧ x 1 = p.2

/-- For the cells of a mesh: a point (on no side) is in the corner polygon of a convex Tri3 or Qua4 if and only if it has local coordinates in the cell, and
these are unique. -/
theorem C79_cell {m : Mesh ℝ} (hv : ValidMesh m) (h2 : m.ndim = 2) {c : Nat} {cell : Cell} (hcell : m.cells[c]? = some cell) (hk : cell.kind = .tri3 ∨ cell.kind = .qua4)
    (hc : ConvexCcw (cornersOf m cell)) (p : ℝ × ℝ) :
    (InClosedPolygon (cornersOf m cell) p ↔ ∃ r s, IsPlace m c r s p) ∧ ∀ r s r' s', IsPlace m c r s p → IsPlace m c r' s' p → r = r' ∧ s = s' := by
  obtain ⟨pad, hpad, hold⟩ := (C53_get_pad m hv c).1 cell hcell (.inl h2) (by rw [h2]; rcases hk with h | h <;> rw [h] <;> decide)
  have hs : pad.spaceNdim = 2 := by rw [hold.space, h2]
  have hcor : ∀ n, n < cell.kind.nnode → corner pad n = planePoint m (cell.points.getD n 0) := by
    intro n hn
    unfold corner planePoint
    rw [hold.coords n 0 hn (by omega), hold.coords n 1 hn (by omega)]
  have hplace : ∀ r s, IsPlace m c r s p ↔ ∃ x q, GaussSpec.InReference cell.kind.classOf r s 0 ∧ Scratchpad.calcCoords pad 2 (point r s 0) = .ok (x, q) ∧ x 0 = p.1 ∧ x 1 = p.2 := by
    intro r s
    constructor
    · rintro ⟨cell', pad', x, q, g1, g2, g3⟩
      rw [hcell, Option.some.injEq] at g1
      rw [hpad, Res.ok.injEq] at g2
      subst g1; subst g2
      exact ⟨x, q, g3⟩
    · rintro ⟨x, q, g⟩
      exact ⟨cell, pad, x, q, hcell, hpad, g⟩
  rcases hk with hk | hk
  · have hl : cornersOf m cell = [corner pad 0, corner pad 1, corner pad 2] := by
      have n3 : cell.kind.nnode = 3 := by rw [hk]; rfl
      rw [hcor 0 (by omega), hcor 1 (by omega), hcor 2 (by omega)]
      simp [cornersOf, hk, List.range_succ, GeoKind.classOf]
    rw [hl] at hc ⊢
    obtain ⟨i1, i2⟩ := C79_tri3_image (by rw [hold.kind, hk]) hs hold.ok hc p
    have hcl : cell.kind.classOf = .tri := by rw [hk]; rfl
    simp only [hplace, hcl]
    exact ⟨i1, fun r s r' s' ⟨x, q, a1, a2, a3, a4⟩ ⟨x', q', b1, b2, b3, b4⟩ => i2 r s x q r' s' x' q' a1 a2 a3 a4 b1 b2 b3 b4⟩
  · have hl : cornersOf m cell = [corner pad 0, corner pad 1, corner pad 2, corner pad 3] := by
      have n3 : cell.kind.nnode = 4 := by rw [hk]; rfl
      rw [hcor 0 (by omega), hcor 1 (by omega), hcor 2 (by omega), hcor 3 (by omega)]
      simp [cornersOf, hk, List.range_succ, GeoKind.classOf]
    rw [hl] at hc ⊢
    obtain ⟨i1, i2⟩ := C79_qua4_image (by rw [hold.kind, hk]) hs hold.ok hc p
    have hcl : cell.kind.classOf = .qua := by rw [hk]; rfl
    simp only [hplace, hcl]
    exact ⟨i1, fun r s r' s' ⟨x, q, a1, a2, a3, a4⟩ ⟨x', q', b1, b2, b3, b4⟩ => i2 r s x q r' s' x' q' a1 a2 a3 a4 b1 b2 b3 b4⟩

/-- Every point that the boundary runs around once (and that is on no side of a cell) is at exactly one pair of local coordinates of exactly one cell; the points
that the boundary does not run around are in no cell. -/
theorem C79_mesh {m : Mesh ℝ} {x : Extracted ℝ} {F : Features} (hF : IsNew m false x F) (h : ValidMesh m) (h2 : m.ndim = 2) (ho : OrientedEdges m)
    (hk : ∀ cell ∈ m.cells, cell.kind = .tri3 ∨ cell.kind = .qua4) (hc : ∀ cell ∈ m.cells, ConvexCcw (cornersOf m cell)) (p : ℝ × ℝ)
    (hp : ∀ cell ∈ m.cells, ¬ OnSide (cornersOf m cell) p) :
    (windingNumber p (boundarySides m F) = 1 → ∃ c r s, IsPlace m c r s p ∧ ∀ c' r' s', IsPlace m c' r' s' p → c' = c ∧ r' = r ∧ s' = s) ∧
    (windingNumber p (boundarySides m F) = 0 → ∀ c r s, ¬ IsPlace m c r s p) := by
  have hkd : ∀ cell ∈ m.cells, cell.kind.ndim = 2 := fun cell h => by rcases hk cell h with h | h <;> rw [h] <;> rfl
  have hen := C78_enclosed hF h h2 ho (fun cell h _ => hc cell h) p (fun cell h _ => hp cell h)
  have hiff : ∀ {c : Nat} {cell : Cell}, m.cells[c]? = some cell → (InPolygon (cornersOf m cell) p ↔ ∃ r s, IsPlace m c r s p) := by
    intro c cell hcell
    have hm := List.mem_of_getElem? hcell
    rw [← closed_iff (by unfold cornersOf; split_ifs <;> simp) (hc cell hm) (hp cell hm)]
    exact (C79_cell h h2 hcell (hk cell hm) (hc cell hm) p).1
  constructor
  · intro hw
    have hpos : 0 < m.cells.countP fun cell => decide (cell.kind.ndim = 2 ∧ InPolygon (cornersOf m cell) p) := by omega
    obtain ⟨cell, hmem, hin⟩ := List.countP_pos_iff.1 hpos
    have hin := (of_decide_eq_true hin).2
    obtain ⟨c, hlt, hce⟩ := List.mem_iff_getElem.1 hmem
    have hcell : m.cells[c]? = some cell := by rw [List.getElem?_eq_getElem hlt, hce]
    obtain ⟨r, s, hrs⟩ := (hiff hcell).1 hin
    refine ⟨c, r, s, hrs, ?_⟩
    intro c' r' s' h'
    obtain ⟨cell', _, _, _, hcell', -⟩ := id h'
    have hm' := List.mem_of_getElem? hcell'
    have hcc : c' = c := C78_no_overlap hF h h2 ho (fun cell h _ => hc cell h) p (fun cell h _ => hp cell h) hw.le hcell' hcell (hkd cell' hm') (hkd cell hmem)
      ((hiff hcell').2 ⟨r', s', h'⟩) hin
    subst hcc
    exact ⟨rfl, (C79_cell h h2 hcell (hk cell hmem) (hc cell hmem) p).2 r' s' r s h' hrs⟩
  · intro hw c r s hrs
    obtain ⟨cell, _, _, _, hcell, -⟩ := id hrs
    have hm := List.mem_of_getElem? hcell
    have : 0 < m.cells.countP fun cell => decide (cell.kind.ndim = 2 ∧ InPolygon (cornersOf m cell) p) :=
      List.countP_pos_iff.2 ⟨cell, hm, decide_eq_true ⟨hkd cell hm, (hiff hcell).2 ⟨r, s, hrs⟩⟩⟩
    omega

/-! ## `check_all` does not guarantee this for quadrilaterals -/

/-- A quadrilateral with a reentrant corner. -/
def dart : Mesh ℝ where
  ndim := 2
  points := [⟨0, 0, [0, 0]⟩, ⟨1, 0, [1, 0]⟩, ⟨2, 0, [3 / 10, 3 / 10]⟩, ⟨3, 0, [0, 1]⟩]
  cells := [⟨0, 1, .qua4, [0, 1, 2, 3]⟩]
  markedEdges := []
  markedFaces := []

theorem dart_valid : ValidMesh dart := ValidMesh.of_check (by decide +kernel) (by simp [dart])

/-- `check_all` accepts a quadrilateral with a reentrant corner, whose Jacobian determinant is negative at this corner; two different local coordinates give the
same point. -/
theorem C79_check_not_enough : checkAll exactInverse dart = .ok () ∧
    (∃ pad d q, getPad dart 0 = .ok pad ∧ calcJacobian exactInverse pad (point 1 1 0) = .ok (d, q) ∧ d < 0) ∧
    IsPlace dart 0 1 1 (3 / 10, 3 / 10) ∧ IsPlace dart 0 (-1 / 7) (-1 / 7) (3 / 10, 3 / 10) := by
  have hcoords : ∀ n i, n < 4 → i < 2 → (coordsOf dart (([0, 1, 2, 3] : List Nat).getD n 0)).getD i 0 = (([[0, 0], [1, 0], [3 / 10, 3 / 10], [0, 1]] : List (List ℝ)).getD n []).getD i 0 := by
    intro n i hn hi
    interval_cases n <;> interval_cases i <;> simp [coordsOf, dart]
  obtain ⟨pad, hpad, hold⟩ := (C53_get_pad dart dart_valid 0).1 _ rfl (.inl rfl) (by decide)
  have hk : pad.kind = .qua4 := hold.kind
  have hs : pad.spaceNdim = 2 := hold.space
  have hd : pad.kind.ndim = pad.spaceNdim := by rw [hk, hs]; rfl
  have hX : ∀ n i, n < 4 → i < 2 → pad.X n i = (([[0, 0], [1, 0], [3 / 10, 3 / 10], [0, 1]] : List (List ℝ)).getD n []).getD i 0 := by
    intro n i hn hi
    rw [← hcoords n i hn hi]
    exact hold.coords n i hn hi
  have x00 := hX 0 0 (by decide) (by decide)
  have x01 := hX 0 1 (by decide) (by decide)
  have x10 := hX 1 0 (by decide) (by decide)
  have x11 := hX 1 1 (by decide) (by decide)
  have x20 := hX 2 0 (by decide) (by decide)
  have x21 := hX 2 1 (by decide) (by decide)
  have x30 := hX 3 0 (by decide) (by decide)
  have x31 := hX 3 1 (by decide) (by decide)
  simp at x00 x01 x10 x11 x20 x21 x30 x31
  have hdet : ∀ r s t, 4 * detAt pad (point r s t) = (1 - r) * (1 - s) / 4 + (1 + r) * (1 - s) / 4 * (3 / 10) - (1 + r) * (1 + s) / 4 * (4 / 10) + (1 - r) * (1 + s) / 4 * (3 / 10) := by
    intro r s t
    rw [qua4_det hk hs]
    obtain ⟨e0, e1, e2, e3⟩ := qua4_interp r s t
    rw [e0, e1, e2, e3]
    simp only [corner, sideOf, x00, x01, x10, x11, x20, x21, x30, x31]
    ring
  have hplace : ∀ r s, GaussSpec.InReference .qua r s 0 → 4 * (3 / 10) = (1 + r) * (1 - s) + (1 + r) * (1 + s) * (3 / 10) → 4 * (3 / 10) = (1 + r) * (1 + s) * (3 / 10) + (1 - r) * (1 + s) →
      IsPlace dart 0 r s (3 / 10, 3 / 10) := by
    intro r s hr g1 g2
    refine ⟨_, pad, Shapes.calcCoords pad.kind pad.X (point r s 0), pad.calcInterp (point r s 0), rfl, hpad, hr, ?_, ?_, ?_⟩
    · rw [← hs]; exact calcCoords_ok hold.ok _
    · have := qua4_coords hk r s 0 0
      rw [x00, x10, x20, x30] at this
      show Shapes.calcCoords pad.kind pad.X (point r s 0) 0 = 3 / 10
      linarith
    · have := qua4_coords hk r s 0 1
      rw [x01, x11, x21, x31] at this
      show Shapes.calcCoords pad.kind pad.X (point r s 0) 1 = 3 / 10
      linarith
  refine ⟨?_, ?_, hplace 1 1 (by norm_num [GaussSpec.InReference]) (by norm_num) (by norm_num), hplace (-1 / 7) (-1 / 7) (by norm_num [GaussSpec.InReference]) (by norm_num) (by norm_num)⟩
  · refine (C76_check_all exactInverse_spec Block.exactInverse_noPanic dart dart_valid.coords).2.2 Block.exactInverse_total ⟨dart_valid, ?_⟩
    intro c hc
    simp only [dart, List.mem_singleton] at hc
    subst hc
    refine ⟨.inl rfl, by decide, fun _ => ?_⟩
    have e : 4 * detAt pad (fun _ => 1 / 3) = 4 * detAt pad (point (1 / 3) (1 / 3) (1 / 3)) := by
      have i0 : ∀ m < 4, Shapes.calcInterp .qua4 (fun _ => (1 / 3 : ℝ)) m = Shapes.calcInterp .qua4 (point (1 / 3) (1 / 3) (1 / 3)) m := by
        intro m hm
        interval_cases m <;> simp [Shapes.calcInterp, Shapes.interp, qua4Interp, point, eval_lit]
      rw [qua4_det hk hs, qua4_det hk hs, i0 0 (by decide), i0 1 (by decide), i0 2 (by decide), i0 3 (by decide)]
    rw [hdet] at e
    have hpos : 0 < detAt pad (fun _ => 1 / 3) := by norm_num at e; linarith
    refine lt_of_lt_of_eq hpos ?_
    unfold detAt
    rw [hs]
    refine detN_congr ?_
    intro i hi j _
    unfold cellJacobian
    rw [hk]
    exact Finset.sum_congr rfl fun n hn => by rw [hold.coords n i (Finset.mem_range.1 hn) hi]
  · have h1 := hdet 1 1 0
    norm_num at h1
    obtain ⟨⟨d, q⟩, hR⟩ := jacobian_exists Block.exactInverse_total hold.ok hd (ξ := point 1 1 0) (by intro h0; rw [h0] at h1; norm_num at h1)
    refine ⟨pad, d, q, hpad, hR, ?_⟩
    rw [(jacobian_det exactInverse_spec hd hR).1]
    linarith

/-! ## The hypotheses are met -/

theorem quaTri_convex : ∀ cell ∈ quaTri.cells, ConvexCcw (cornersOf quaTri cell) := by
  intro cell hc
  simp only [quaTri, List.mem_cons, List.not_mem_nil, or_false] at hc
  rcases hc with rfl | rfl
  · have c1 : cornersOf quaTri ⟨0, 1, .qua4, [0, 1, 2, 3]⟩ = [(0, 0), (1, 0), (1, 1), (0, 1)] := by
      simp [cornersOf, List.range_succ, GeoKind.classOf, planePoint, quaTri, coordsOf]
    rw [c1]; norm_num [ConvexCcw, sidesOf, sideOf]
  · have c2 : cornersOf quaTri ⟨1, 1, .tri3, [1, 4, 2]⟩ = [(1, 0), (2, 0), (1, 1)] := by
      simp [cornersOf, List.range_succ, GeoKind.classOf, planePoint, quaTri, coordsOf]
    rw [c2]; norm_num [ConvexCcw, sidesOf, sideOf]

/-- The point (1/2, 1/4) of the square in the example has unique local coordinates. -/
example : ∃ r s, IsPlace quaTri 0 r s (1 / 2, 1 / 4) ∧ ∀ r' s', IsPlace quaTri 0 r' s' (1 / 2, 1 / 4) → r' = r ∧ s' = s := by
  have hc := quaTri_convex ⟨0, 1, .qua4, [0, 1, 2, 3]⟩ (by simp [quaTri])
  obtain ⟨h1, h2⟩ := C79_cell (c := 0) quaTri_valid rfl rfl (.inr rfl) hc (1 / 2, 1 / 4)
  have c1 : cornersOf quaTri ⟨0, 1, .qua4, [0, 1, 2, 3]⟩ = [(0, 0), (1, 0), (1, 1), (0, 1)] := by
    simp [cornersOf, List.range_succ, GeoKind.classOf, planePoint, quaTri, coordsOf]
  obtain ⟨r, s, hrs⟩ := h1.1 (by rw [c1]; norm_num [InClosedPolygon, sidesOf, sideOf])
  exact ⟨r, s, hrs, fun r' s' h' => h2 r' s' r s h' hrs⟩

end
end Gemlab.Mesh
