import Verif.Proofs.Draw

/-! # The commands for one curve -/
namespace Gemlab.Draw
open Gemlab.Mesh Gemlab.Shapes Gemlab.Spec

/-- Coordinate `d` of the point `p`. -/
def co (m : Mesh ℝ) (p d : Nat) : ℝ := (coordsOf m p).getD d 0

/-- Position of a point in the plane. -/
def pos2 (m : Mesh ℝ) (p : Nat) : ℝ × ℝ := (co m p 0, co m p 1)

theorem xy_ok {m : Mesh ℝ} (h : ValidMesh m) (h2 : m.ndim = 2) {p : Nat} (hp : p < m.points.length) : xy m p = .ok (pos2 m p) := by
  have hc := h.coords _ (List.getElem_mem hp)
  have hco : coordsOf m p = m.points[p].coords := by unfold coordsOf; rw [List.getElem?_eq_getElem hp]; rfl
  unfold xy pos2 co
  rw [Res.idx_eq_ok.2 (List.getElem?_eq_getElem hp), Res.bind_ok, hco]
  rw [Res.idx_eq_ok.2 (List.getElem?_eq_getElem (i := 0) (by omega)), Res.bind_ok, Res.idx_eq_ok.2 (List.getElem?_eq_getElem (i := 1) (by omega)), Res.bind_ok,
    List.getD_eq_getElem _ _ (by omega : 0 < _), List.getD_eq_getElem _ _ (by omega : 1 < _)]
  rfl

theorem xyz_ok {m : Mesh ℝ} (h : ValidMesh m) (h2 : m.ndim = 3) {p : Nat} (hp : p < m.points.length) : xyz m p = .ok (position m p) := by
  have hc := h.coords _ (List.getElem_mem hp)
  have hco : coordsOf m p = m.points[p].coords := by unfold coordsOf; rw [List.getElem?_eq_getElem hp]; rfl
  unfold xyz position
  rw [Res.idx_eq_ok.2 (List.getElem?_eq_getElem hp), Res.bind_ok, hco]
  rw [Res.idx_eq_ok.2 (List.getElem?_eq_getElem (i := 0) (by omega)), Res.bind_ok, Res.idx_eq_ok.2 (List.getElem?_eq_getElem (i := 1) (by omega)), Res.bind_ok,
    Res.idx_eq_ok.2 (List.getElem?_eq_getElem (i := 2) (by omega)), Res.bind_ok,
    List.getD_eq_getElem _ _ (by omega : 0 < _), List.getD_eq_getElem _ _ (by omega : 1 < _), List.getD_eq_getElem _ _ (by omega : 2 < _)]
  rfl

/-- One curve in the plane: the commands between the start and the end, and the control points. -/
structure IsPiece (m : Mesh ℝ) (kind : GeoKind) (ii : List Nat) (body : List Cmd) (ctrl : List (ℝ × ℝ)) : Prop where
  add : ∀ start stop, addCurve m kind ii start stop = .ok (curveStart start (pos2 m (ii.getD 0 0)) ++ body ++ curveStop stop)
  path : ∀ rest ps, IsPath (pos2 m (ii.getD 1 0)) rest ps → IsPath (pos2 m (ii.getD 0 0)) (body ++ rest) (ctrl :: ps)
  first : ctrl.head? = some (pos2 m (ii.getD 0 0))
  last : ctrl.getLast? = some (pos2 m (ii.getD 1 0))
  follows : ∀ t, (kind ≠ .lin5 ∨ t = 0 ∨ t = 1 / 3 ∨ t = 2 / 3 ∨ t = 1 ∨ ∀ d < 2, IsCubic fun j => co m (ii.getD j 0) d) →
    At ctrl t fun d => interpolate kind (fun j => co m (ii.getD j 0) d) (vec1 (2 * t - 1))

theorem piece_lin2 {m : Mesh ℝ} (h : ValidMesh m) (h2 : m.ndim = 2) {a b : Nat} (ha : a < m.points.length) (hb : b < m.points.length) :
    ∃ body ctrl, IsPiece m .lin2 [a, b] body ctrl := by
  refine ⟨[.curveAdd (co m b 0) (co m b 1) .lineTo], [pos2 m a, pos2 m b], ?_, ?_, rfl, rfl, ?_⟩
  · intro start stop
    simp only [addCurve, addLin2, h2, if_true, List.getD_cons_zero]
    rw [Res.idx_eq_ok.2 (show [a, b][0]? = some a from rfl), Res.bind_ok, Res.idx_eq_ok.2 (show [a, b][1]? = some b from rfl), Res.bind_ok, xy_ok h h2 ha, Res.bind_ok, xy_ok h h2 hb, Res.bind_ok]
    rfl
  · intro rest ps hp
    exact IsPath.line (pos2 m a) (pos2 m b) rest ps hp
  · intro t _
    exact ⟨draw_lin2 (fun j => co m ([a, b].getD j 0) 0) t, draw_lin2 (fun j => co m ([a, b].getD j 0) 1) t⟩

theorem piece_lin3 {m : Mesh ℝ} (h : ValidMesh m) (h2 : m.ndim = 2) {a b c : Nat} (ha : a < m.points.length) (hb : b < m.points.length) (hc : c < m.points.length) :
    ∃ body ctrl, IsPiece m .lin3 [a, b, c] body ctrl := by
  refine ⟨[.curveAdd ((-co m a 0 - co m b 0 + 4 * co m c 0) / 2) ((-co m a 1 - co m b 1 + 4 * co m c 1) / 2) .curve3, .curveAdd (co m b 0) (co m b 1) .curve3],
    [pos2 m a, ((-co m a 0 - co m b 0 + 4 * co m c 0) / 2, (-co m a 1 - co m b 1 + 4 * co m c 1) / 2), pos2 m b], ?_, ?_, rfl, rfl, ?_⟩
  · intro start stop
    simp only [addCurve, addLin3, h2, if_true, List.getD_cons_zero]
    rw [Res.idx_eq_ok.2 (show [a, b, c][0]? = some a from rfl), Res.bind_ok, Res.idx_eq_ok.2 (show [a, b, c][1]? = some b from rfl), Res.bind_ok,
      Res.idx_eq_ok.2 (show [a, b, c][2]? = some c from rfl), Res.bind_ok, xy_ok h h2 ha, Res.bind_ok, xy_ok h h2 hb, Res.bind_ok, xy_ok h h2 hc, Res.bind_ok]
    rfl
  · intro rest ps hp
    exact IsPath.quadratic (pos2 m a) ((-co m a 0 - co m b 0 + 4 * co m c 0) / 2, (-co m a 1 - co m b 1 + 4 * co m c 1) / 2) (pos2 m b) rest ps hp
  · intro t _
    exact ⟨draw_lin3 (fun j => co m ([a, b, c].getD j 0) 0) t, draw_lin3 (fun j => co m ([a, b, c].getD j 0) 1) t⟩

theorem piece_lin4 {m : Mesh ℝ} (h : ValidMesh m) (h2 : m.ndim = 2) {a b c d : Nat} (ha : a < m.points.length) (hb : b < m.points.length) (hc : c < m.points.length)
    (hd : d < m.points.length) : ∃ body ctrl, IsPiece m .lin4 [a, b, c, d] body ctrl := by
  refine ⟨[.curveAdd (controlC (co m a 0) (co m b 0) (co m c 0) (co m d 0)) (controlC (co m a 1) (co m b 1) (co m c 1) (co m d 1)) .curve4,
    .curveAdd (controlD (co m a 0) (co m b 0) (co m c 0) (co m d 0)) (controlD (co m a 1) (co m b 1) (co m c 1) (co m d 1)) .curve4, .curveAdd (co m b 0) (co m b 1) .curve4],
    [pos2 m a, (controlC (co m a 0) (co m b 0) (co m c 0) (co m d 0), controlC (co m a 1) (co m b 1) (co m c 1) (co m d 1)),
      (controlD (co m a 0) (co m b 0) (co m c 0) (co m d 0), controlD (co m a 1) (co m b 1) (co m c 1) (co m d 1)), pos2 m b], ?_, ?_, rfl, rfl, ?_⟩
  · intro start stop
    simp only [addCurve, addLin4, h2, if_true, List.getD_cons_zero]
    rw [Res.idx_eq_ok.2 (show [a, b, c, d][0]? = some a from rfl), Res.bind_ok, Res.idx_eq_ok.2 (show [a, b, c, d][1]? = some b from rfl), Res.bind_ok,
      Res.idx_eq_ok.2 (show [a, b, c, d][2]? = some c from rfl), Res.bind_ok, Res.idx_eq_ok.2 (show [a, b, c, d][3]? = some d from rfl), Res.bind_ok,
      xy_ok h h2 ha, Res.bind_ok, xy_ok h h2 hb, Res.bind_ok, xy_ok h h2 hc, Res.bind_ok, xy_ok h h2 hd, Res.bind_ok]
    rfl
  · intro rest ps hp
    exact IsPath.cubic (pos2 m a) (controlC (co m a 0) (co m b 0) (co m c 0) (co m d 0), controlC (co m a 1) (co m b 1) (co m c 1) (co m d 1))
      (controlD (co m a 0) (co m b 0) (co m c 0) (co m d 0), controlD (co m a 1) (co m b 1) (co m c 1) (co m d 1)) (pos2 m b) rest ps hp
  · intro t _
    exact ⟨draw_lin4 (fun j => co m ([a, b, c, d].getD j 0) 0) t, draw_lin4 (fun j => co m ([a, b, c, d].getD j 0) 1) t⟩

theorem holds_calcInterp {m : Mesh ℝ} {k : GeoKind} {ii : List Nat} {pad : Scratchpad} (hp : HoldsCell m k ii pad) (ξ : Nat → ℝ) :
    HoldsCell m k ii (pad.calcInterp ξ) := ⟨hp.kind, hp.space, hp.ok, hp.coords⟩

theorem lin5At_ok {m : Mesh ℝ} {ii : List Nat} {pad : Scratchpad} (hp : HoldsCell m .lin5 ii pad) (h2 : m.ndim = 2) (r : ℝ) :
    ∃ pad', lin5At m pad r = .ok ((interpolate .lin5 (fun j => co m (ii.getD j 0) 0) (vec1 r), interpolate .lin5 (fun j => co m (ii.getD j 0) 1) (vec1 r)), pad') ∧
      HoldsCell m .lin5 ii pad' := by
  have hv : (fun i : Nat => if i = 0 then r else 0) = vec1 r := by
    funext i; cases i <;> simp [vec1]
  have key : ∀ d < 2, Shapes.calcCoords pad.kind pad.X (vec1 r) d = interpolate .lin5 (fun j => co m (ii.getD j 0) d) (vec1 r) := by
    intro d hd
    rw [hp.kind]
    unfold Shapes.calcCoords interpolate
    refine Finset.sum_congr rfl fun n hn => ?_
    rw [hp.coords n d (Finset.mem_range.1 hn) (by omega), mul_comm]
    rfl
  refine ⟨pad.calcInterp (vec1 r), ?_, holds_calcInterp hp _⟩
  unfold lin5At
  rw [hv, ← hp.space, Scratchpad.calcCoords_ok hp.ok]
  change Res.ok ((Shapes.calcCoords pad.kind pad.X (vec1 r) 0, Shapes.calcCoords pad.kind pad.X (vec1 r) 1), pad.calcInterp (vec1 r)) = _
  rw [key 0 (by omega), key 1 (by omega)]

theorem lin5Pad_ok {m : Mesh ℝ} (h : ValidMesh m) (h2 : m.ndim = 2) {ii : List Nat} (hl : ii.length = 5) (hr : ∀ p ∈ ii, p < m.points.length) :
    ∃ pad, lin5Pad m ii = .ok pad ∧ HoldsCell m .lin5 ii pad := by
  unfold lin5Pad Scratchpad.new
  rw [if_neg (by omega), if_neg (by rw [h2]; decide)]
  exact C53_set_pad m _ ii h.coords rfl (by omega) hl hr

theorem piece_lin5 {m : Mesh ℝ} (h : ValidMesh m) (h2 : m.ndim = 2) {a b c d e : Nat} (ha : a < m.points.length) (hb : b < m.points.length) (hc : c < m.points.length)
    (hd : d < m.points.length) (he : e < m.points.length) : ∃ body ctrl, IsPiece m .lin5 [a, b, c, d, e] body ctrl := by
  obtain ⟨pad, p1, p2⟩ := lin5Pad_ok h h2 (ii := [a, b, c, d, e]) rfl (by
    intro p hp; simp only [List.mem_cons, List.mem_nil_iff, or_false] at hp; rcases hp with rfl | rfl | rfl | rfl | rfl <;> assumption)
  obtain ⟨pad1, q1, q2⟩ := lin5At_ok p2 h2 (-(1 / 3))
  obtain ⟨pad2, r1, r2⟩ := lin5At_ok q2 h2 (1 / 3)
  generalize hC : (interpolate .lin5 (fun j => co m ([a, b, c, d, e].getD j 0) 0) (vec1 (-(1 / 3))), interpolate .lin5 (fun j => co m ([a, b, c, d, e].getD j 0) 1) (vec1 (-(1 / 3)))) = C at q1
  generalize hD : (interpolate .lin5 (fun j => co m ([a, b, c, d, e].getD j 0) 0) (vec1 (1 / 3)), interpolate .lin5 (fun j => co m ([a, b, c, d, e].getD j 0) 1) (vec1 (1 / 3))) = D at r1
  refine ⟨[.curveAdd (controlC (co m a 0) (co m b 0) C.1 D.1) (controlC (co m a 1) (co m b 1) C.2 D.2) .curve4,
    .curveAdd (controlD (co m a 0) (co m b 0) C.1 D.1) (controlD (co m a 1) (co m b 1) C.2 D.2) .curve4, .curveAdd (co m b 0) (co m b 1) .curve4],
    [pos2 m a, (controlC (co m a 0) (co m b 0) C.1 D.1, controlC (co m a 1) (co m b 1) C.2 D.2),
      (controlD (co m a 0) (co m b 0) C.1 D.1, controlD (co m a 1) (co m b 1) C.2 D.2), pos2 m b], ?_, ?_, rfl, rfl, ?_⟩
  · intro start stop
    simp only [addCurve, addLin5, h2, if_true, List.getD_cons_zero]
    rw [Res.idx_eq_ok.2 (show [a, b, c, d, e][0]? = some a from rfl), Res.bind_ok, Res.idx_eq_ok.2 (show [a, b, c, d, e][1]? = some b from rfl), Res.bind_ok,
      Res.idx_eq_ok.2 (show [a, b, c, d, e][2]? = some c from rfl), Res.bind_ok, Res.idx_eq_ok.2 (show [a, b, c, d, e][3]? = some d from rfl), Res.bind_ok,
      Res.idx_eq_ok.2 (show [a, b, c, d, e][4]? = some e from rfl), Res.bind_ok, p1, Res.bind_ok,
      xy_ok h h2 ha, Res.bind_ok, xy_ok h h2 hb, Res.bind_ok, q1, Res.bind_ok, r1, Res.bind_ok]
    rfl
  · intro rest ps hp
    exact IsPath.cubic (pos2 m a) (controlC (co m a 0) (co m b 0) C.1 D.1, controlC (co m a 1) (co m b 1) C.2 D.2)
      (controlD (co m a 0) (co m b 0) C.1 D.1, controlD (co m a 1) (co m b 1) C.2 D.2) (pos2 m b) rest ps hp
  · intro t ht
    subst hC hD
    have h0 := draw_lin5 (fun j => co m ([a, b, c, d, e].getD j 0) 0) t (by
      rcases ht with h | h | h | h | h | h
      · exact absurd rfl h
      · exact .inl h
      · exact .inr (.inl h)
      · exact .inr (.inr (.inl h))
      · exact .inr (.inr (.inr (.inl h)))
      · exact .inr (.inr (.inr (.inr (h 0 (by omega))))))
    have h1 := draw_lin5 (fun j => co m ([a, b, c, d, e].getD j 0) 1) t (by
      rcases ht with h | h | h | h | h | h
      · exact absurd rfl h
      · exact .inl h
      · exact .inr (.inl h)
      · exact .inr (.inr (.inl h))
      · exact .inr (.inr (.inr (.inl h)))
      · exact .inr (.inr (.inr (.inr (h 1 (by omega))))))
    exact ⟨h0, h1⟩

end Gemlab.Draw
