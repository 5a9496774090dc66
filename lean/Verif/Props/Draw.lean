import Verif.Proofs.Draw3
import Verif.Props.FeaturesQueries

/-!
# C72: what is drawn for a cell
-/
namespace Gemlab.Draw
open Gemlab.Mesh Gemlab.Shapes Gemlab.Spec

/-- Sanity of the specification: `curveOrder` lists every node of the curve exactly once, from the one at `ξ = -1` to the one at `ξ = 1`,
equally spaced. -/
theorem curveOrder_sorted {ek : GeoKind} (h1 : ek.ndim = 1) : (curveOrder ek).Perm (List.range ek.nnode) ∧
    ∀ (j n : Nat), (curveOrder ek)[j]? = some n → (refCoord ek n 0 : ℝ) = -1 + 2 * j / (ek.nnode - 1 : ℕ) := by
  have key : ∀ j < ek.nnode, refCoordQ ek ((curveOrder ek).getD j 0) 0 = -1 + 2 * j / (ek.nnode - 1 : ℕ) := by
    cases ek <;> first | exact absurd h1 (by decide) | decide +kernel
  have hl : (curveOrder ek).length = ek.nnode := by
    cases ek <;> first | exact absurd h1 (by decide) | rfl
  refine ⟨by cases ek <;> first | exact absurd h1 (by decide) | decide, ?_⟩
  intro j n hj
  obtain ⟨h2, rfl⟩ := List.getElem?_eq_some_iff.1 hj
  have := key j (by omega)
  rw [List.getD_eq_getElem _ _ h2] at this
  unfold refCoord
  rw [this]
  push_cast
  ring

/-- C72: the outline of a triangle or quadrilateral of a mesh in the plane. The drawing succeeds; it is one closed curve with one piece for
every edge of the cell. The piece of the edge `e`, at its parameter `t` from `0` to `1`, is at the place where the isoparametric map
of the cell sends the point `1 - 2t` of the edge `e` of the reference cell. This holds for all `t` if the edges have at most four nodes.
For edges with five nodes it holds at the ends and at the thirds, and everywhere if the edge is a cubic curve. -/
theorem C72_outline (m : Mesh ℝ) (h : ValidMesh m) (h2 : m.ndim = 2) (c : Nat) (cell : Cell) (hc : m.cells[c]? = some cell) (hk : cell.kind.ndim = 2) :
    ∃ cmds pieces, drawCell m c = .ok cmds ∧ IsCurve cmds pieces ∧ pieces.length = cell.kind.nedge ∧
      (∃ first last a, pieces.head? = some first ∧ pieces.getLast? = some last ∧ first.head? = some a ∧ last.getLast? = some a) ∧
      ∀ (e : Nat) (piece : List (ℝ × ℝ)), pieces[e]? = some piece → ∀ t : ℝ,
        (cell.kind.edgeNnode ≤ 4 ∨ t = 0 ∨ t = 1 / 3 ∨ t = 2 / 3 ∨ t = 1 ∨
          ∀ d < 2, IsCubic fun j => (coordsOf m (cell.points.getD (edgeNode cell.kind e j) 0)).getD d 0) →
        At piece t (cellMap m cell (edgePoint cell.kind e (1 - 2 * t))) := by
  obtain ⟨ek, hek⟩ : ∃ ek, cell.kind.edgeKind = some ek := by
    clear hc
    generalize cell.kind = q at hk
    cases q <;> first | exact absurd hk (by decide) | exact ⟨_, rfl⟩
  have h1 := edgeKind_ndim hek
  obtain ⟨hcl, hce⟩ := List.getElem?_eq_some_iff.1 hc
  have hmem : cell ∈ m.cells := by rw [← hce]; exact List.getElem_mem hcl
  obtain ⟨cmds, pieces, o1, o2, o3, o4⟩ := outline_plane h h2 hmem hk hek
  refine ⟨cmds, pieces, by rw [drawCell_plane hc hk hek, o1], o2, o3, ?_, ?_⟩
  · have hn : 3 ≤ cell.kind.nedge := by rcases plane_nedge hk with h | h <;> omega
    obtain ⟨b0, c0, q1, q2⟩ := o4 0 (by omega)
    obtain ⟨b1, c1, r1, r2⟩ := o4 (cell.kind.nedge - 1) (by omega)
    refine ⟨c0, c1, _, by rw [List.head?_eq_getElem?]; exact q1, by rw [List.getLast?_eq_getElem?, o3]; exact r1, q2.first, ?_⟩
    rw [r2.last, drawn_first h1, drawn_second h1, edge_cycle hk _ (by omega), show cell.kind.nedge - 1 + 1 = cell.kind.nedge by omega, Nat.mod_self]
  · intro e piece hp t ht
    have he : e < cell.kind.nedge := by rw [← o3]; exact (List.getElem?_eq_some_iff.1 hp).1
    obtain ⟨body, ctrl, q1, q2⟩ := o4 e he
    rw [hp] at q1
    cases q1
    have hgd : ∀ j < ek.nnode, (pts cell (drawn cell.kind ek e)).getD j 0 = cell.points.getD (edgeNode cell.kind e ((revOrder ek).getD j 0)) 0 := by
      intro j hj
      rw [pts_getD cell (by rw [drawn_length h1]; exact hj), drawn_getD h1 e hj]
    have hmap : ∀ d, interpolate ek (fun j => co m ((pts cell (drawn cell.kind ek e)).getD j 0) d) (vec1 (2 * t - 1)) = cellMap m cell (edgePoint cell.kind e (1 - 2 * t)) d := by
      intro d
      unfold cellMap
      rw [Props.Shapes.C29_edge_interpolation cell.kind ek hek e he]
      have := interpolate_rev h1 (fun j => (coordsOf m (cell.points.getD (edgeNode cell.kind e j) 0)).getD d 0) (2 * t - 1)
      rw [show -(2 * t - 1) = 1 - 2 * t by ring] at this
      rw [← this]
      unfold interpolate
      refine Finset.sum_congr rfl fun j hj => ?_
      beta_reduce
      rw [hgd j (Finset.mem_range.1 hj)]
      rfl
    have hf := q2.follows t ?_
    · unfold At at hf ⊢
      beta_reduce at hf
      rw [hmap 0, hmap 1] at hf
      exact hf
    · rcases ht with h | h | h | h | h | h
      · refine .inl ?_
        rintro rfl
        have := (edgeKind_nnode _ _ hek).1
        rw [← this] at h
        exact absurd h (by decide)
      · exact .inr (.inl h)
      · exact .inr (.inr (.inl h))
      · exact .inr (.inr (.inr (.inl h)))
      · exact .inr (.inr (.inr (.inr (.inl h))))
      · by_cases h5 : ek = .lin5
        · refine .inr (.inr (.inr (.inr (.inr ?_))))
          intro d hd
          have h6 := h d hd
          subst h5
          unfold IsCubic at h6 ⊢
          beta_reduce at h6 ⊢
          rw [hgd 0 (by decide), hgd 1 (by decide), hgd 2 (by decide), hgd 3 (by decide), hgd 4 (by decide)]
          simp only [revOrder, List.getD_cons_zero, List.getD_cons_succ, co]
          linarith
        · exact .inl h5

/-- C72: a line cell of a mesh in the plane is drawn as one curve with one piece, which runs from its first to its second node. -/
theorem C72_line (m : Mesh ℝ) (h : ValidMesh m) (h2 : m.ndim = 2) (c : Nat) (cell : Cell) (hc : m.cells[c]? = some cell) (hk : cell.kind.ndim = 1) :
    ∃ cmds piece, drawCell m c = .ok cmds ∧ IsCurve cmds [piece] ∧ ∀ t : ℝ,
      (cell.kind.nnode ≤ 4 ∨ t = 0 ∨ t = 1 / 3 ∨ t = 2 / 3 ∨ t = 1 ∨ ∀ d < 2, IsCubic fun j => (coordsOf m (cell.points.getD j 0)).getD d 0) →
      At piece t (cellMap m cell (vec1 (2 * t - 1))) := by
  obtain ⟨hcl, hce⟩ := List.getElem?_eq_some_iff.1 hc
  have hmem : cell ∈ m.cells := by rw [← hce]; exact List.getElem_mem hcl
  obtain ⟨body, ctrl, q⟩ := piece_any h h2 hk (h.nnode cell hmem) (h.inRange cell hmem)
  refine ⟨_, ctrl, by rw [drawCell_lin hc hk]; exact q.add true true, ⟨pos2 m (cell.points.getD 0 0), body ++ [], ?_, ?_⟩, ?_⟩
  · simp [curveStart, curveStop]
  · exact q.path _ _ (IsPath.stop _)
  · intro t ht
    have hf := q.follows t (by
      rcases ht with h | h
      · refine .inl ?_
        intro h5
        rw [h5] at h
        exact absurd h (by decide)
      · exact .inr h)
    exact hf

/-- C72: in space, a line cell is drawn as one polyline through its points, in the order of their positions. -/
theorem C72_line_space (m : Mesh ℝ) (h : ValidMesh m) (h3 : m.ndim = 3) (c : Nat) (cell : Cell) (hc : m.cells[c]? = some cell) (hk : cell.kind.ndim = 1) :
    ∃ cmds, drawCell m c = .ok cmds ∧ IsPolyline cmds ((curveOrder cell.kind).map fun j => position m (cell.points.getD j 0)) := by
  obtain ⟨hcl, hce⟩ := List.getElem?_eq_some_iff.1 hc
  have hmem : cell ∈ m.cells := by rw [← hce]; exact List.getElem_mem hcl
  rw [drawCell_lin hc hk, line_any h h3 hk (h.nnode cell hmem) (h.inRange cell hmem)]
  refine ⟨_, rfl, ?_⟩
  clear hc hce
  generalize cell.kind = q at hk
  cases q <;> first | exact absurd hk (by decide) | rfl

/-- C72: in space, a triangle or quadrilateral is drawn as one closed polyline through the points of its edges, in the order of their
positions (`edgeLine` of the edge `e`, run backwards, as in the plane). -/
theorem C72_outline_space (m : Mesh ℝ) (h : ValidMesh m) (h3 : m.ndim = 3) (c : Nat) (cell : Cell) (hc : m.cells[c]? = some cell) (hk : cell.kind.ndim = 2)
    (ek : GeoKind) (hek : cell.kind.edgeKind = some ek) :
    ∃ cmds a pts, drawCell m c = .ok cmds ∧ IsPolyline cmds (a :: pts) ∧ pts.getLast? = some a ∧
      pts = (List.range cell.kind.nedge).flatMap (fun e => (edgeLine m cell ek e).reverse.tail) ∧
      (edgeLine m cell ek 0).getLast? = some a ∧
      ∀ e, e + 1 < cell.kind.nedge → (edgeLine m cell ek e).head? = (edgeLine m cell ek (e + 1)).getLast? := by
  obtain ⟨hcl, hce⟩ := List.getElem?_eq_some_iff.1 hc
  have hmem : cell ∈ m.cells := by rw [← hce]; exact List.getElem_mem hcl
  have h1 := edgeKind_ndim hek
  obtain ⟨cmds, o1, o2⟩ := outline_space h h3 hmem hk hek
  have hlast : ∀ e, (edgeLine m cell ek e).getLast? = some (position m (cell.points.getD (edgeNode cell.kind e 1) 0)) := by
    intro e
    clear hek o1 o2
    cases ek <;> first | exact absurd h1 (by decide) | rfl
  have hfirst : ∀ e, (edgeLine m cell ek e).head? = some (position m (cell.points.getD (edgeNode cell.kind e 0) 0)) := by
    intro e
    clear hek o1 o2
    cases ek <;> first | exact absurd h1 (by decide) | rfl
  have htail : ∀ e, (edgeLine m cell ek e).reverse.tail.getLast? = some (position m (cell.points.getD (edgeNode cell.kind e 0) 0)) := by
    intro e
    clear hek o1 o2
    cases ek <;> first | exact absurd h1 (by decide) | rfl
  refine ⟨cmds, _, _, by rw [drawCell_plane hc hk hek, o1], o2, ?_, rfl, hlast 0, ?_⟩
  · obtain ⟨N, hN⟩ : ∃ N, cell.kind.nedge = N + 1 := ⟨cell.kind.nedge - 1, by rcases plane_nedge hk with h | h <;> omega⟩
    have hcy := edge_cycle hk N (by omega)
    rw [hN, Nat.mod_self] at hcy
    rw [hN, List.range_succ, List.flatMap_append, List.getLast?_append]
    simp only [List.flatMap_cons, List.flatMap_nil, List.append_nil]
    rw [htail N, hcy]
    rfl
  · intro e he
    have hcy := edge_cycle hk e (by omega)
    rw [Nat.mod_eq_of_lt he] at hcy
    rw [hfirst, hlast, hcy]

/-- C72: a tetrahedron or hexahedron is drawn as one polyline for every edge, through the points of this edge in the order of their positions. -/
theorem C72_solid (m : Mesh ℝ) (h : ValidMesh m) (h3 : m.ndim = 3) (c : Nat) (cell : Cell) (hc : m.cells[c]? = some cell) (hk : cell.kind.ndim = 3)
    (ek : GeoKind) (hek : cell.kind.edgeKind = some ek) :
    ∃ parts : List (List Cmd), drawCell m c = .ok parts.flatten ∧ parts.length = cell.kind.nedge ∧
      ∀ (e : Nat) (cmds : List Cmd), parts[e]? = some cmds → IsPolyline cmds (edgeLine m cell ek e) := by
  obtain ⟨hcl, hce⟩ := List.getElem?_eq_some_iff.1 hc
  have hmem : cell ∈ m.cells := by rw [← hce]; exact List.getElem_mem hcl
  rw [drawCell_solid hc hk hek]
  exact wireframe_space h h3 hmem hek

/-- C72: a cell that does not exist is an error. -/
theorem C72_no_cell (m : Mesh ℝ) (c : Nat) (hc : m.cells.length ≤ c) : ∃ e, drawCell m c = .err e := by
  unfold drawCell
  rw [if_pos hc]
  exact ⟨_, rfl⟩

/-! ## An example: a triangle with one curved edge -/

/-- The edge from `(0, 0)` to `(1, 0)` bulges down to `(1/2, -1/4)`. -/
noncomputable def curved : Mesh ℝ where
  ndim := 2
  points := [⟨0, 0, [0, 0]⟩, ⟨1, 0, [1, 0]⟩, ⟨2, 0, [0, 1]⟩, ⟨3, 0, [1 / 2, -(1 / 4)]⟩, ⟨4, 0, [1 / 2, 1 / 2]⟩, ⟨5, 0, [0, 1 / 2]⟩]
  cells := [⟨0, 1, .tri6, [0, 1, 2, 3, 4, 5]⟩]
  markedEdges := []
  markedFaces := []

theorem curved_valid : ValidMesh curved := by
  refine ⟨?_, ?_, ?_, ?_, ?_⟩
  · intro p hp; simp [curved] at hp; rcases hp with rfl | rfl | rfl | rfl | rfl | rfl <;> rfl
  · intro i p hp
    have : i < 6 := by by_contra hc; rw [List.getElem?_eq_none (by simp [curved]; omega)] at hp; simp at hp
    interval_cases i <;> simp [curved] at hp <;> subst hp <;> rfl
  · intro i p hp
    have : i < 1 := by by_contra hc; rw [List.getElem?_eq_none (by simp [curved]; omega)] at hp; simp at hp
    interval_cases i; simp [curved] at hp; subst hp; rfl
  · intro c hc; simp [curved] at hc; subst hc; rfl
  · intro c hc p hp; simp [curved] at hc; subst hc; simp at hp; rcases hp with rfl | rfl | rfl | rfl | rfl | rfl <;> simp [curved]

/-- The hypotheses of `C72_outline` hold for this cell, and the middle of the first piece drawn is the middle node of the curved edge. -/
example : ∃ cmds pieces piece, drawCell curved 0 = .ok cmds ∧ IsCurve cmds pieces ∧ pieces.length = 3 ∧ pieces[0]? = some piece ∧
    bezier (piece.map (·.1)) (1 / 2) = 1 / 2 ∧ bezier (piece.map (·.2)) (1 / 2) = -(1 / 4) := by
  obtain ⟨cmds, pieces, h1, h2, h3, -, h4⟩ := C72_outline curved curved_valid rfl 0 ⟨0, 1, .tri6, [0, 1, 2, 3, 4, 5]⟩ rfl rfl
  have hl : 0 < pieces.length := by rw [h3]; decide
  obtain ⟨a, b⟩ := h4 0 _ (List.getElem?_eq_getElem hl) (1 / 2) (.inl (by decide))
  refine ⟨cmds, pieces, _, h1, h2, h3, List.getElem?_eq_getElem hl, ?_, ?_⟩
  · rw [a]
    unfold cellMap
    rw [Props.Shapes.C29_edge_interpolation .tri6 .lin3 rfl 0 (by decide), interp_lin3]
    norm_num [curved, coordsOf, edgeNode, GeoKind.edgeNodeIds]
  · rw [b]
    unfold cellMap
    rw [Props.Shapes.C29_edge_interpolation .tri6 .lin3 rfl 0 (by decide), interp_lin3]
    norm_num [curved, coordsOf, edgeNode, GeoKind.edgeNodeIds]

end Gemlab.Draw
