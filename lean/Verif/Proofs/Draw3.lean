import Verif.Proofs.Draw2

/-! # The outline of a cell -/
namespace Gemlab.Draw
open Gemlab.Mesh Gemlab.Shapes Gemlab.Spec

/-- The nodes of a curve run backwards. -/
def revOrder : GeoKind → List Nat
  | .lin2 => [1, 0]
  | .lin3 => [1, 0, 2]
  | .lin4 => [1, 0, 3, 2]
  | .lin5 => [1, 0, 2, 4, 3]
  | _ => []

/-- The nodes given to `add_curve` for the local edge `e`. -/
def drawn (k ek : GeoKind) (e : Nat) : List Nat := (revOrder ek).map (edgeNode k e)

theorem interpolate_rev {ek : GeoKind} (h1 : ek.ndim = 1) (u : Nat → ℝ) (η : ℝ) :
    interpolate ek (fun j => u ((revOrder ek).getD j 0)) (vec1 η) = interpolate ek u (vec1 (-η)) := by
  cases ek <;> first | exact absurd h1 (by decide) | skip
  · rw [interp_lin2, interp_lin2]; simp [revOrder]; ring
  · rw [interp_lin3, interp_lin3]; simp [revOrder]; ring
  · rw [interp_lin4, interp_lin4]; simp [revOrder]; ring
  · rw [interp_lin5, interp_lin5]; simp [revOrder]; ring

/-- One curve in the plane. -/
theorem piece_any {m : Mesh ℝ} (h : ValidMesh m) (h2 : m.ndim = 2) {ek : GeoKind} (h1 : ek.ndim = 1) {ii : List Nat} (hl : ii.length = ek.nnode)
    (hr : ∀ p ∈ ii, p < m.points.length) : ∃ body ctrl, IsPiece m ek ii body ctrl := by
  cases ek <;> first | exact absurd h1 (by decide) | skip
  · match ii, hl with
    | [a, b], _ => exact piece_lin2 h h2 (hr _ (by simp)) (hr _ (by simp))
  · match ii, hl with
    | [a, b, c], _ => exact piece_lin3 h h2 (hr _ (by simp)) (hr _ (by simp)) (hr _ (by simp))
  · match ii, hl with
    | [a, b, c, d], _ => exact piece_lin4 h h2 (hr _ (by simp)) (hr _ (by simp)) (hr _ (by simp)) (hr _ (by simp))
  · match ii, hl with
    | [a, b, c, d, e], _ => exact piece_lin5 h h2 (hr _ (by simp)) (hr _ (by simp)) (hr _ (by simp)) (hr _ (by simp)) (hr _ (by simp))

/-- The commands of one polyline in space. -/
theorem line_any {m : Mesh ℝ} (h : ValidMesh m) (h3 : m.ndim = 3) {ek : GeoKind} (h1 : ek.ndim = 1) {ii : List Nat} (hl : ii.length = ek.nnode)
    (hr : ∀ p ∈ ii, p < m.points.length) (start stop : Bool) :
    addCurve m ek ii start stop = .ok (lineStart start (position m (ii.getD 0 0)) ++
      ((curveOrder ek).tail.map fun j => lineTo3 (position m (ii.getD j 0))) ++ lineStop stop) := by
  have h2 : ¬ m.ndim = 2 := by omega
  cases ek <;> first | exact absurd h1 (by decide) | skip
  · match ii, hl with
    | [a, b], _ =>
      simp only [addCurve, addLin2, h2, if_false]
      rw [Res.idx_eq_ok.2 (show [a, b][0]? = some a from rfl), Res.bind_ok, Res.idx_eq_ok.2 (show [a, b][1]? = some b from rfl), Res.bind_ok,
        xyz_ok h h3 (hr a (by simp)), Res.bind_ok, xyz_ok h h3 (hr b (by simp)), Res.bind_ok]
      rfl
  · match ii, hl with
    | [a, b, c], _ =>
      simp only [addCurve, addLin3, h2, if_false]
      rw [Res.idx_eq_ok.2 (show [a, b, c][0]? = some a from rfl), Res.bind_ok, Res.idx_eq_ok.2 (show [a, b, c][1]? = some b from rfl), Res.bind_ok,
        Res.idx_eq_ok.2 (show [a, b, c][2]? = some c from rfl), Res.bind_ok,
        xyz_ok h h3 (hr a (by simp)), Res.bind_ok, xyz_ok h h3 (hr b (by simp)), Res.bind_ok, xyz_ok h h3 (hr c (by simp)), Res.bind_ok]
      rfl
  · match ii, hl with
    | [a, b, c, d], _ =>
      simp only [addCurve, addLin4, h2, if_false]
      rw [Res.idx_eq_ok.2 (show [a, b, c, d][0]? = some a from rfl), Res.bind_ok, Res.idx_eq_ok.2 (show [a, b, c, d][1]? = some b from rfl), Res.bind_ok,
        Res.idx_eq_ok.2 (show [a, b, c, d][2]? = some c from rfl), Res.bind_ok, Res.idx_eq_ok.2 (show [a, b, c, d][3]? = some d from rfl), Res.bind_ok,
        xyz_ok h h3 (hr a (by simp)), Res.bind_ok, xyz_ok h h3 (hr b (by simp)), Res.bind_ok, xyz_ok h h3 (hr c (by simp)), Res.bind_ok,
        xyz_ok h h3 (hr d (by simp)), Res.bind_ok]
      rfl
  · match ii, hl with
    | [a, b, c, d, e], _ =>
      simp only [addCurve, addLin5, h2, if_false]
      rw [Res.idx_eq_ok.2 (show [a, b, c, d, e][0]? = some a from rfl), Res.bind_ok, Res.idx_eq_ok.2 (show [a, b, c, d, e][1]? = some b from rfl), Res.bind_ok,
        Res.idx_eq_ok.2 (show [a, b, c, d, e][2]? = some c from rfl), Res.bind_ok, Res.idx_eq_ok.2 (show [a, b, c, d, e][3]? = some d from rfl), Res.bind_ok,
        Res.idx_eq_ok.2 (show [a, b, c, d, e][4]? = some e from rfl), Res.bind_ok,
        xyz_ok h h3 (hr a (by simp)), Res.bind_ok, xyz_ok h h3 (hr b (by simp)), Res.bind_ok, xyz_ok h h3 (hr c (by simp)), Res.bind_ok,
        xyz_ok h h3 (hr d (by simp)), Res.bind_ok, xyz_ok h h3 (hr e (by simp)), Res.bind_ok]
      rfl

/-- The points of the nodes `ns` of a cell. -/
def pts (cell : Cell) (ns : List Nat) : List Nat := ns.map fun n => cell.points.getD n 0

theorem addNodes_eq {m : Mesh ℝ} {cell : Cell} {ns : List Nat} (hn : ∀ n ∈ ns, n < cell.points.length) (kind : GeoKind) (start stop : Bool) :
    addNodes m cell kind ns start stop = addCurve m kind (pts cell ns) start stop := by
  unfold addNodes
  rw [Res.mapM_eq_ok_of (fun n => Res.idx cell.points n) (fun n => cell.points.getD n 0) ns (fun n hn' => by
    rw [List.getD_eq_getElem _ _ (hn n hn')]; exact Res.idx_of_lt (hn n hn'))]
  rfl

theorem pts_inRange {m : Mesh ℝ} (h : ValidMesh m) {cell : Cell} (hc : cell ∈ m.cells) {ns : List Nat} (hn : ∀ n ∈ ns, n < cell.points.length) :
    ∀ p ∈ pts cell ns, p < m.points.length := by
  intro p hp
  obtain ⟨n, h1, rfl⟩ := List.mem_map.1 hp
  rw [List.getD_eq_getElem _ _ (hn n h1)]
  exact h.inRange cell hc _ (List.getElem_mem _)

theorem drawn_lt {k ek : GeoKind} (hk : k.edgeKind = some ek) {e : Nat} (he : e < k.nedge) : ∀ n ∈ drawn k ek e, n < k.nnode := by
  intro n hn
  obtain ⟨j, hj, rfl⟩ := List.mem_map.1 hn
  refine Shapes.edgeNode_lt k e he j ?_
  rw [← (edgeKind_nnode k ek hk).1]
  have h1 := (edgeKind_nnode k ek hk).2
  revert hj
  have : ∀ j ∈ revOrder ek, j < ek.nnode := by
    cases ek <;> first | exact absurd h1 (by decide) | decide
  exact this j

theorem drawn_length {k ek : GeoKind} (h1 : ek.ndim = 1) (e : Nat) : (drawn k ek e).length = ek.nnode := by
  cases ek <;> first | exact absurd h1 (by decide) | rfl

/-- The edges of a plane cell. -/
theorem drawCell_plane {m : Mesh ℝ} {c : Nat} {cell : Cell} (hc : m.cells[c]? = some cell) (hk : cell.kind.ndim = 2) {ek : GeoKind} (he : cell.kind.edgeKind = some ek) :
    drawCell m c = outline m cell ek (drawn cell.kind ek 0) ((List.range (cell.kind.nedge - 2)).map fun j => drawn cell.kind ek (j + 1)) (drawn cell.kind ek (cell.kind.nedge - 1)) := by
  have hlt := (List.getElem?_eq_some_iff.1 hc).1
  unfold drawCell
  rw [if_neg (by omega), Res.idx_eq_ok.2 hc, Res.bind_ok]
  generalize hq : cell.kind = q at *
  cases q <;> first | exact absurd hk (by decide) | skip
  all_goals
    cases he
    rfl

theorem edgeKind_ndim {k ek : GeoKind} (hk : k.edgeKind = some ek) : ek.ndim = 1 := by
  have h1 := (edgeKind_nnode k ek hk).2
  cases ek <;> first | exact absurd h1 (by decide) | rfl

theorem pts_getD (cell : Cell) {ns : List Nat} {j : Nat} (hj : j < ns.length) : (pts cell ns).getD j 0 = cell.points.getD (ns.getD j 0) 0 := by
  unfold pts
  rw [List.getD_eq_getElem _ _ (by simpa using hj), List.getElem_map, List.getD_eq_getElem _ 0 hj]

theorem drawn_getD {k ek : GeoKind} (h1 : ek.ndim = 1) (e : Nat) {j : Nat} (hj : j < ek.nnode) : (drawn k ek e).getD j 0 = edgeNode k e ((revOrder ek).getD j 0) := by
  have hl : (revOrder ek).length = ek.nnode := by cases ek <;> first | exact absurd h1 (by decide) | rfl
  unfold drawn
  rw [List.getD_eq_getElem _ _ (by simpa [hl] using hj), List.getElem_map, List.getD_eq_getElem _ 0 (by omega)]

theorem two_le {ek : GeoKind} (h1 : ek.ndim = 1) : 2 ≤ ek.nnode ∧ (revOrder ek).getD 0 0 = 1 ∧ (revOrder ek).getD 1 0 = 0 ∧ ∀ j < ek.nnode, (revOrder ek).getD j 0 < ek.nnode := by
  cases ek <;> first | exact absurd h1 (by decide) | decide

theorem edge_cycle {k : GeoKind} (h2 : k.ndim = 2) : ∀ e < k.nedge, edgeNode k e 0 = edgeNode k ((e + 1) % k.nedge) 1 := by
  cases k <;> first | exact absurd h2 (by decide) | decide

theorem plane_nedge {k : GeoKind} (h2 : k.ndim = 2) : k.nedge = 3 ∨ k.nedge = 4 := by
  cases k <;> first | exact absurd h2 (by decide) | decide

/-- The start of the curve of an edge. -/
theorem drawn_first {k ek : GeoKind} (h1 : ek.ndim = 1) (cell : Cell) (e : Nat) : (pts cell (drawn k ek e)).getD 0 0 = cell.points.getD (edgeNode k e 1) 0 := by
  obtain ⟨t1, t2, t3, -⟩ := two_le h1
  rw [pts_getD cell (by rw [drawn_length h1]; omega), drawn_getD h1 e (by omega), t2]

theorem drawn_second {k ek : GeoKind} (h1 : ek.ndim = 1) (cell : Cell) (e : Nat) : (pts cell (drawn k ek e)).getD 1 0 = cell.points.getD (edgeNode k e 0) 0 := by
  obtain ⟨t1, t2, t3, -⟩ := two_le h1
  rw [pts_getD cell (by rw [drawn_length h1]; omega), drawn_getD h1 e (by omega), t3]

/-- The outline of a plane cell in the plane. -/
theorem outline_plane {m : Mesh ℝ} (h : ValidMesh m) (h2 : m.ndim = 2) {cell : Cell} (hc : cell ∈ m.cells) (hk : cell.kind.ndim = 2) {ek : GeoKind}
    (hek : cell.kind.edgeKind = some ek) :
    ∃ cmds pieces, outline m cell ek (drawn cell.kind ek 0) ((List.range (cell.kind.nedge - 2)).map fun j => drawn cell.kind ek (j + 1)) (drawn cell.kind ek (cell.kind.nedge - 1)) = .ok cmds ∧
      IsCurve cmds pieces ∧ pieces.length = cell.kind.nedge ∧
      ∀ (e : Nat), e < cell.kind.nedge → ∃ body ctrl, pieces[e]? = some ctrl ∧ IsPiece m ek (pts cell (drawn cell.kind ek e)) body ctrl := by
  have h1 := edgeKind_ndim hek
  have hlt : ∀ e < cell.kind.nedge, ∀ n ∈ drawn cell.kind ek e, n < cell.points.length := by
    intro e he n hn
    rw [h.nnode cell hc]
    exact drawn_lt hek he n hn
  have hpc : ∀ e : Nat, e < cell.kind.nedge → ∃ body ctrl, IsPiece m ek (pts cell (drawn cell.kind ek e)) body ctrl := by
    intro e he
    exact piece_any h h2 h1 (by rw [← drawn_length h1 (k := cell.kind) e]; simp [pts]) (pts_inRange h hc (hlt e he))
  choose! body ctrl hb using hpc
  have hcyc : ∀ e < cell.kind.nedge, pos2 m ((pts cell (drawn cell.kind ek e)).getD 1 0) = pos2 m ((pts cell (drawn cell.kind ek ((e + 1) % cell.kind.nedge))).getD 0 0) := by
    intro e he
    rw [drawn_first h1, drawn_second h1, edge_cycle hk e he]
  have hadd : ∀ e < cell.kind.nedge, ∀ start stop, addNodes m cell ek (drawn cell.kind ek e) start stop =
      .ok (curveStart start (pos2 m ((pts cell (drawn cell.kind ek e)).getD 0 0)) ++ body e ++ curveStop stop) := by
    intro e he start stop
    rw [addNodes_eq (hlt e he)]
    exact (hb e he).add start stop
  unfold outline
  rcases plane_nedge hk with hn | hn
  · rw [hn] at hb hcyc hadd ⊢
    have e1 : ((List.range (3 - 2)).map fun j => drawn cell.kind ek (j + 1)) = [drawn cell.kind ek 1] := rfl
    rw [e1, hadd 0 (by omega), Res.bind_ok, List.mapM_cons, List.mapM_nil, hadd 1 (by omega), Res.bind_ok, Res.pure_eq, Res.bind_ok, Res.pure_eq, Res.bind_ok, hadd 2 (by omega), Res.bind_ok]
    refine ⟨_, [ctrl 0, ctrl 1, ctrl 2], rfl, ⟨pos2 m ((pts cell (drawn cell.kind ek 0)).getD 0 0), body 0 ++ (body 1 ++ (body 2 ++ [])), ?_, ?_⟩, rfl, ?_⟩
    · simp [curveStart, curveStop]
    · refine (hb 0 (by omega)).path _ _ ?_
      rw [hcyc 0 (by omega)]
      refine (hb 1 (by omega)).path _ _ ?_
      rw [hcyc 1 (by omega)]
      refine (hb 2 (by omega)).path _ _ ?_
      exact IsPath.stop _
    · intro e he
      obtain rfl | rfl | rfl : e = 0 ∨ e = 1 ∨ e = 2 := by omega
      · exact ⟨body 0, ctrl 0, rfl, hb 0 (by omega)⟩
      · exact ⟨body 1, ctrl 1, rfl, hb 1 (by omega)⟩
      · exact ⟨body 2, ctrl 2, rfl, hb 2 (by omega)⟩
  · rw [hn] at hb hcyc hadd ⊢
    have e1 : ((List.range (4 - 2)).map fun j => drawn cell.kind ek (j + 1)) = [drawn cell.kind ek 1, drawn cell.kind ek 2] := rfl
    rw [e1, hadd 0 (by omega), Res.bind_ok, List.mapM_cons, List.mapM_cons, List.mapM_nil, hadd 1 (by omega), Res.bind_ok, hadd 2 (by omega), Res.bind_ok, Res.pure_eq, Res.bind_ok, Res.pure_eq, Res.bind_ok,
      Res.pure_eq, Res.bind_ok, hadd 3 (by omega), Res.bind_ok]
    refine ⟨_, [ctrl 0, ctrl 1, ctrl 2, ctrl 3], rfl, ⟨pos2 m ((pts cell (drawn cell.kind ek 0)).getD 0 0), body 0 ++ (body 1 ++ (body 2 ++ (body 3 ++ []))), ?_, ?_⟩, rfl, ?_⟩
    · simp [curveStart, curveStop]
    · refine (hb 0 (by omega)).path _ _ ?_
      rw [hcyc 0 (by omega)]
      refine (hb 1 (by omega)).path _ _ ?_
      rw [hcyc 1 (by omega)]
      refine (hb 2 (by omega)).path _ _ ?_
      rw [hcyc 2 (by omega)]
      refine (hb 3 (by omega)).path _ _ ?_
      exact IsPath.stop _
    · intro e he
      obtain rfl | rfl | rfl | rfl : e = 0 ∨ e = 1 ∨ e = 2 ∨ e = 3 := by omega
      · exact ⟨body 0, ctrl 0, rfl, hb 0 (by omega)⟩
      · exact ⟨body 1, ctrl 1, rfl, hb 1 (by omega)⟩
      · exact ⟨body 2, ctrl 2, rfl, hb 2 (by omega)⟩
      · exact ⟨body 3, ctrl 3, rfl, hb 3 (by omega)⟩

/-- The outline of a plane cell in space. -/
theorem outline_space {m : Mesh ℝ} (h : ValidMesh m) (h3 : m.ndim = 3) {cell : Cell} (hc : cell ∈ m.cells) (hk : cell.kind.ndim = 2) {ek : GeoKind}
    (hek : cell.kind.edgeKind = some ek) :
    ∃ cmds, outline m cell ek (drawn cell.kind ek 0) ((List.range (cell.kind.nedge - 2)).map fun j => drawn cell.kind ek (j + 1)) (drawn cell.kind ek (cell.kind.nedge - 1)) = .ok cmds ∧
      IsPolyline cmds (position m (cell.points.getD (edgeNode cell.kind 0 1) 0) ::
        (List.range cell.kind.nedge).flatMap fun e => (edgeLine m cell ek e).reverse.tail) := by
  have h1 := edgeKind_ndim hek
  have hlt : ∀ e < cell.kind.nedge, ∀ n ∈ drawn cell.kind ek e, n < cell.points.length := by
    intro e he n hn
    rw [h.nnode cell hc]
    exact drawn_lt hek he n hn
  have hadd : ∀ e < cell.kind.nedge, ∀ start stop, addNodes m cell ek (drawn cell.kind ek e) start stop =
      .ok (lineStart start (position m (cell.points.getD (edgeNode cell.kind e 1) 0)) ++ ((edgeLine m cell ek e).reverse.tail.map lineTo3) ++ lineStop stop) := by
    intro e he start stop
    rw [addNodes_eq (hlt e he), line_any h h3 h1 (by rw [← drawn_length h1 (k := cell.kind) e]; simp [pts]) (pts_inRange h hc (hlt e he)), drawn_first h1]
    congr 3
    clear hlt hek
    cases ek <;> first | exact absurd h1 (by decide) | rfl
  have hl3 : lineTo3 = fun p : ℝ × ℝ × ℝ => .lineAdd p.1 p.2.1 p.2.2 := rfl
  unfold outline
  rcases plane_nedge hk with hn | hn
  · rw [hn] at hadd ⊢
    have e1 : ((List.range (3 - 2)).map fun j => drawn cell.kind ek (j + 1)) = [drawn cell.kind ek 1] := rfl
    rw [e1, hadd 0 (by omega), Res.bind_ok, List.mapM_cons, List.mapM_nil, hadd 1 (by omega), Res.bind_ok, Res.pure_eq, Res.bind_ok, Res.pure_eq, Res.bind_ok, hadd 2 (by omega), Res.bind_ok]
    refine ⟨_, rfl, ?_⟩
    have e2 : List.range 3 = [0, 1, 2] := rfl
    rw [e2]
    unfold IsPolyline
    simp [lineStart, lineStop, hl3]
  · rw [hn] at hadd ⊢
    have e1 : ((List.range (4 - 2)).map fun j => drawn cell.kind ek (j + 1)) = [drawn cell.kind ek 1, drawn cell.kind ek 2] := rfl
    rw [e1, hadd 0 (by omega), Res.bind_ok, List.mapM_cons, List.mapM_cons, List.mapM_nil, hadd 1 (by omega), Res.bind_ok, hadd 2 (by omega), Res.bind_ok, Res.pure_eq, Res.bind_ok, Res.pure_eq, Res.bind_ok,
      Res.pure_eq, Res.bind_ok, hadd 3 (by omega), Res.bind_ok]
    refine ⟨_, rfl, ?_⟩
    have e2 : List.range 4 = [0, 1, 2, 3] := rfl
    rw [e2]
    unfold IsPolyline
    simp [lineStart, lineStop, hl3]

/-- The edges of a solid cell. -/
theorem drawCell_solid {m : Mesh ℝ} {c : Nat} {cell : Cell} (hc : m.cells[c]? = some cell) (hk : cell.kind.ndim = 3) {ek : GeoKind} (he : cell.kind.edgeKind = some ek) :
    drawCell m c = wireframe m cell ek ek.nnode := by
  have hlt := (List.getElem?_eq_some_iff.1 hc).1
  unfold drawCell
  rw [if_neg (by omega), Res.idx_eq_ok.2 hc, Res.bind_ok]
  generalize hq : cell.kind = q at *
  cases q <;> first | exact absurd hk (by decide) | skip
  all_goals
    cases he
    rfl

theorem drawCell_lin {m : Mesh ℝ} {c : Nat} {cell : Cell} (hc : m.cells[c]? = some cell) (hk : cell.kind.ndim = 1) :
    drawCell m c = addCurve m cell.kind cell.points true true := by
  have hlt := (List.getElem?_eq_some_iff.1 hc).1
  unfold drawCell
  rw [if_neg (by omega), Res.idx_eq_ok.2 hc, Res.bind_ok]
  generalize hq : cell.kind = q at *
  cases q <;> first | exact absurd hk (by decide) | skip
  all_goals rfl

theorem wireframe_space {m : Mesh ℝ} (h : ValidMesh m) (h3 : m.ndim = 3) {cell : Cell} (hc : cell ∈ m.cells) {ek : GeoKind} (hek : cell.kind.edgeKind = some ek) :
    ∃ parts : List (List Cmd), wireframe m cell ek ek.nnode = .ok parts.flatten ∧ parts.length = cell.kind.nedge ∧
      ∀ (e : Nat) (cmds : List Cmd), parts[e]? = some cmds → IsPolyline cmds (edgeLine m cell ek e) := by
  have h1 := edgeKind_ndim hek
  have hlt : ∀ e < cell.kind.nedge, ∀ n ∈ (List.range ek.nnode).map (edgeNode cell.kind e), n < cell.points.length := by
    intro e he n hn
    rw [h.nnode cell hc]
    obtain ⟨j, hj, rfl⟩ := List.mem_map.1 hn
    exact Shapes.edgeNode_lt cell.kind e he j (by rw [← (edgeKind_nnode _ ek hek).1]; exact List.mem_range.1 hj)
  have hadd : ∀ e < cell.kind.nedge, addNodes m cell ek ((List.range ek.nnode).map (edgeNode cell.kind e)) true true =
      .ok (.lineBegin :: ((edgeLine m cell ek e).map lineTo3 ++ [.lineEnd])) := by
    intro e he
    rw [addNodes_eq (hlt e he), line_any h h3 h1 (by simp [pts]) (pts_inRange h hc (hlt e he))]
    congr 1
    clear hlt hek
    cases ek <;> first | exact absurd h1 (by decide) | rfl
  unfold wireframe
  rw [Res.mapM_eq_ok_of _ (fun e => .lineBegin :: ((edgeLine m cell ek e).map lineTo3 ++ [.lineEnd])) _ (fun e he => hadd e (List.mem_range.1 he)), Res.bind_ok]
  refine ⟨_, rfl, by simp, ?_⟩
  intro e cmds he
  rw [List.getElem?_map] at he
  obtain ⟨e', h4, rfl⟩ := Option.map_eq_some_iff.1 he
  rw [List.getElem?_eq_some_iff] at h4
  obtain ⟨h5, rfl⟩ := h4
  rw [List.getElem_range]
  rfl

end Gemlab.Draw
