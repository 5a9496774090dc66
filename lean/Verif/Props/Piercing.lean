import Verif.Proofs.Piercing
import Verif.Props.Divergence2
import Verif.Props.Winding
import Mathlib.Algebra.Polynomial.Roots
import Mathlib.Topology.Instances.Real.Lemmas

/-!
# C87: the boundary of a mesh of tetrahedra encloses exactly its cells
-/
namespace Gemlab.Mesh
open Gemlab.Shapes Gemlab.Piercing Gemlab.Props.Features
noncomputable section
open Classical

/-- Position of a point of a mesh in the space. -/
def spacePoint (m : Mesh ℝ) (p : Nat) : Space := ((coordsOf m p).getD 0 0, (coordsOf m p).getD 1 0, (coordsOf m p).getD 2 0)

/-- Position of the node `i` of a cell. -/
def nodeAt (m : Mesh ℝ) (cell : Cell) (i : Nat) : Space := spacePoint m (cell.points.getD i 0)

/-- How often (leaving minus entering) the ray from `p` in the direction `d` passes the extracted boundary faces (triangles). -/
def boundaryPiercing (m : Mesh ℝ) (F : Features) (p d : Space) : ℤ :=
  (F.faces.map fun f => piercing p d (spacePoint m (f.2.points.getD 0 0)) (spacePoint m (f.2.points.getD 1 0)) (spacePoint m (f.2.points.getD 2 0))).sum

/-- The tetrahedron is not flat and its nodes are in the right order. -/
def PositiveCell (m : Mesh ℝ) (cell : Cell) : Prop := Positive (nodeAt m cell 0) (nodeAt m cell 1) (nodeAt m cell 2) (nodeAt m cell 3)

/-- `p` is inside the tetrahedron. -/
def InsideCell (m : Mesh ℝ) (p : Space) (cell : Cell) : Prop := InTetrahedron p (nodeAt m cell 0) (nodeAt m cell 1) (nodeAt m cell 2) (nodeAt m cell 3)

/-- `p` is on one of the four faces of the tetrahedron. -/
def OnFaceOf (m : Mesh ℝ) (p : Space) (cell : Cell) : Prop :=
  ∃ i j k, i < j ∧ j < k ∧ k < 4 ∧ OnTriangle p (nodeAt m cell i) (nodeAt m cell j) (nodeAt m cell k)

theorem onTriangle_perm {p a b c : Space} (h : OnTriangle p a c b) : OnTriangle p a b c := by
  obtain ⟨α, β, γ, h1, h2, h3, h⟩ := h
  obtain ⟨e1, e2, e3, e4⟩ := mean3 h
  exact ⟨α, γ, β, h1, h3, h2, mean3' (by linarith) (by linarith) (by linarith) (by linarith)⟩

/-- What the local face `f` of a tetrahedron contributes. -/
def facePiercing (m : Mesh ℝ) (p d : Space) (cell : Cell) (f : Nat) : ℤ :=
  piercing p d (nodeAt m cell (faceNode cell.kind f 0)) (nodeAt m cell (faceNode cell.kind f 1)) (nodeAt m cell (faceNode cell.kind f 2))

theorem cell_piercing {m : Mesh ℝ} {cell : Cell} (hk : cell.kind = .tet4) (h : PositiveCell m cell) {p d : Space}
    (hd : ∀ i j, i < j → j < 4 → PassesBy p d (nodeAt m cell i) (nodeAt m cell j)) (hp : ¬ OnFaceOf m p cell) :
    ∑ f ∈ Finset.range cell.kind.nface, facePiercing m p d cell f = if InsideCell m p cell then 1 else 0 := by
  have hn : cell.kind.nface = 4 := by rw [hk]; rfl
  have key := pierce_tetrahedron h (hd 0 1 (by omega) (by omega)) (hd 0 2 (by omega) (by omega)) (hd 0 3 (by omega) (by omega))
    (hd 1 2 (by omega) (by omega)) (hd 1 3 (by omega) (by omega)) (hd 2 3 (by omega) (by omega)) (by
      rintro (h | h | h | h)
      · exact hp ⟨1, 2, 3, by omega, by omega, by omega, h⟩
      · exact hp ⟨0, 2, 3, by omega, by omega, by omega, onTriangle_perm h⟩
      · exact hp ⟨0, 1, 3, by omega, by omega, by omega, h⟩
      · exact hp ⟨0, 1, 2, by omega, by omega, by omega, onTriangle_perm h⟩)
  unfold InsideCell
  rw [← key, hn, Finset.sum_range_succ, Finset.sum_range_succ, Finset.sum_range_succ, Finset.sum_range_succ, Finset.sum_range_zero]
  unfold facePiercing
  rw [hk]
  have t1 : (faceNode .tet4 0 0, faceNode .tet4 0 1, faceNode .tet4 0 2) = (0, 3, 2) := by decide
  have t2 : (faceNode .tet4 1 0, faceNode .tet4 1 1, faceNode .tet4 1 2) = (0, 1, 3) := by decide
  have t3 : (faceNode .tet4 2 0, faceNode .tet4 2 1, faceNode .tet4 2 2) = (0, 2, 1) := by decide
  have t4 : (faceNode .tet4 3 0, faceNode .tet4 3 1, faceNode .tet4 3 2) = (1, 2, 3) := by decide
  simp only [Prod.mk.injEq] at t1 t2 t3 t4
  rw [t1.1, t1.2.1, t1.2.2, t2.1, t2.2.1, t2.2.2, t3.1, t3.2.1, t3.2.2, t4.1, t4.2.1, t4.2.2]
  ring

theorem rim_tri3 (a b c : Nat) : rim .tri3 [a, b, c] = [(b, a), (c, b), (a, c)] := by rfl

/-- Triangles with the same sides in opposite directions contribute opposite numbers. -/
theorem piercing_opposite (p d : Space) (X : Nat → Space) {a b c a' b' c' : Nat} (h1 : a ≠ b) (h2 : b ≠ c) (h3 : a ≠ c)
    (h : [(b, a), (c, b), (a, c)].Perm ([(b', a'), (c', b'), (a', c')].map Prod.swap)) :
    piercing p d (X a) (X b) (X c) + piercing p d (X a') (X b') (X c') = 0 := by
  have m1 := h.mem_iff (a := (b, a)) |>.1 (by simp)
  have m2 := h.mem_iff (a := (c, b)) |>.1 (by simp)
  have m3 := h.mem_iff (a := (a, c)) |>.1 (by simp)
  simp only [List.map_cons, List.map_nil, Prod.swap_prod_mk, List.mem_cons, Prod.mk.injEq, List.not_mem_nil, or_false] at m1 m2 m3
  rcases m1 with ⟨rfl, rfl⟩ | ⟨rfl, rfl⟩ | ⟨rfl, rfl⟩ <;> rcases m2 with ⟨q1, q2⟩ | ⟨q1, q2⟩ | ⟨q1, q2⟩ <;>
    first
      | exact absurd q1 (by tauto)
      | exact absurd q2 (by tauto)
      | exact absurd q1.symm (by tauto)
      | exact absurd q2.symm (by tauto)
      | skip
  · rw [← q1, piercing_turn p d (X c) (X b) (X a), piercing_turn p d (X a) (X c) (X b), piercing_reverse]; ring
  · rw [← q1, piercing_turn p d (X a) (X c) (X b), piercing_reverse]; ring
  · rw [← q1, piercing_reverse]; ring

/-- **C87.** In a mesh of tetrahedra that fit together, the ray from a point leaves the extracted boundary as many times more than it enters it as
there are cells that contain the point — for every direction in which the ray passes by the edges, and every point that is not on a face. -/
theorem C87_enclosed {m : Mesh ℝ} {x : Extracted ℝ} {F : Features} (hF : IsNew m false x F) (h : ValidMesh m) (h3 : m.ndim = 3) (ho : OrientedFaces m)
    (hk : ∀ cell ∈ m.cells, cell.kind.ndim = 3 → cell.kind = .tet4) (hc : ∀ cell ∈ m.cells, cell.kind.ndim = 3 → PositiveCell m cell) (p d : Space)
    (hd : ∀ cell ∈ m.cells, cell.kind.ndim = 3 → ∀ i j, i < j → j < 4 → PassesBy p d (nodeAt m cell i) (nodeAt m cell j))
    (hp : ∀ cell ∈ m.cells, cell.kind.ndim = 3 → ¬ OnFaceOf m p cell) :
    boundaryPiercing m F p d = m.cells.countP fun cell => cell.kind.ndim = 3 ∧ InsideCell m p cell := by
  obtain ⟨h2, _⟩ | ⟨_, hx⟩ := hF.extracted
  · omega
  obtain ⟨hn, hb⟩ := boundary_face_keys hF h3
  let w : (Σ _ : Nat, Nat) → ℤ := fun y => match m.cells[y.1]? with
    | none => 0
    | some cell => facePiercing m p d cell y.2
  have hw : ∀ {c : Nat} {cell : Cell} (e : Nat), m.cells[c]? = some cell → w ⟨c, e⟩ = facePiercing m p d cell e := by
    intro c cell e hcell
    simp only [w, hcell]
  -- the nodes of a face are different
  have hne : ∀ {c : Nat} {cell : Cell} (_ : m.cells[c]? = some cell) (_ : cell.kind.ndim = 3) (i j : Nat), i < 4 → j < 4 → i ≠ j →
      cell.points.getD i 0 ≠ cell.points.getD j 0 := by
    intro c cell hcell hk3 i j hi hj hij heq
    have key : ∀ i j, i < j → j < 4 → cell.points.getD i 0 = cell.points.getD j 0 → False := by
      intro i j h1 h2 heq
      have := hd cell (List.mem_of_getElem? hcell) hk3 i j h1 h2
      unfold PassesBy nodeAt at this
      rw [heq] at this
      apply this
      simp only [det3]; ring
    rcases lt_or_gt_of_ne hij with hh | hh
    · exact key i j hh hj heq
    · exact key j i hh hi heq.symm
  have hrim : ∀ {cell : Cell} (f : Nat), cell.kind = .tet4 → faceRim cell f =
      [(cell.points.getD (faceNode .tet4 f 1) 0, cell.points.getD (faceNode .tet4 f 0) 0),
        (cell.points.getD (faceNode .tet4 f 2) 0, cell.points.getD (faceNode .tet4 f 1) 0),
        (cell.points.getD (faceNode .tet4 f 0) 0, cell.points.getD (faceNode .tet4 f 2) 0)] := by
    intro cell f hk4
    unfold faceRim
    rw [hk4]
    exact rim_tri3 _ _ _
  have hfn : ∀ f, f < 4 → (faceNode .tet4 f 0 < 4 ∧ faceNode .tet4 f 1 < 4 ∧ faceNode .tet4 f 2 < 4) ∧
      faceNode .tet4 f 0 ≠ faceNode .tet4 f 1 ∧ faceNode .tet4 f 1 ≠ faceNode .tet4 f 2 ∧ faceNode .tet4 f 0 ≠ faceNode .tet4 f 2 := by decide
  have key := faces_total h w ho.two (by
    intro key c f c' f' k1 k2 k3
    obtain ⟨cell, _, _, _, _, g1, g2, g3, -⟩ := id k1
    obtain ⟨cell', _, _, _, _, g1', g2', g3', -⟩ := id k2
    have e := hk cell (List.mem_of_getElem? g1) g2
    have e' := hk cell' (List.mem_of_getElem? g1') g2'
    have hop := ho.opposite key c f c' f' k1 k2 k3 cell cell' g1 g1'
    rw [hrim f e, hrim f' e'] at hop
    rw [e] at g3
    obtain ⟨⟨n0, n1, n2⟩, d1, d2, d3⟩ := hfn f g3
    rw [hw f g1, hw f' g1']
    unfold facePiercing nodeAt
    rw [e, e']
    exact piercing_opposite p d (spacePoint m) (hne g1 g2 _ _ n0 n1 d1) (hne g1 g2 _ _ n1 n2 d2) (hne g1 g2 _ _ n0 n2 d3) hop) F.faces hn hb
    (fun f => piercing p d (spacePoint m (f.2.points.getD 0 0)) (spacePoint m (f.2.points.getD 1 0)) (spacePoint m (f.2.points.getD 2 0))) (by
    rintro ⟨key, f⟩ he c0 k0 hck
    obtain ⟨c', e', hone, huniq⟩ := (hb key).1 (List.mem_map_of_mem he)
    obtain ⟨c'', e'', hfirst, ⟨cell', hc', hek, hlen, hpts⟩, -⟩ := hx.data key f (by rw [← hF.faces]; exact HMap.get_of_mem hn he)
    obtain ⟨rfl, rfl⟩ := huniq _ _ hck
    obtain ⟨rfl, rfl⟩ := huniq _ _ hfirst.1
    obtain ⟨cell, _, _, _, _, g1, g2, g3, -⟩ := hfirst.1
    rw [hc', Option.some.injEq] at g1
    subst g1
    have e := hk cell' (List.mem_of_getElem? hc') g2
    rw [e] at hek
    have hn3 : f.kind.nnode = 3 := by
      have : some GeoKind.tri3 = some f.kind := hek
      injection this with this
      rw [← this]; rfl
    rw [hw _ hc']
    show piercing p d (spacePoint m (f.points.getD 0 0)) (spacePoint m (f.points.getD 1 0)) (spacePoint m (f.points.getD 2 0)) = _
    unfold facePiercing nodeAt
    simp only [List.getD_eq_getElem?_getD]
    rw [hpts 0 (by omega), hpts 1 (by omega), hpts 2 (by omega)])
  unfold boundaryPiercing
  refine Eq.trans key ?_
  unfold allFaces
  rw [Finset.sum_sigma]
  have hsum : ∀ l : List Cell, ∀ g : Nat → ℤ,
      (∀ (c : Nat) cell, l[c]? = some cell → g c = if cell.kind.ndim = 3 ∧ InsideCell m p cell then 1 else 0) →
      ∑ c ∈ Finset.range l.length, g c = l.countP fun cell => cell.kind.ndim = 3 ∧ InsideCell m p cell := by
    intro l
    induction l with
    | nil => intros; simp
    | cons a l ih =>
      intro g hg
      rw [List.length_cons, Finset.sum_range_succ', ih (fun c => g (c + 1)) (fun c cell hh => hg (c + 1) cell (by simpa using hh)),
        hg 0 a rfl, List.countP_cons]
      by_cases hq : a.kind.ndim = 3 ∧ InsideCell m p a
      · simp [hq]
      · simp [hq]
  refine hsum m.cells _ ?_
  intro c cell hcell
  rw [hcell, Option.map_some, Option.getD_some]
  have hmem := List.mem_of_getElem? hcell
  by_cases hd3 : cell.kind.ndim = 3
  · rw [if_pos hd3, Finset.sum_congr rfl (fun e _ => hw e hcell), cell_piercing (hk cell hmem hd3) (hc cell hmem hd3) (hd cell hmem hd3) (hp cell hmem hd3)]
    simp [hd3]
  · rw [if_neg hd3]; simp [hd3]

end
end Gemlab.Mesh
