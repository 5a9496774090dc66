import Verif.Props.Normals
import Verif.Props.FeaturesQueries

/-!
# C63 (meshes): the normals of the stored edges (2D) and faces (3D) point out of the cell
-/
namespace Gemlab.Props.Features
noncomputable section
open Gemlab Gemlab.Mesh Gemlab.Shapes Gemlab.Props.Mesh Gemlab.Spec Gemlab.Scratchpad

variable {m : Mesh ℝ} {extractAll : Bool} {x : Extracted ℝ} {F : Features}

/-- Coordinate `i` of node `n` of a cell. -/
def nodeX (m : Mesh ℝ) (c : Cell) (n i : Nat) : ℝ := (coordsOf m (c.points.getD n 0)).getD i 0

/-- A new pad filled with the coordinates of listed points. -/
theorem pad_ready (h : ValidMesh m) (hd : m.ndim = 2 ∨ m.ndim = 3) (k : GeoKind) (hk : k.ndim ≤ m.ndim) (points : List Nat)
    (hl : points.length = k.nnode) (hr : ∀ p ∈ points, p < m.points.length) :
    ∃ pad pad', Scratchpad.new m.ndim k = .ok pad ∧ setPad m pad points = .ok pad' ∧ HoldsCell m k points pad' := by
  have e1 : ∃ pad, Scratchpad.new m.ndim k = .ok pad ∧ pad.spaceNdim = m.ndim ∧ pad.kind = k := by
    unfold Scratchpad.new
    rw [if_neg (by omega), if_neg (by omega)]
    exact ⟨_, rfl, rfl, rfl⟩
  obtain ⟨pad, e1, e2, e3⟩ := e1
  obtain ⟨pad', h1, h2⟩ := C53_set_pad m pad points h.coords e2 (by omega) (by rw [e3]; exact hl) hr
  exact ⟨pad, pad', e1, h1, e3 ▸ h2⟩

/-- **C63.** A plane mesh: the normal vector computed with the points of a stored edge is a unit vector that points out of the first cell
that has this edge (for the edges at the boundary: the only cell), wherever the determinant of the Jacobian of this cell is positive. -/
theorem C63_mesh_edges (hF : IsNew m extractAll x F) (h : ValidMesh m) (h2 : m.ndim = 2) (key : EdgeKey) (f : Feature)
    (hf : F.edges.get key = some f) :
    ∃ c e cell, m.cells[c]? = some cell ∧ IsFirst (HasEdge m key) c e ∧ (extractAll = false → ExactlyOne (HasEdge m key)) ∧
      ∀ ksi : Nat → ℝ, 0 < detN 2 (jac cell.kind (nodeX m cell) (edgePoint cell.kind e (ksi 0))) →
        ∃ pad pad' mag un pad'', Scratchpad.new m.ndim f.kind = .ok pad ∧ setPad m pad f.points = .ok pad' ∧
          calcNormalVector pad' m.ndim ksi = .ok (mag, un, pad'') ∧ 0 < mag ∧ dotN 2 un un = 1 ∧
          PointsOutward 2 cell.kind (nodeX m cell) (edgePoint cell.kind e (ksi 0)) un := by
  rw [hF.edges] at hf
  obtain ⟨_, hx⟩ | ⟨h3, _⟩ := hF.extracted
  swap
  · omega
  obtain ⟨c, e, hfirst, ⟨cell, hcell, hek, hlen, hpts⟩, -⟩ := hx.data key f hf
  obtain ⟨cell', a, b, hc', hk2, he, -⟩ := hfirst.1
  rw [hcell, Option.some.injEq] at hc'
  subst hc'
  have hmem := List.mem_of_getElem? hcell
  refine ⟨c, e, cell, hcell, hfirst, fun hall => ?_, fun ksi hdet => ?_⟩
  · obtain ⟨-, h1 | h1⟩ := (hx.accepted key).1 (by rw [hf]; rfl)
    · rw [hall] at h1; cases h1
    · exact h1
  · have hn1 : f.kind.ndim = 1 := by
      have := (edgeKind_nnode cell.kind _ hek).2
      generalize f.kind = q at this
      cases q <;> first | rfl | exact absurd this (by decide)
    have hnn := (edgeKind_nnode cell.kind _ hek).1
    have hin : ∀ j < f.kind.nnode, edgeNode cell.kind e j < cell.points.length := by
      intro j hj
      rw [h.nnode _ hmem]
      exact Shapes.edgeNode_lt _ e he j (hnn ▸ hj)
    have hr : ∀ p ∈ f.points, p < m.points.length := by
      intro p hp
      obtain ⟨j, hj, rfl⟩ := List.mem_iff_getElem.1 hp
      have h1 := hpts j (hlen ▸ hj)
      rw [List.getElem?_eq_getElem hj, List.getElem?_eq_getElem (hin j (hlen ▸ hj)), Option.some.injEq] at h1
      rw [h1]
      exact h.inRange _ hmem _ (List.getElem_mem _)
    obtain ⟨pad, pad', p1, p2, p3⟩ := pad_ready h (by omega) f.kind (by omega) f.points hlen hr
    obtain ⟨⟨mag, un, pad''⟩, hN⟩ := (C32_errors pad' (by rw [p3.space]; omega) m.ndim ksi).1 ⟨by rw [p3.kind, p3.space]; omega, p3.space.symm⟩
    obtain ⟨o1, o2, -, o4⟩ := edge_outward (X := nodeX m cell) hk2 he (by rw [p3.space]; exact h2) (by rw [p3.kind]; exact hek) (fun j hj i hi => by
      rw [p3.kind] at hj
      rw [p3.coords j i hj (by omega)]
      unfold nodeX
      rw [List.getD_eq_getElem?_getD (l := f.points), hpts j hj, ← List.getD_eq_getElem?_getD]) hdet hN
    exact ⟨pad, pad', mag, un, pad'', p1, p2, hN, o1, o2, o4⟩

/-- **C63.** A mesh in space: the normal vector computed with the points of a stored face is a unit vector that points out of the first
cell that has this face (for the faces at the boundary: the only cell), wherever the determinant of the Jacobian of this cell is
positive. -/
theorem C63_mesh_faces (hF : IsNew m extractAll x F) (h : ValidMesh m) (h3 : m.ndim = 3) (key : FaceKey) (f : Feature)
    (hf : F.faces.get key = some f) :
    ∃ c k cell, m.cells[c]? = some cell ∧ IsFirst (HasFace m key) c k ∧ (extractAll = false → ExactlyOne (HasFace m key)) ∧
      ∀ ksi : Nat → ℝ, 0 < detN 3 (jac cell.kind (nodeX m cell) (facePoint cell.kind k ksi)) →
        ∃ pad pad' mag un pad'', Scratchpad.new m.ndim f.kind = .ok pad ∧ setPad m pad f.points = .ok pad' ∧
          calcNormalVector pad' m.ndim ksi = .ok (mag, un, pad'') ∧ 0 < mag ∧ dotN 3 un un = 1 ∧
          PointsOutward 3 cell.kind (nodeX m cell) (facePoint cell.kind k ksi) un := by
  rw [hF.faces] at hf
  obtain ⟨h2, _⟩ | ⟨_, hx⟩ := hF.extracted
  · omega
  obtain ⟨c, k, hfirst, ⟨cell, hcell, hfk, hlen, hpts⟩, -⟩ := hx.data key f hf
  obtain ⟨cell', _, _, _, _, hc', hk3, hk, -⟩ := hfirst.1
  rw [hcell, Option.some.injEq] at hc'
  subst hc'
  have hmem := List.mem_of_getElem? hcell
  refine ⟨c, k, cell, hcell, hfirst, fun hall => ?_, fun ksi hdet => ?_⟩
  · obtain ⟨-, h1 | h1⟩ := (hx.accepted key).1 (by rw [hf]; rfl)
    · rw [hall] at h1; cases h1
    · exact h1
  · have hn2 : f.kind.ndim = 2 := by
      obtain ⟨-, h⟩ | ⟨-, h⟩ := faceKind_class cell.kind _ hfk <;> (generalize f.kind = q at h; cases q <;> first | rfl | exact absurd h (by decide))
    have hnn := faceKind_nnode cell.kind _ hfk
    have hin : ∀ j < f.kind.nnode, faceNode cell.kind k j < cell.points.length := by
      intro j hj
      rw [h.nnode _ hmem]
      exact Shapes.faceNode_lt _ k hk j (hnn ▸ hj)
    have hr : ∀ p ∈ f.points, p < m.points.length := by
      intro p hp
      obtain ⟨j, hj, rfl⟩ := List.mem_iff_getElem.1 hp
      have h1 := hpts j (hlen ▸ hj)
      rw [List.getElem?_eq_getElem hj, List.getElem?_eq_getElem (hin j (hlen ▸ hj)), Option.some.injEq] at h1
      rw [h1]
      exact h.inRange _ hmem _ (List.getElem_mem _)
    obtain ⟨pad, pad', p1, p2, p3⟩ := pad_ready h (by omega) f.kind (by omega) f.points hlen hr
    obtain ⟨⟨mag, un, pad''⟩, hN⟩ := (C32_errors pad' (by rw [p3.space]; omega) m.ndim ksi).1 ⟨by rw [p3.kind, p3.space]; omega, p3.space.symm⟩
    obtain ⟨o1, o2, -, -, o4⟩ := face_outward (X := nodeX m cell) hk3 hk (by rw [p3.space]; exact h3) (by rw [p3.kind]; exact hfk) (fun j hj i hi => by
      rw [p3.kind] at hj
      rw [p3.coords j i hj (by omega)]
      unfold nodeX
      rw [List.getD_eq_getElem?_getD (l := f.points), hpts j hj, ← List.getD_eq_getElem?_getD]) hdet hN
    exact ⟨pad, pad', mag, un, pad'', p1, p2, hN, o1, o2, o4⟩

/-! ## Examples -/

/-- The reference cell of any kind as an element: its Jacobian is the identity, so the determinant is 1 everywhere. -/
theorem jac_reference (k : GeoKind) (ξ : Nat → ℝ) : detN k.ndim (jac k (refCoord k) ξ) = 1 := by
  have e : ∀ i < k.ndim, ∀ j < k.ndim, jac k (refCoord k) ξ i j = if i = j then 1 else 0 := by
    intro i hi j hj
    refine Props.Shapes.C28_jacobian_affine k (refCoord k) (fun _ => 0) (fun i j => if i = j then 1 else 0) ?_ ξ i j hj
    intro n _ i
    rw [zero_add]
    by_cases hi : i < k.ndim
    · rw [Finset.sum_eq_single i]
      · simp
      · intro b _ hb; simp [Ne.symm hb]
      · intro hn; exact absurd (Finset.mem_range.2 hi) hn
    · rw [Finset.sum_eq_zero]
      · unfold refCoord; rw [Shapes.refCoordQ_ge k n i (by omega)]; simp
      · intro b hb
        rw [Finset.mem_range] at hb
        simp [show i ≠ b by omega]
  unfold detN
  rw [← Matrix.det_one (n := Fin k.ndim)]
  congr 1
  ext i j
  rw [Matrix.of_apply, e i i.2 j j.2, Matrix.one_apply]
  simp [Fin.ext_iff]

/-- The hypotheses are met by the reference cell of every plane kind: its edge pads exist and have outward normals. -/
theorem C63_example_2d (k ek : GeoKind) (hk : k.ndim = 2) (hek : k.edgeKind = some ek) (e : Nat) (he : e < k.nedge) (ksi : Nat → ℝ) :
    ∃ pe mag un pe', pe.kind = ek ∧ (∀ j i, pe.X j i = refCoord k (edgeNode k e j) i) ∧ calcNormalVector pe 2 ksi = .ok (mag, un, pe') ∧
      PointsOutward 2 k (refCoord k) (edgePoint k e (ksi 0)) un := by
  have hn1 : ek.ndim = 1 := by
    have := (edgeKind_nnode k _ hek).2
    cases ek <;> first | rfl | exact absurd this (by decide)
  let pe : Scratchpad := { kind := ek, spaceNdim := 2, interp := fun _ => 0, deriv := fun _ _ => 0, jacobian := fun _ _ => 0, invJacobian := fun _ _ => 0, gradient := fun _ _ => 0, xxt := fun i j => refCoord k (edgeNode k e j) i, okXxt := true }
  obtain ⟨⟨mag, un, pe'⟩, hN⟩ := (C32_errors pe (Or.inl rfl) 2 ksi).1 ⟨by show ek.ndim + 1 = 2; omega, rfl⟩
  have hd := jac_reference k (edgePoint k e (ksi 0))
  rw [hk] at hd
  exact ⟨pe, mag, un, pe', rfl, fun _ _ => rfl, hN, (edge_outward hk he rfl hek (fun _ _ _ _ => rfl) (by rw [hd]; norm_num) hN).2.2.2⟩

/-- The same for the faces of the solids. -/
theorem C63_example_3d (k fk : GeoKind) (hk : k.ndim = 3) (hfk : k.faceKind = some fk) (f : Nat) (hf : f < k.nface) (ksi : Nat → ℝ) :
    ∃ pf mag un pf', pf.kind = fk ∧ (∀ j i, pf.X j i = refCoord k (faceNode k f j) i) ∧ calcNormalVector pf 3 ksi = .ok (mag, un, pf') ∧
      PointsOutward 3 k (refCoord k) (facePoint k f ksi) un := by
  have hn2 : fk.ndim = 2 := by
    obtain ⟨-, h⟩ | ⟨-, h⟩ := faceKind_class k _ hfk <;> (cases fk <;> first | rfl | exact absurd h (by decide))
  let pf : Scratchpad := { kind := fk, spaceNdim := 3, interp := fun _ => 0, deriv := fun _ _ => 0, jacobian := fun _ _ => 0, invJacobian := fun _ _ => 0, gradient := fun _ _ => 0, xxt := fun i j => refCoord k (faceNode k f j) i, okXxt := true }
  obtain ⟨⟨mag, un, pf'⟩, hN⟩ := (C32_errors pf (Or.inr rfl) 3 ksi).1 ⟨by show fk.ndim + 1 = 3; omega, rfl⟩
  have hd := jac_reference k (facePoint k f ksi)
  rw [hk] at hd
  exact ⟨pf, mag, un, pf', rfl, fun _ _ => rfl, hN, (face_outward hk hf rfl hfk (fun _ _ _ _ => rfl) (by rw [hd]; norm_num) hN).2.2.2.2⟩

/-- The right side of the unit square of the example: the normal points out of the cell. -/
theorem C63_example_mesh (o : Orders) (ho : o.Valid) : ∃ F f, Features.new o square true = .ok F ∧ F.edges.get (1, 2) = some f ∧
    ∃ pad pad' mag un pad'', Scratchpad.new 2 f.kind = .ok pad ∧ setPad square pad f.points = .ok pad' ∧
      calcNormalVector pad' 2 (fun _ => 0) = .ok (mag, un, pad'') ∧ 0 < mag ∧ dotN 2 un un = 1 ∧
      ∃ cell e, cell ∈ square.cells ∧ PointsOutward 2 cell.kind (nodeX square cell) (edgePoint cell.kind e 0) un := by
  obtain ⟨x, F, h1, h2, ⟨f, hf⟩, _⟩ := exists_features o ho
  obtain ⟨c, e, cell, hcell, -, -, h4⟩ := C63_mesh_edges h2 square_valid rfl (1, 2) f hf
  have hm := List.mem_of_getElem? hcell
  have hc : cell = ⟨0, 1, .qua4, [0, 1, 2, 3]⟩ := by simpa [square] using hm
  obtain ⟨pad, pad', mag, un, pad'', p1, p2, p3, p4, p5, p6⟩ := h4 (fun _ => 0) (by
    have e : ∀ i < 2, ∀ j < 2, jac .qua4 (nodeX square ⟨0, 1, .qua4, [0, 1, 2, 3]⟩) (edgePoint .qua4 e 0) i j = if i = j then 1/2 else 0 := by
      intro i hi j hj
      refine Props.Shapes.C28_jacobian_affine .qua4 (nodeX square ⟨0, 1, .qua4, [0, 1, 2, 3]⟩) (fun i => if i < 2 then 1/2 else 0) (fun i j => if i = j then 1/2 else 0) ?_ _ i j hj
      intro n hn i
      have hn' : n < 4 := hn
      show _ = _ + ∑ j ∈ Finset.range 2, _
      rw [Finset.sum_range_succ, Finset.sum_range_one]
      match i with
      | 0 => interval_cases n <;> simp [nodeX, square, coordsOf, refCoord, refCoordQ, GeoKind.referenceCoords] <;> norm_num
      | 1 => interval_cases n <;> simp [nodeX, square, coordsOf, refCoord, refCoordQ, GeoKind.referenceCoords] <;> norm_num
      | i + 2 => interval_cases n <;> simp [nodeX, square, coordsOf]
    rw [hc, detN_two, e 0 (by decide) 0 (by decide), e 0 (by decide) 1 (by decide), e 1 (by decide) 0 (by decide), e 1 (by decide) 1 (by decide)]
    norm_num)
  exact ⟨F, f, h1, hf, pad, pad', mag, un, pad'', p1, p2, p3, p4, p5, cell, e, hm, p6⟩

end
end Gemlab.Props.Features
