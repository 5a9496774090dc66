import Verif.Props.Divergence3
import Verif.Props.Closed3
import Verif.Proofs.Recovery

/-!
# C74 (continued): the meshes of subdivided blocks are conforming, and examples
-/
namespace Gemlab.Mesh
open Gemlab Gemlab.Shapes Gemlab.Spec Gemlab.Scratchpad Gemlab.Props.Features Gemlab.Block
noncomputable section
variable {m : Mesh ℝ}

/-- Node `b` is at the image of node `a` under a map given over the rationals. -/
theorem atImage_cast {k : GeoKind} {A : (Nat → ℝ) → Nat → ℝ} {AQ : (Nat → ℚ) → Nat → ℚ} {a b : Nat} (hA : ∀ ξ : Nat → ℚ, ∀ i, A (fun j => (ξ j : ℝ)) i = (AQ ξ i : ℝ)) (h : AtImage k A a b) :
    ∀ i < k.ndim, refCoordQ k b i = AQ (refCoordQ k a) i := by
  intro i hi
  have := h i hi
  unfold refCoord at this
  rw [hA] at this
  exact_mod_cast this

/-- The mirror images over the rationals. -/
def mirrorsQ : GeoClass → List ((Nat → ℚ) → (Nat → ℚ))
  | .lin => [fun ξ => vec1 (-ξ 0)]
  | .tri => [fun ξ => vec2 (ξ 1) (ξ 0), fun ξ => vec2 (ξ 0) (1 - ξ 0 - ξ 1), fun ξ => vec2 (1 - ξ 0 - ξ 1) (ξ 1)]
  | .qua => [fun ξ => vec2 (-ξ 0) (ξ 1), fun ξ => vec2 (ξ 0) (-ξ 1), fun ξ => vec2 (ξ 1) (ξ 0), fun ξ => vec2 (-ξ 1) (-ξ 0)]
  | _ => []

theorem mirrors_cast (c : GeoClass) : ∀ AQ ∈ mirrorsQ c, ∃ A ∈ mirrors c, ∀ ξ : Nat → ℚ, ∀ i, A (fun j => (ξ j : ℝ)) i = (AQ ξ i : ℝ) := by
  have v1 : ∀ (a : ℚ) i, vec1 (a : ℝ) i = ((vec1 a i : ℚ) : ℝ) := by intro a i; unfold vec1; split <;> simp
  have v2 : ∀ (a b : ℚ) i, vec2 (a : ℝ) (b : ℝ) i = ((vec2 a b i : ℚ) : ℝ) := by intro a b i; unfold vec2; split <;> simp
  cases c <;> simp only [mirrorsQ, mirrors, List.mem_cons, List.not_mem_nil, or_false, forall_eq_or_imp, forall_eq, exists_eq_or_imp, exists_eq_left, false_implies, implies_true, and_true]
  · intro ξ i; rw [← v1]; push_cast; rfl
  · refine ⟨.inl ?_, .inr (.inl ?_), .inr (.inr ?_)⟩ <;> (intro ξ i; rw [← v2] <;> push_cast <;> rfl)
  · refine ⟨.inl ?_, .inr (.inl ?_), .inr (.inr (.inl ?_)), .inr (.inr (.inr ?_))⟩ <;> (intro ξ i; rw [← v2] <;> push_cast <;> rfl)

theorem seen_of_rational {k : GeoKind} {p q : Nat → Nat} {AQ : (Nat → ℚ) → Nat → ℚ} (hA : AQ ∈ mirrorsQ k.classOf)
    (h : ∀ a < k.nnode, ∀ b < k.nnode, (∀ i < k.ndim, refCoordQ k b i = AQ (refCoordQ k a) i) → q b = p a) : SeenFromBothSides k p q := by
  obtain ⟨A, h1, h2⟩ := mirrors_cast _ AQ hA
  exact ⟨A, h1, fun a ha b hb hab => h a ha b hb (atImage_cast h2 hab)⟩

/-- A plane mesh of triangles and quadrilaterals without nodes inside the edges is conforming if no edge is run through twice in the same direction. -/
theorem conforming_of_oriented (ho : OrientedEdges m) (hk : ∀ c ∈ m.cells, c.kind.ndim = 2 → c.kind.edgeKind = some .lin2) : ConformingEdges m := by
  refine ⟨fun key => ho.two key, ?_⟩
  intro key c e c' e' h1 h2 hne cell cell' hc hc'
  have hs := ho.opposite h1 h2 hne hc hc'
  obtain ⟨_, _, _, k1, k2, -⟩ := id h1
  rw [hc, Option.some.injEq] at k1; subst k1
  obtain ⟨_, _, _, k1', k2', -⟩ := id h2
  rw [hc', Option.some.injEq] at k1'; subst k1'
  refine ⟨.lin2, hk _ (List.mem_of_getElem? hc) k2, hk _ (List.mem_of_getElem? hc') k2', seen_of_rational (AQ := fun ξ => vec1 (-ξ 0)) (by simp [mirrorsQ, GeoKind.classOf]) ?_⟩
  unfold edgeEnds at hs
  simp only [Prod.swap, Prod.mk.injEq] at hs
  intro a ha b hb hab
  rw [nodeOf_eq hc, nodeOf_eq hc']
  have hd : ∀ a < 2, ∀ b < 2, (∀ i < 1, refCoordQ .lin2 b i = vec1 (-refCoordQ .lin2 a 0) i) → (a = 0 ∧ b = 1) ∨ (a = 1 ∧ b = 0) := by decide +kernel
  obtain ⟨rfl, rfl⟩ | ⟨rfl, rfl⟩ := hd a ha b hb hab
  · exact hs.1.symm
  · exact hs.2.symm

/-- **C29.** Continuity across the common edge of two cells of a conforming plane mesh: both cells interpolate the same values along the edge
(the first one at `η`, the second one at `-η`), whatever the values `u` at the points of the mesh. -/
theorem C29_mesh_edges (hc : ConformingEdges m) {key : EdgeKey} {c e c' e' : Nat} {cell cell' : Cell} (h1 : HasEdge m key c e) (h2 : HasEdge m key c' e') (hne : ¬ (c = c' ∧ e = e'))
    (hcell : m.cells[c]? = some cell) (hcell' : m.cells[c']? = some cell') (u : Nat → ℝ) (η : ℝ) :
    interpolate cell'.kind (fun n => u (cell'.points.getD n 0)) (edgePoint cell'.kind e' (-η)) = interpolate cell.kind (fun n => u (cell.points.getD n 0)) (edgePoint cell.kind e η) := by
  obtain ⟨k, k1, k2, A, hA, hs⟩ := hc.opposite key c e c' e' h1 h2 hne cell cell' hcell hcell'
  obtain ⟨_, _, _, q1, -, he, -⟩ := h1
  rw [hcell, Option.some.injEq] at q1; subst q1
  obtain ⟨_, _, _, q1, -, he', -⟩ := h2
  rw [hcell', Option.some.injEq] at q1; subst q1
  have hl : k.classOf = .lin := (edgeKind_nnode _ _ k1).2
  refine Props.Shapes.C29_edge_conforming cell.kind cell'.kind k k1 k2 e e' he he' _ _ ?_ η
  intro a b ha hb hab
  rw [hl] at hA
  simp only [mirrors, List.mem_cons, List.not_mem_nil, or_false] at hA
  subst hA
  have := hs a ha b hb (fun i hi => by
    have h1 : k.ndim = 1 := by clear hs k1 k2 ha hb hab; cases k <;> first | rfl | exact absurd hl (by decide)
    have : i = 0 := by omega
    subst this
    exact hab)
  dsimp only at this
  rw [nodeOf_eq hcell, nodeOf_eq hcell'] at this
  rw [this]

/-- **C29.** Continuity across the common face of two cells of a conforming mesh in space: there is a mirror image of the reference triangle or
square that gives the place of each point of the face seen from the other cell, and both cells interpolate the same values on the face. -/
theorem C29_mesh_faces (hc : ConformingFaces m) {key : FaceKey} {c f c' f' : Nat} {cell cell' : Cell} (h1 : HasFace m key c f) (h2 : HasFace m key c' f') (hne : ¬ (c = c' ∧ f = f'))
    (hcell : m.cells[c]? = some cell) (hcell' : m.cells[c']? = some cell') : ∃ k A, cell.kind.faceKind = some k ∧ A ∈ mirrors k.classOf ∧ ∀ (u : Nat → ℝ) (ξ : Nat → ℝ),
    interpolate cell'.kind (fun n => u (cell'.points.getD n 0)) (facePoint cell'.kind f' (A ξ)) = interpolate cell.kind (fun n => u (cell.points.getD n 0)) (facePoint cell.kind f ξ) := by
  obtain ⟨k, k1, k2, A, hA, hs⟩ := hc.opposite key c f c' f' h1 h2 hne cell cell' hcell hcell'
  obtain ⟨_, _, _, _, _, q1, -, he, -⟩ := h1
  rw [hcell, Option.some.injEq] at q1; subst q1
  obtain ⟨_, _, _, _, _, q1, -, he', -⟩ := h2
  rw [hcell', Option.some.injEq] at q1; subst q1
  refine ⟨k, A, k1, hA, fun u ξ => ?_⟩
  refine Props.Shapes.C29_face_conforming cell.kind cell'.kind k k1 k2 f f' he he' A (mirrors_sub _ A hA) _ _ ?_ ξ
  intro a b ha hb hab
  have := hs a ha b hb hab
  dsimp only at this
  rw [nodeOf_eq hcell, nodeOf_eq hcell'] at this
  rw [this]

/-! ## Blocks -/

variable {inv : MatInverse} {nrow ndim : Nat} {at_ : Nat → Nat → ℝ} {b : Block} {target : GeoKind} {M : Mesh ℝ}

theorem refCoordQ_abs (k : GeoKind) (n i : Nat) : -1 ≤ refCoordQ k n i ∧ refCoordQ k n i ≤ 1 := by
  have := Gemlab.Recov.refCoord_abs k n i
  unfold refCoord at this
  rw [abs_le] at this
  exact ⟨by exact_mod_cast this.1, by exact_mod_cast this.2⟩

/-- Nodes at the same place of the lattice are the same point. -/
theorem shared_of_lattice (h : Block.Reached inv nrow ndim at_ b) (hf : NotTooFine b) (ht : TargetOk b target) (hM : IsSubdivision b target M)
    {i j k m i' j' k' m' : Nat} (hg : InGrid b i j k) (hm : m < target.nnode) (hg' : InGrid b i' j' k') (hm' : m' < target.nnode)
    (he : ∀ a < ndim, lattice target i j k m a = lattice target i' j' k' m' a) : ptAt b M i j k m = ptAt b M i' j' k' m' := by
  obtain ⟨h1, h2⟩ := C55_shared h hf ht hM hg hm hg' hm'
  refine h1.2 (h2.2 fun a ha => ?_)
  have e := he a ha
  unfold lattice at e
  obtain ⟨r1, r2⟩ := refCoordQ_abs target m a
  obtain ⟨r3, r4⟩ := refCoordQ_abs target m' a
  generalize refCoordQ target m a = x at *
  generalize refCoordQ target m' a = y at *
  generalize pick i j k a = p at *
  generalize pick i' j' k' a = q at *
  rcases lt_trichotomy p q with hlt | rfl | hlt
  · have h3 : (p : ℚ) + 1 ≤ q := by exact_mod_cast hlt
    have h4 : (q : ℚ) ≤ p + 1 := by linarith
    have h5 : q ≤ p + 1 := by exact_mod_cast h4
    exact .inr (.inl ⟨by omega, by linarith, by linarith⟩)
  · exact .inl ⟨rfl, by linarith⟩
  · have h3 : (q : ℚ) + 1 ≤ p := by exact_mod_cast hlt
    have h4 : (p : ℚ) ≤ q + 1 := by linarith
    have h5 : p ≤ q + 1 := by exact_mod_cast h4
    exact .inr (.inr ⟨by omega, by linarith, by linarith⟩)

theorem qua_edge_place {k ek : GeoKind} (hk : k.classOf = .qua) (hek : k.edgeKind = some ek) : ∀ e < k.nedge, ∀ j < ek.nnode, ∀ a < 2,
    2 * refCoordQ k (edgeNode k e j) a = (1 - refCoordQ ek j 0) * refCoordQ k (edgeNode k e 0) a + (1 + refCoordQ ek j 0) * refCoordQ k (edgeNode k e 1) a := by
  cases k <;> first | exact absurd hk (by decide) | (simp only [GeoKind.edgeKind, reduceCtorEq, Option.some.injEq] at hek; subst hek; decide +kernel)

/-- **C74.** The mesh of a subdivided block in the plane is conforming. -/
theorem C74_block_2d (h : Block.Reached inv nrow 2 at_ b) (hf : NotTooFine b) (ht : TargetOk b target) (hM : IsSubdivision b target M) : ConformingEdges M := by
  have hd : b.ndim = 2 := h.wf.ndim_eq
  have hq : target.classOf = .qua := by
    unfold TargetOk at ht
    rw [if_pos hd] at ht
    exact ht
  have ho := C73_block_fits_2d h hf ht hM
  refine ⟨fun key => ho.two key, ?_⟩
  intro key c e c' e' h1 h2 hne cell cell' hc hc'
  have hs := ho.opposite h1 h2 hne hc hc'
  obtain ⟨_, _, _, k1, k2, he, -⟩ := id h1
  rw [hc, Option.some.injEq] at k1; subst k1
  obtain ⟨_, _, _, k1', k2', he', -⟩ := id h2
  rw [hc', Option.some.injEq] at k1'; subst k1'
  obtain ⟨i, j, k, hg, rfl, hk, hl, hp⟩ := block_cell hM hc
  obtain ⟨i', j', k', hg', rfl, hk', hl', hp'⟩ := block_cell hM hc'
  obtain ⟨ek, hek⟩ : ∃ ek, target.edgeKind = some ek := by
    generalize target = k at hq
    cases k <;> first | exact absurd hq (by decide) | exact ⟨_, rfl⟩
  have hen := (edgeKind_nnode _ _ hek)
  have hlin : ek.classOf = .lin ∧ ek.ndim = 1 := by
    have := hen.2
    cases ek <;> first | exact ⟨rfl, rfl⟩ | exact absurd this (by decide)
  unfold edgeEnds at hs
  rw [hk] at he hs
  rw [hk'] at he' hs
  simp only [Prod.swap, Prod.mk.injEq] at hs
  rw [hp, hp, hp', hp'] at hs
  rw [hk, hk']
  refine ⟨ek, hek, hek, seen_of_rational (AQ := fun ξ => vec1 (-ξ 0)) (by rw [hlin.1]; simp [mirrorsQ]) ?_⟩
  intro x hx y hy hxy
  rw [nodeOf_eq hc, nodeOf_eq hc', hp, hp']
  have hrc : refCoordQ ek y 0 = - refCoordQ ek x 0 := hxy 0 (by omega)
  have n0 := qua_edge_lt hq e he
  have n0' := qua_edge_lt hq e' he'
  refine shared_of_lattice h hf ht hM hg' (Shapes.edgeNode_lt target e' he' y (by rw [← hen.1]; exact hy)) hg (Shapes.edgeNode_lt target e he x (by rw [← hen.1]; exact hx)) ?_
  intro a ha
  have l0 := lattice_of_shared h hf ht hM hg (n0 0 (by omega)) hg' (n0' 1 (by omega)) hs.1 a ha
  have l1 := lattice_of_shared h hf ht hM hg (n0 1 (by omega)) hg' (n0' 0 (by omega)) hs.2 a ha
  have p0 := qua_edge_place hq hek e he x hx a ha
  have p1 := qua_edge_place hq hek e' he' y hy a ha
  rw [hrc] at p1
  unfold lattice at l0 l1 ⊢
  generalize refCoordQ ek x 0 = z at *
  linear_combination p1 / 2 - p0 / 2 - (1 - z) / 2 * l0 - (1 + z) / 2 * l1

/-- A check for the mirror image of number `n` for the face `f` and its opposite. -/
def faceMirrorOk (k fk : GeoKind) (f n : Nat) : Bool :=
  (List.range fk.nnode).all fun x => (List.range fk.nnode).all fun y =>
    !((List.range 2).all fun i => decide (refCoordQ fk y i = ((mirrorsQ .qua).getD n id) (refCoordQ fk x) i)) ||
      (decide (refCoordQ k (faceNode k f x) (faceAxis f) = faceSide f) && (List.range 3).all fun d => decide (refCoordQ k (faceNode k (oppositeFace f) y) d = if d = faceAxis f then - refCoordQ k (faceNode k f x) d else refCoordQ k (faceNode k f x) d))

/-- The mirror image by which the face `f` of a hexahedron and its opposite are related. -/
def faceMirror (f : Nat) : Nat := ((List.range 4).find? (faceMirrorOk .hex8 .qua4 f)).getD 0

theorem hex_face_check {k fk : GeoKind} (hk : k.classOf = .hex) (hfk : k.faceKind = some fk) : ((List.range k.nface).all fun f => faceMirrorOk k fk f (faceMirror f)) = true := by
  cases k <;> first | exact absurd hk (by decide) | (simp only [GeoKind.faceKind, reduceCtorEq, Option.some.injEq] at hfk; subst hfk; decide +kernel)

theorem hex_face_mirror {k fk : GeoKind} (hk : k.classOf = .hex) (hfk : k.faceKind = some fk) : ∀ f < k.nface, ∀ x < fk.nnode, ∀ y < fk.nnode,
    (∀ i < 2, refCoordQ fk y i = ((mirrorsQ .qua).getD (faceMirror f) id) (refCoordQ fk x) i) →
      refCoordQ k (faceNode k f x) (faceAxis f) = faceSide f ∧ ∀ d < 3, refCoordQ k (faceNode k (oppositeFace f) y) d = if d = faceAxis f then - refCoordQ k (faceNode k f x) d else refCoordQ k (faceNode k f x) d := by
  intro f hf x hx y hy hxy
  have h := hex_face_check hk hfk
  rw [List.all_eq_true] at h
  have h := h f (List.mem_range.2 hf)
  unfold faceMirrorOk at h
  rw [List.all_eq_true] at h
  have h := h x (List.mem_range.2 hx)
  rw [List.all_eq_true] at h
  have h := h y (List.mem_range.2 hy)
  rw [Bool.or_eq_true, Bool.not_eq_true', Bool.and_eq_true, decide_eq_true_eq, List.all_eq_true] at h
  rcases h with h | ⟨h1, h2⟩
  · exfalso
    have : ((List.range 2).all fun i => decide (refCoordQ fk y i = ((mirrorsQ .qua).getD (faceMirror f) id) (refCoordQ fk x) i)) = true := by
      rw [List.all_eq_true]
      intro i hi
      exact decide_eq_true (hxy i (List.mem_range.1 hi))
    rw [this] at h
    cases h
  · exact ⟨h1, fun d hd => of_decide_eq_true (h2 d (List.mem_range.2 hd))⟩

/-- **C74.** The mesh of a subdivided block in space is conforming. -/
theorem C74_block_3d (h : Block.Reached inv nrow 3 at_ b) (hf : NotTooFine b) (ht : TargetOk b target) (hM : IsSubdivision b target M) : ConformingFaces M := by
  have hd : b.ndim = 3 := h.wf.ndim_eq
  have hq : target.classOf = .hex := by
    unfold TargetOk at ht
    rw [if_neg (by omega)] at ht
    exact ht
  obtain ⟨fk, hfk⟩ : ∃ fk, target.faceKind = some fk := by
    generalize target = k at hq
    cases k <;> first | exact absurd hq (by decide) | exact ⟨_, rfl⟩
  have hqua : fk.classOf = .qua ∧ fk.ndim = 2 := by
    generalize target = k at hq hfk
    cases k <;> first | exact absurd hq (by decide) | (simp only [GeoKind.faceKind, Option.some.injEq] at hfk; subst hfk; decide)
  refine ⟨(C73_block_fits_3d h hf ht hM).two, ?_⟩
  intro key c f c' f' h1 h2 hne cell cell' hc hc'
  obtain ⟨i, j, k, hg, rfl, hf6⟩ := cell_of_face hM hq h1
  obtain ⟨i', j', k', hg', rfl, hf6'⟩ := cell_of_face hM hq h2
  obtain ⟨a1, a2⟩ := block_faces h hf ht hM hq hg hg' h1 h2
  rcases block_faces_cases a1 a2 with ⟨rfl, rfl, rfl, rfl⟩ | ⟨e1, e2⟩
  · exact absurd ⟨rfl, rfl⟩ hne
  obtain ⟨i1, j1, k1, hg1, hn, hk, hl, hp⟩ := block_cell hM hc
  obtain ⟨x1, x2, x3⟩ := cellNum_inj hg1 hg hn
  rw [x1, x2, x3] at hp
  obtain ⟨i1', j1', k1', hg1', hn', hk', hl', hp'⟩ := block_cell hM hc'
  obtain ⟨x1', x2', x3'⟩ := cellNum_inj hg1' hg' hn'
  rw [x1', x2', x3'] at hp'
  have hf6t : f < target.nface := by rw [(hex_face_lt hq).1]; exact hf6
  have hf6t' : f' < target.nface := by rw [(hex_face_lt hq).1]; exact hf6'
  have hmir := hex_face_mirror hq hfk f hf6t
  have hn4 : faceMirror f < 4 := by interval_cases f <;> decide +kernel
  rw [hk, hk']
  refine ⟨fk, hfk, hfk, seen_of_rational (AQ := (mirrorsQ .qua).getD (faceMirror f) id) ?_ ?_⟩
  · rw [hqua.1, List.getD_eq_getElem _ _ (show faceMirror f < (mirrorsQ .qua).length from hn4)]
    exact List.getElem_mem _
  intro x hx y hy hxy
  rw [hqua.2] at hxy
  obtain ⟨s1, s2⟩ := hmir x hx y hy hxy
  rw [nodeOf_eq hc, nodeOf_eq hc', hp, hp']
  have hnn := faceKind_nnode _ _ hfk
  refine shared_of_lattice h hf ht hM hg' (Shapes.faceNode_lt target f' hf6t' y (by rw [← hnn]; exact hy)) hg (Shapes.faceNode_lt target f hf6t x (by rw [← hnn]; exact hx)) ?_
  intro a ha
  have hpk := e2 a ha
  have hpk : (pick i' j' k' a : ℚ) = pick i j k a + if a = faceAxis f then (if f % 2 = 0 then -1 else 1) else 0 := by
    split_ifs at hpk ⊢ <;> exact_mod_cast hpk
  unfold lattice
  rw [hpk, e1, s2 a ha]
  by_cases hax : a = faceAxis f
  · rw [if_pos hax, if_pos hax]
    subst hax
    rw [s1]
    unfold faceSide
    split_ifs <;> ring
  · rw [if_neg hax, if_neg hax]
    ring

end
end Gemlab.Mesh
