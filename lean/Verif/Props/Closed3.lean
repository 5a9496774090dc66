import Verif.Props.Closed2
import Verif.Props.Block5

/-!
# C73 for subdivided blocks: the cells of a block fit together
-/
namespace Gemlab.Mesh
open Gemlab.Shapes Gemlab.Block Gemlab.Props.Features

variable {inv : MatInverse} {nrow ndim : Nat} {at_ : Nat → Nat → ℝ} {b : Block} {target : GeoKind} {M : Mesh ℝ}

/-- Twice the place of a node in the lattice of the block. -/
def lattice (target : GeoKind) (i j k m a : Nat) : ℚ := 2 * pick i j k a + refCoordQ target m a

theorem lattice_of_shared (h : Block.Reached inv nrow ndim at_ b) (hf : NotTooFine b) (ht : TargetOk b target) (hM : IsSubdivision b target M)
    {i j k m i' j' k' m' : Nat} (hg : InGrid b i j k) (hm : m < target.nnode) (hg' : InGrid b i' j' k') (hm' : m' < target.nnode)
    (he : ptAt b M i j k m = ptAt b M i' j' k' m') : ∀ a < ndim, lattice target i j k m a = lattice target i' j' k' m' a := by
  obtain ⟨h1, h2⟩ := C55_shared h hf ht hM hg hm hg' hm'
  intro a ha
  unfold lattice
  rcases h2.1 (h1.1 he) a ha with ⟨e1, e2⟩ | ⟨e1, e2, e3⟩ | ⟨e1, e2, e3⟩
  · rw [e1, e2]
  · rw [e1, e2, e3]; push_cast; ring
  · rw [e1, e2, e3]; push_cast; ring

/-- A cell of the subdivision. -/
theorem block_cell (hM : IsSubdivision b target M) {c : Nat} {cell : Cell} (hc : M.cells[c]? = some cell) :
    ∃ i j k, InGrid b i j k ∧ cellNum b i j k = c ∧ cell.kind = target ∧ cell.points.length = target.nnode ∧ ∀ m, cell.points.getD m 0 = ptAt b M i j k m := by
  have hlt := (List.getElem?_eq_some_iff.1 hc).1
  rw [hM.ncell] at hlt
  obtain ⟨i, j, k, hg, rfl⟩ := cellNum_surj hlt
  obtain ⟨c', h1, h2, -, h4, h5⟩ := hM.cells i j k hg
  rw [hc] at h1; cases h1
  refine ⟨i, j, k, hg, rfl, h4, h5, fun m => ?_⟩
  unfold ptAt
  rw [hc]
  rfl

theorem qua_directions {k : GeoKind} (hk : k.classOf = .qua) : ∀ e < k.nedge, ∀ e' < k.nedge,
    (∀ a < 2, refCoordQ k (edgeNode k e 1) a - refCoordQ k (edgeNode k e 0) a = refCoordQ k (edgeNode k e' 1) a - refCoordQ k (edgeNode k e' 0) a) → e = e' := by
  cases k <;> first | exact absurd hk (by decide) | decide +kernel

theorem qua_edge_lt {k : GeoKind} (hk : k.classOf = .qua) : ∀ e < k.nedge, ∀ j < 2, edgeNode k e j < k.nnode := by
  cases k <;> first | exact absurd hk (by decide) | decide +kernel

/-- C73: the cells of a subdivided block in the plane fit together. -/
theorem C73_block_fits_2d (h : Block.Reached inv nrow 2 at_ b) (hf : NotTooFine b) (ht : TargetOk b target) (hM : IsSubdivision b target M) : OrientedEdges M := by
  have hd : b.ndim = 2 := h.wf.ndim_eq
  have hq : target.classOf = .qua := by
    unfold TargetOk at ht
    rw [if_pos hd] at ht
    exact ht
  intro c e c' e' cell cell' hc hc' _ _ he he' hends
  obtain ⟨i, j, k, hg, rfl, hk, hl, hp⟩ := block_cell hM hc
  obtain ⟨i', j', k', hg', rfl, hk', hl', hp'⟩ := block_cell hM hc'
  rw [hk] at he
  rw [hk'] at he'
  unfold edgeEnds at hends
  rw [hk, hk', hp, hp, hp', hp', Prod.mk.injEq] at hends
  have l0 := lattice_of_shared h hf ht hM hg (qua_edge_lt hq e he 0 (by omega)) hg' (qua_edge_lt hq e' he' 0 (by omega)) hends.1
  have l1 := lattice_of_shared h hf ht hM hg (qua_edge_lt hq e he 1 (by omega)) hg' (qua_edge_lt hq e' he' 1 (by omega)) hends.2
  have hee : e = e' := qua_directions hq e he e' he' fun a ha => by
    have := l0 a ha
    have := l1 a ha
    unfold lattice at *
    linarith
  subst hee
  refine ⟨?_, rfl⟩
  have hpk : ∀ a < 2, pick i j k a = pick i' j' k' a := by
    intro a ha
    have := l0 a ha
    unfold lattice at this
    have : (pick i j k a : ℚ) = pick i' j' k' a := by linarith
    exact_mod_cast this
  have hi : i = i' := hpk 0 (by omega)
  have hj : j = j' := hpk 1 (by omega)
  have hkk : k = k' := by
    have h2 : ndivAt b 2 = 1 := by unfold ndivAt; rw [if_neg (by omega)]
    have := hg.2.2
    have := hg'.2.2
    omega
  rw [hi, hj, hkk]

/-! ## Space -/

/-- The axis of a face of a hexahedron and its side. -/
def faceAxis (f : Nat) : Nat := f / 2
def faceSide (f : Nat) : ℚ := if f % 2 = 0 then -1 else 1
/-- The opposite face. -/
def oppositeFace (f : Nat) : Nat := if f % 2 = 0 then f + 1 else f - 1

theorem hex_face_sum {k : GeoKind} (hk : k.classOf = .hex) : ∀ f < k.nface, ∀ a < 3,
    refCoordQ k (faceNode k f 0) a + refCoordQ k (faceNode k f 1) a + refCoordQ k (faceNode k f 2) a + refCoordQ k (faceNode k f 3) a =
      if a = faceAxis f then 4 * faceSide f else 0 := by
  cases k <;> first | exact absurd hk (by decide) | decide +kernel

theorem hex_face_lt {k : GeoKind} (hk : k.classOf = .hex) : k.nface = 6 ∧ 4 ≤ k.faceNnode ∧ ∀ f < k.nface, ∀ j < 4, faceNode k f j < k.nnode := by
  cases k <;> first | exact absurd hk (by decide) | decide +kernel

/-- The node at the mirrored place. -/
def mirror (k : GeoKind) (a m : Nat) : Nat := ((List.range k.nnode).find? fun m' => (List.range 3).all fun d => decide (refCoordQ k m' d = if d = a then - refCoordQ k m a else refCoordQ k m d)).getD 0

theorem hex_mirror {k fk : GeoKind} (hk : k.classOf = .hex) (hfk : k.faceKind = some fk) : ∀ f < k.nface,
    (∀ s ∈ localRim k fk f, ∀ m ∈ [s.1, s.2], m < k.nnode ∧ mirror k (faceAxis f) m < k.nnode ∧ refCoordQ k m (faceAxis f) = faceSide f ∧
      ∀ d < 3, refCoordQ k (mirror k (faceAxis f) m) d = if d = faceAxis f then - refCoordQ k m d else refCoordQ k m d) ∧
    ((localRim k fk f).map (Prod.map (mirror k (faceAxis f)) (mirror k (faceAxis f)))).Perm ((localRim k fk (oppositeFace f)).map Prod.swap) := by
  cases k <;> first | exact absurd hk (by decide) | (simp only [GeoKind.faceKind, reduceCtorEq, Option.some.injEq] at hfk; subst hfk; decide +kernel)

/-- The place in the lattice is a function of the point. -/
theorem exists_lattice (h : Block.Reached inv nrow ndim at_ b) (hf : NotTooFine b) (ht : TargetOk b target) (hM : IsSubdivision b target M) (a : Nat) (ha : a < ndim) :
    ∃ g : Nat → ℚ, ∀ {i j k m : Nat}, InGrid b i j k → m < target.nnode → g (ptAt b M i j k m) = lattice target i j k m a := by
  classical
  have : ∀ p : Nat, ∃ v : ℚ, ∀ i j k m : Nat, InGrid b i j k → m < target.nnode → ptAt b M i j k m = p → v = lattice target i j k m a := by
    intro p
    by_cases hp : ∃ i j k m : Nat, InGrid b i j k ∧ m < target.nnode ∧ ptAt b M i j k m = p
    · obtain ⟨i, j, k, m, hg, hm, rfl⟩ := hp
      exact ⟨_, fun i' j' k' m' hg' hm' he => lattice_of_shared h hf ht hM hg hm hg' hm' he.symm a ha⟩
    · exact ⟨0, fun i j k m hg hm he => absurd ⟨i, j, k, m, hg, hm, he⟩ hp⟩
  choose g hg using this
  exact ⟨g, fun h1 h2 => hg _ _ _ _ _ h1 h2 rfl⟩

/-- Two faces of a subdivided block with the same corners: the same face, or opposite faces of neighbours. -/
theorem block_faces (h : Block.Reached inv nrow 3 at_ b) (hf : NotTooFine b) (ht : TargetOk b target) (hM : IsSubdivision b target M) (hq : target.classOf = .hex)
    {key : FaceKey} {f f' i j k i' j' k' : Nat} (hg : InGrid b i j k) (hg' : InGrid b i' j' k')
    (h1 : HasFace M key (cellNum b i j k) f) (h2 : HasFace M key (cellNum b i' j' k') f') :
    faceAxis f = faceAxis f' ∧ ∀ a < 3, 2 * (pick i j k a : ℚ) + (if a = faceAxis f then faceSide f else 0) = 2 * pick i' j' k' a + (if a = faceAxis f' then faceSide f' else 0) := by
  have corners : ∀ {f i j k : Nat}, InGrid b i j k → HasFace M key (cellNum b i j k) f → f < target.nface ∧
      key.toList.Perm [ptAt b M i j k (faceNode target f 0), ptAt b M i j k (faceNode target f 1), ptAt b M i j k (faceNode target f 2), ptAt b M i j k (faceNode target f 3)] := by
    rintro f i j k hg ⟨cell, p0, p1, p2, p3, hc, -, hlt, e0, e1, e2, e3, -, hperm⟩
    obtain ⟨i', j', k', hg', hn, hk, hl, hp⟩ := block_cell hM hc
    obtain ⟨rfl, rfl, rfl⟩ := cellNum_inj hg' hg hn
    rw [hk] at hlt e0 e1 e2 e3
    obtain ⟨n6, n4, -⟩ := hex_face_lt hq
    rw [if_pos (by omega)] at e3
    refine ⟨hlt, ?_⟩
    rw [← hp, ← hp, ← hp, ← hp, List.getD_eq_getElem?_getD, List.getD_eq_getElem?_getD, List.getD_eq_getElem?_getD, List.getD_eq_getElem?_getD, e0, e1, e2, e3]
    exact hperm
  obtain ⟨l1, p1⟩ := corners hg h1
  obtain ⟨l2, p2⟩ := corners hg' h2
  have hp := p1.symm.trans p2
  have hg3 : ∀ a < 3, lattice target i j k (faceNode target f 0) a + lattice target i j k (faceNode target f 1) a + lattice target i j k (faceNode target f 2) a + lattice target i j k (faceNode target f 3) a =
      lattice target i' j' k' (faceNode target f' 0) a + lattice target i' j' k' (faceNode target f' 1) a + lattice target i' j' k' (faceNode target f' 2) a + lattice target i' j' k' (faceNode target f' 3) a := by
    intro a ha
    obtain ⟨g, hgl⟩ := exists_lattice h hf ht hM a ha
    have hfl := (hex_face_lt hq).2.2
    have := (hp.map g).sum_eq
    simp only [List.map_cons, List.map_nil, List.sum_cons, List.sum_nil] at this
    rw [hgl hg (hfl f l1 0 (by omega)), hgl hg (hfl f l1 1 (by omega)), hgl hg (hfl f l1 2 (by omega)), hgl hg (hfl f l1 3 (by omega)),
      hgl hg' (hfl f' l2 0 (by omega)), hgl hg' (hfl f' l2 1 (by omega)), hgl hg' (hfl f' l2 2 (by omega)), hgl hg' (hfl f' l2 3 (by omega))] at this
    linarith
  have hs : ∀ a < 3, 2 * (pick i j k a : ℚ) + (if a = faceAxis f then faceSide f else 0) = 2 * pick i' j' k' a + (if a = faceAxis f' then faceSide f' else 0) := by
    intro a ha
    have e := hg3 a ha
    have e1 := hex_face_sum hq f l1 a ha
    have e2 := hex_face_sum hq f' l2 a ha
    unfold lattice at e
    split_ifs at e1 e2 ⊢ <;> linarith
  refine ⟨?_, hs⟩
  by_contra hne
  have := (hex_face_lt hq).1
  have e := hs (faceAxis f) (by unfold faceAxis; omega)
  rw [if_pos rfl, if_neg hne] at e
  unfold faceSide at e
  split_ifs at e
  · have : (2 * pick i j k (faceAxis f) : ℤ) + (-1) = 2 * pick i' j' k' (faceAxis f) := by
      have : ((2 * pick i j k (faceAxis f) + (-1) : ℤ) : ℚ) = ((2 * pick i' j' k' (faceAxis f) : ℤ) : ℚ) := by push_cast; linarith
      exact_mod_cast this
    omega
  · have : (2 * pick i j k (faceAxis f) : ℤ) + 1 = 2 * pick i' j' k' (faceAxis f) := by
      have : ((2 * pick i j k (faceAxis f) + 1 : ℤ) : ℚ) = ((2 * pick i' j' k' (faceAxis f) : ℤ) : ℚ) := by push_cast; linarith
      exact_mod_cast this
    omega

theorem cell_of_face {key : FaceKey} {c f : Nat} (hM : IsSubdivision b target M) (hq : target.classOf = .hex) (h : HasFace M key c f) :
    ∃ i j k, InGrid b i j k ∧ c = cellNum b i j k ∧ f < 6 := by
  obtain ⟨cell, _, _, _, _, hc, -, hlt, -⟩ := h
  obtain ⟨i, j, k, hg, hn, hk, -⟩ := block_cell hM hc
  rw [hk, (hex_face_lt hq).1] at hlt
  exact ⟨i, j, k, hg, hn.symm, hlt⟩

/-- The same face, or opposite faces of neighbours. -/
theorem block_faces_cases {f f' i j k i' j' k' : Nat} (h : faceAxis f = faceAxis f') (hs : ∀ a < 3, 2 * (pick i j k a : ℚ) + (if a = faceAxis f then faceSide f else 0) = 2 * pick i' j' k' a + (if a = faceAxis f' then faceSide f' else 0)) :
    (f = f' ∧ i = i' ∧ j = j' ∧ k = k') ∨
    (f' = oppositeFace f ∧ ∀ a < 3, (pick i' j' k' a : ℤ) = pick i j k a + if a = faceAxis f then (if f % 2 = 0 then -1 else 1) else 0) := by
  have hz : ∀ a < 3, (2 * (pick i j k a : ℤ) + if a = faceAxis f then (if f % 2 = 0 then -1 else 1) else 0) = 2 * (pick i' j' k' a : ℤ) + if a = faceAxis f then (if f' % 2 = 0 then -1 else 1) else 0 := by
    intro a ha
    have := hs a ha
    rw [← h] at this
    unfold faceSide at this
    split_ifs at this ⊢ <;> exact_mod_cast this
  unfold faceAxis at h
  by_cases hff : f % 2 = f' % 2
  · left
    have hp : ∀ a < 3, pick i j k a = pick i' j' k' a := by
      intro a ha
      have := hz a ha
      rw [hff] at this
      omega
    exact ⟨by omega, hp 0 (by omega), hp 1 (by omega), hp 2 (by omega)⟩
  · right
    refine ⟨by unfold oppositeFace; split_ifs <;> omega, fun a ha => ?_⟩
    have := hz a ha
    split_ifs at this ⊢ <;> omega

/-- C73: the cells of a subdivided block in space fit together. -/
theorem C73_block_fits_3d (h : Block.Reached inv nrow 3 at_ b) (hf : NotTooFine b) (ht : TargetOk b target) (hM : IsSubdivision b target M) : OrientedFaces M := by
  have hd : b.ndim = 3 := h.wf.ndim_eq
  have hq : target.classOf = .hex := by
    unfold TargetOk at ht
    rw [if_neg (by omega)] at ht
    exact ht
  obtain ⟨fk, hfk⟩ : ∃ fk, target.faceKind = some fk := by
    generalize target = k at hq
    cases k <;> first | exact absurd hq (by decide) | exact ⟨_, rfl⟩
  constructor
  · intro key c f c' f' c'' f'' h1 h2 h3
    obtain ⟨i, j, k, hg, rfl, hf6⟩ := cell_of_face hM hq h1
    obtain ⟨i', j', k', hg', rfl, hf6'⟩ := cell_of_face hM hq h2
    obtain ⟨i'', j'', k'', hg'', rfl, hf6''⟩ := cell_of_face hM hq h3
    obtain ⟨a1, a2⟩ := block_faces h hf ht hM hq hg hg' h1 h2
    obtain ⟨b1, b2⟩ := block_faces h hf ht hM hq hg hg'' h1 h3
    rcases block_faces_cases a1 a2 with ⟨rfl, rfl, rfl, rfl⟩ | ⟨e1, e2⟩
    · exact .inl ⟨rfl, rfl⟩
    rcases block_faces_cases b1 b2 with ⟨rfl, rfl, rfl, rfl⟩ | ⟨e3, e4⟩
    · exact .inr (.inl ⟨rfl, rfl⟩)
    have hp : ∀ a < 3, pick i' j' k' a = pick i'' j'' k'' a := by
      intro a ha
      have := e2 a ha
      have := e4 a ha
      omega
    have hi : i' = i'' := hp 0 (by omega)
    have hj : j' = j'' := hp 1 (by omega)
    have hk : k' = k'' := hp 2 (by omega)
    rw [hi, hj, hk, e1, e3]
    exact .inr (.inr ⟨rfl, rfl⟩)
  · intro key c f c' f' h1 h2 hne cell cell' hc hc'
    obtain ⟨i, j, k, hg, rfl, hf6⟩ := cell_of_face hM hq h1
    obtain ⟨i', j', k', hg', rfl, hf6'⟩ := cell_of_face hM hq h2
    obtain ⟨a1, a2⟩ := block_faces h hf ht hM hq hg hg' h1 h2
    rcases block_faces_cases a1 a2 with ⟨rfl, rfl, rfl, rfl⟩ | ⟨e1, e2⟩
    · exact absurd ⟨rfl, rfl⟩ hne
    obtain ⟨i1, j1, k1, hg1, hn, hk, hl, hp⟩ := block_cell hM hc
    obtain ⟨rfl, rfl, rfl⟩ := cellNum_inj hg1 hg hn
    obtain ⟨i1, j1, k1, hg1, hn, hk', hl', hp'⟩ := block_cell hM hc'
    obtain ⟨rfl, rfl, rfl⟩ := cellNum_inj hg1 hg' hn
    obtain ⟨m1, m2⟩ := hex_mirror hq hfk f (by rw [(hex_face_lt hq).1]; exact hf6)
    rw [faceRim_eq (by rw [hk]; exact hfk), faceRim_eq (by rw [hk']; exact hfk), hk, hk', e1]
    have hsame : ∀ m, m < target.nnode → mirror target (faceAxis f) m < target.nnode → refCoordQ target m (faceAxis f) = faceSide f →
        (∀ d < 3, refCoordQ target (mirror target (faceAxis f) m) d = if d = faceAxis f then - refCoordQ target m d else refCoordQ target m d) →
        cell.points.getD m 0 = cell'.points.getD (mirror target (faceAxis f) m) 0 := by
      intro m hm hmm hs hmir
      rw [hp, hp']
      obtain ⟨s1, s2⟩ := C55_shared h hf ht hM hg hm hg' hmm
      refine s1.2 (s2.2 fun a ha => ?_)
      have hpk := e2 a ha
      rw [hmir a ha]
      by_cases hax : a = faceAxis f
      · right
        rw [if_pos hax] at hpk ⊢
        subst hax
        rw [hs]
        unfold faceSide
        by_cases hpar : f % 2 = 0
        · right
          rw [if_pos hpar] at hpk ⊢
          exact ⟨by omega, rfl, by norm_num⟩
        · left
          rw [if_neg hpar] at hpk ⊢
          exact ⟨by omega, rfl, rfl⟩
      · left
        rw [if_neg hax] at hpk ⊢
        exact ⟨by omega, rfl⟩
    have hmap : (localRim target fk f).map (Prod.map (cell.points.getD · 0) (cell.points.getD · 0)) =
        ((localRim target fk f).map (Prod.map (mirror target (faceAxis f)) (mirror target (faceAxis f)))).map (Prod.map (cell'.points.getD · 0) (cell'.points.getD · 0)) := by
      rw [List.map_map]
      refine List.map_congr_left fun s hs => ?_
      obtain ⟨x1, x2, x3, x4⟩ := m1 s hs s.1 (by simp)
      obtain ⟨y1, y2, y3, y4⟩ := m1 s hs s.2 (by simp)
      simp only [Function.comp_apply, Prod.map]
      rw [hsame _ x1 x2 x3 x4, hsame _ y1 y2 y3 y4]
    rw [hmap]
    have := m2.map (Prod.map (cell'.points.getD · 0) (cell'.points.getD · 0))
    refine this.trans ?_
    rw [List.map_map, List.map_map]
    exact List.Perm.of_eq (List.map_congr_left fun s _ => rfl)

/-- C73 for blocks in the plane: the boundary edges of every subdivided block are closed polygons. -/
theorem C73_block_2d (h : Block.Reached inv nrow 2 at_ b) (hf : NotTooFine b) (ht : TargetOk b target) (hM : IsSubdivision b target M) {x : Extracted ℝ} {F : Features}
    (hF : IsNew M false x F) (p : Nat) : (F.edges.countP fun e => e.2.points[0]? = some p) = F.edges.countP fun e => e.2.points[1]? = some p :=
  C73_loops_oriented hF (C55_valid hM) (by rw [hM.ndim]; exact h.wf.ndim_eq) (C73_block_fits_2d h hf ht hM) p

/-- C73 for blocks in space: the triangulated boundary of every subdivided block is a closed surface. -/
theorem C73_block_3d (h : Block.Reached inv nrow 3 at_ b) (hf : NotTooFine b) (ht : TargetOk b target) (hM : IsSubdivision b target M) {extractAll : Bool} {x : Extracted ℝ} {F : Features}
    (hF : IsNew M extractAll x F) (iter : List (FaceKey × Feature) → List (FaceKey × Feature)) (hi : IterOrder iter) (hsmall : 324 * M.cells.length < usizeMax) :
    ∃ tr : TriState, F.triangulate3dBoundary iter = .ok tr ∧ (∀ tri ∈ tr.triangles, tri.length = 3) ∧
      ∀ q r, (tr.triangles.flatMap triSides).count (q, r) = (tr.triangles.flatMap triSides).count (r, q) :=
  C73_closed_oriented hF (C55_valid hM) (by rw [hM.ndim]; exact h.wf.ndim_eq) (C73_block_fits_3d h hf ht hM) iter hi hsmall

/-! ## The hypotheses are met -/

/-- Two triangles with a common edge fit together. -/
example : OrientedEdges (⟨2, [⟨0, 0, [0, 0]⟩, ⟨1, 0, [1, 0]⟩, ⟨2, 0, [1, 1]⟩, ⟨3, 0, [0, 1]⟩], [⟨0, 1, .tri3, [0, 1, 2]⟩, ⟨1, 1, .tri3, [0, 2, 3]⟩], [], []⟩ : Mesh ℝ) := by
  intro c e c' e' cell cell' hc hc' _ _ he he' hends
  have hl := (List.getElem?_eq_some_iff.1 hc).1
  have hl' := (List.getElem?_eq_some_iff.1 hc').1
  simp only [List.length_cons, List.length_nil, Nat.zero_add] at hl hl'
  interval_cases c <;> interval_cases c' <;> simp at hc hc' <;> subst hc <;> subst hc' <;> change e < 3 at he <;> change e' < 3 at he' <;>
    interval_cases e <;> interval_cases e' <;> revert hends <;> decide

theorem exTet_one : ∀ key c f c' f', HasFace exTet key c f → HasFace exTet key c' f' → c = c' ∧ f = f' := by
  have hkey : ∀ (key : FaceKey) c f, HasFace exTet key c f → c = 0 ∧ f < 4 ∧ key.toList.Perm [faceNode .tet4 f 0, faceNode .tet4 f 1, faceNode .tet4 f 2, usizeMax] := by
    rintro key c f ⟨cell, p0, p1, p2, p3, hc, -, hf, h0, h1, h2, h3, -, hp⟩
    have hl := (List.getElem?_eq_some_iff.1 hc).1
    simp only [exTet, List.length_cons, List.length_nil, Nat.zero_add] at hl
    interval_cases c
    simp only [exTet, List.getElem?_cons_zero, Option.some.injEq] at hc
    subst hc
    change f < 4 at hf
    refine ⟨rfl, hf, ?_⟩
    have hid : ∀ n < 4, ([0, 1, 2, 3] : List Nat)[n]? = some n := by decide
    have hlt : ∀ f < 4, ∀ i < 3, faceNode .tet4 f i < 4 := by decide
    rw [hid _ (hlt f hf 0 (by omega)), Option.some.injEq] at h0
    rw [hid _ (hlt f hf 1 (by omega)), Option.some.injEq] at h1
    rw [hid _ (hlt f hf 2 (by omega)), Option.some.injEq] at h2
    rw [if_neg (by decide)] at h3
    rw [h0, h1, h2, ← h3]
    exact hp
  intro key c f c' f' h1 h2
  obtain ⟨a1, a2, a3⟩ := hkey _ _ _ h1
  obtain ⟨b1, b2, b3⟩ := hkey _ _ _ h2
  refine ⟨by rw [a1, b1], ?_⟩
  have := a3.symm.trans b3
  revert this
  interval_cases f <;> interval_cases f' <;> decide

theorem exTet_oriented : OrientedFaces exTet :=
  ⟨fun key c e c' e' _ _ h1 h2 _ => .inl (exTet_one key c e c' e' h1 h2), fun key c f c' f' h1 h2 hne => absurd (exTet_one key c f c' f' h1 h2) hne⟩

/-- The triangulated boundary of a tetrahedron is closed. -/
example (o : Orders) (ho : o.Valid) (iter : List (FaceKey × Feature) → List (FaceKey × Feature)) (hi : IterOrder iter) :
    ∃ (F : Features) (tr : TriState), Features.new o exTet false = .ok F ∧ F.triangulate3dBoundary iter = .ok tr ∧
      ∀ q r, (tr.triangles.flatMap triSides).count (q, r) = (tr.triangles.flatMap triSides).count (r, q) := by
  obtain ⟨x, F, tr, label, faces, h1, h2, h3, -⟩ := C60_example o ho iter hi
  obtain ⟨tr', h4, -, h5⟩ := C73_closed_oriented h2 exTet_valid rfl exTet_oriented iter hi (by decide)
  rw [h3] at h4
  cases h4
  exact ⟨F, tr, h1, h3, h5⟩

/-- A block with a curved side (six cells): its cells fit together. -/
example {iterG : List (Nat × List ℝ) → List (Nat × List ℝ)} {iterC : List (Nat × Nat) → List (Nat × Nat)} (hI : IterOrder iterG) (hIC : IterOrder iterC) :
    ∃ b M, subdivide iterG iterC b .qua8 = .ok M ∧ OrientedEdges M := by
  obtain ⟨at_, b, h1, h2, h3, h4, -⟩ := example_block
  obtain ⟨M, m1, m2⟩ := (C55_subdivide h1 h2 h3 hI hIC).2 h4
  exact ⟨b, M, m1, C73_block_fits_2d h1 h2 h3 m2⟩

end Gemlab.Mesh
