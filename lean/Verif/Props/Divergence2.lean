import Verif.Proofs.DivFlux
import Verif.Props.Closed2
import Verif.Props.Normals2

/-!
# C74 (meshes): the divergence theorem
-/
namespace Gemlab.Mesh
open Gemlab.Shapes Gemlab.Spec Gemlab.GaussSpec Gemlab.Props.Features Gemlab.Scratchpad
noncomputable section

variable {m : Mesh ℝ} {A : Type} [AddCommGroup A]

theorem edges_total (h : ValidMesh m) (w : (Σ _ : Nat, Nat) → A) (two : ∀ key, AtMostTwo (HasEdge m key))
    (pair : ∀ key c e c' e', HasEdge m key c e → HasEdge m key c' e' → ¬ (c = c' ∧ e = e') → w ⟨c, e⟩ + w ⟨c', e'⟩ = 0)
    (edges : List (EdgeKey × Feature)) (hn : (edges.map (·.1)).Nodup) (hb : ∀ key, key ∈ edges.map (·.1) ↔ ExactlyOne (HasEdge m key))
    (W : EdgeKey × Feature → A) (hW : ∀ e ∈ edges, ∀ c k, HasEdge m e.1 c k → W e = w ⟨c, k⟩) : (edges.map W).sum = ∑ x ∈ allEdges m, w x := by
  obtain ⟨key, hkey⟩ := exists_edge_key h
  have hmem : ∀ {k c f}, HasEdge m k c f → (⟨c, f⟩ : Σ _ : Nat, Nat) ∈ allEdges m := by
    rintro k c f ⟨cell, _, _, h1, h2, h3, -⟩
    exact mem_allEdges.2 ⟨cell, h1, h2, h3⟩
  refine boundary_list_total (allEdges m) key w ?_ ?_ edges hn ?_ _ ?_
  · intro x hx y hy hxy hne
    have h1 := hkey x hx
    have h2 := hkey y hy
    rw [← hxy] at h2
    exact pair _ _ _ _ _ h1 h2 (fun hh => hne (by cases x; cases y; simp only at hh; obtain ⟨rfl, rfl⟩ := hh; rfl))
  · intro x hx y hy z hz hxy hxz
    have h1 := hkey x hx
    have h2 := hkey y hy
    have h3 := hkey z hz
    rw [← hxy] at h2
    rw [← hxz] at h3
    cases x; cases y; cases z
    rcases two _ _ _ _ _ _ _ h1 h2 h3 with ⟨a, b⟩ | ⟨a, b⟩ | ⟨a, b⟩ <;> simp only at a b <;> subst a <;> subst b
    · exact .inl rfl
    · exact .inr (.inl rfl)
    · exact .inr (.inr rfl)
  · intro k
    rw [hb]
    constructor
    · rintro ⟨c, f, h1, h2⟩
      refine ⟨⟨c, f⟩, hmem h1, (hkey _ (hmem h1)).key_unique h1, ?_⟩
      rintro ⟨c', f'⟩ hy hk
      have := hkey _ hy
      rw [hk] at this
      obtain ⟨a, b⟩ := h2 _ _ this
      simp only at a b
      rw [a, b]
    · rintro ⟨⟨c, f⟩, hx, rfl, h2⟩
      refine ⟨c, f, hkey _ hx, ?_⟩
      intro c' f' h3
      have := h2 ⟨c', f'⟩ (hmem h3) ((hkey _ (hmem h3)).key_unique h3)
      cases this
      exact ⟨rfl, rfl⟩
  · rintro e he ⟨c, f⟩ hx hk
    have h1 := hkey _ hx
    rw [hk] at h1
    exact hW e he c f h1

theorem faces_total (h : ValidMesh m) (w : (Σ _ : Nat, Nat) → A) (two : ∀ key, AtMostTwo (HasFace m key))
    (pair : ∀ key c e c' e', HasFace m key c e → HasFace m key c' e' → ¬ (c = c' ∧ e = e') → w ⟨c, e⟩ + w ⟨c', e'⟩ = 0)
    (faces : List (FaceKey × Feature)) (hn : (faces.map (·.1)).Nodup) (hb : ∀ key, key ∈ faces.map (·.1) ↔ ExactlyOne (HasFace m key))
    (W : FaceKey × Feature → A) (hW : ∀ e ∈ faces, ∀ c k, HasFace m e.1 c k → W e = w ⟨c, k⟩) : (faces.map W).sum = ∑ x ∈ allFaces m, w x := by
  obtain ⟨key, hkey⟩ := exists_key h
  have hmem : ∀ {k c f}, HasFace m k c f → (⟨c, f⟩ : Σ _ : Nat, Nat) ∈ allFaces m := by
    rintro k c f ⟨cell, _, _, _, _, h1, h2, h3, -⟩
    exact mem_allFaces.2 ⟨cell, h1, h2, h3⟩
  refine boundary_list_total (allFaces m) key w ?_ ?_ faces hn ?_ _ ?_
  · intro x hx y hy hxy hne
    have h1 := hkey x hx
    have h2 := hkey y hy
    rw [← hxy] at h2
    exact pair _ _ _ _ _ h1 h2 (fun hh => hne (by cases x; cases y; simp only at hh; obtain ⟨rfl, rfl⟩ := hh; rfl))
  · intro x hx y hy z hz hxy hxz
    have h1 := hkey x hx
    have h2 := hkey y hy
    have h3 := hkey z hz
    rw [← hxy] at h2
    rw [← hxz] at h3
    cases x; cases y; cases z
    rcases two _ _ _ _ _ _ _ h1 h2 h3 with ⟨a, b⟩ | ⟨a, b⟩ | ⟨a, b⟩ <;> simp only at a b <;> subst a <;> subst b
    · exact .inl rfl
    · exact .inr (.inl rfl)
    · exact .inr (.inr rfl)
  · intro k
    rw [hb]
    constructor
    · rintro ⟨c, f, h1, h2⟩
      refine ⟨⟨c, f⟩, hmem h1, (hkey _ (hmem h1)).key_unique h1, ?_⟩
      rintro ⟨c', f'⟩ hy hk
      have := hkey _ hy
      rw [hk] at this
      obtain ⟨a, b⟩ := h2 _ _ this
      simp only at a b
      rw [a, b]
    · rintro ⟨⟨c, f⟩, hx, rfl, h2⟩
      refine ⟨c, f, hkey _ hx, ?_⟩
      intro c' f' h3
      have := h2 ⟨c', f'⟩ (hmem h3) ((hkey _ (hmem h3)).key_unique h3)
      cases this
      exact ⟨rfl, rfl⟩
  · rintro e he ⟨c, f⟩ hx hk
    have h1 := hkey _ hx
    rw [hk] at h1
    exact hW e he c f h1

/-- Coordinate `i` of the point `p`. -/
def coordP (m : Mesh ℝ) (p i : Nat) : ℝ := (coordsOf m p).getD i 0

/-- The flux through nodes of points `p`. -/
def fluxThrough (m : Mesh ℝ) (v : Nat → Nat → ℝ) (k : GeoKind) (p : Nat → Nat) : ℝ := polyIntegral k.classOf (fluxPoly k (fun j => coordP m (p j)) fun j => v (p j))

theorem fluxPoly_congr {k : GeoKind} {X X' v v' : Nat → Nat → ℝ} (hX : ∀ j < k.nnode, X j = X' j) (hv : ∀ j < k.nnode, v j = v' j) : fluxPoly k X v = fluxPoly k X' v' := by
  have hu : ∀ {w w' : Nat → Nat → ℝ}, (∀ j < k.nnode, w j = w' j) → ∀ i, uPoly k w i = uPoly k w' i := by
    intro w w' h i
    unfold uPoly fieldPoly
    exact Finset.sum_congr rfl fun n hn => by dsimp only; rw [h n (Finset.mem_range.1 hn)]
  unfold fluxPoly
  simp only [hu hX, hu hv]

theorem nodeOf_eq {c : Nat} {cell : Cell} (hc : m.cells[c]? = some cell) (n : Nat) : nodeOf m c n = cell.points.getD n 0 := by
  unfold nodeOf
  rw [hc, Option.map_some, Option.getD_some]

/-- The flux of a feature. -/
theorem featureFlux_eq (h : ValidMesh m) (hd : m.ndim = 2 ∨ m.ndim = 3) (v : Nat → Nat → ℝ) (f : Feature) (hk : f.kind.ndim + 1 = m.ndim) (hl : f.points.length = f.kind.nnode)
    (hr : ∀ p ∈ f.points, p < m.points.length) : (∃ pad, featurePad m f = .ok pad) ∧ featureFlux m v f = fluxThrough m v f.kind fun j => f.points.getD j 0 := by
  obtain ⟨pad, pad', h1, h2, h3⟩ := pad_ready h hd f.kind (by omega) f.points hl hr
  have h4 : featurePad m f = .ok pad' := by
    unfold featurePad
    rw [h1, Res.bind_ok, h2]
  refine ⟨⟨pad', h4⟩, ?_⟩
  unfold featureFlux fluxThrough
  rw [h4]
  simp only
  rw [totalFlux_eq (X := fun j => coordP m (f.points.getD j 0)) (by rw [h3.space, h3.kind]; omega) (by rw [h3.kind]; omega), h3.kind]
  intro j hj i hi
  rw [h3.kind] at hj
  rw [h3.space] at hi
  exact h3.coords j i hj hi

/-- The fluxes through the local edges and faces. -/
def edgeW (m : Mesh ℝ) (v : Nat → Nat → ℝ) (x : Σ _ : Nat, Nat) : ℝ :=
  ((m.cells[x.1]?).bind fun cell => cell.kind.edgeKind.map fun ek => fluxThrough m v ek fun j => nodeOf m x.1 (edgeNode cell.kind x.2 j)).getD 0
def faceW (m : Mesh ℝ) (v : Nat → Nat → ℝ) (x : Σ _ : Nat, Nat) : ℝ :=
  ((m.cells[x.1]?).bind fun cell => cell.kind.faceKind.map fun fk => fluxThrough m v fk fun j => nodeOf m x.1 (faceNode cell.kind x.2 j)).getD 0

theorem edgeW_eq {v : Nat → Nat → ℝ} {c e : Nat} {cell : Cell} {ek : GeoKind} (hc : m.cells[c]? = some cell) (hek : cell.kind.edgeKind = some ek) :
    edgeW m v ⟨c, e⟩ = fluxThrough m v ek fun j => nodeOf m c (edgeNode cell.kind e j) := by
  unfold edgeW
  simp only
  rw [hc, Option.bind_some, hek, Option.map_some, Option.getD_some]

theorem faceW_eq {v : Nat → Nat → ℝ} {c f : Nat} {cell : Cell} {fk : GeoKind} (hc : m.cells[c]? = some cell) (hfk : cell.kind.faceKind = some fk) :
    faceW m v ⟨c, f⟩ = fluxThrough m v fk fun j => nodeOf m c (faceNode cell.kind f j) := by
  unfold faceW
  simp only
  rw [hc, Option.bind_some, hfk, Option.map_some, Option.getD_some]

variable {inv : MatInverse} {v : Nat → Nat → ℝ}

theorem cell_edges (hinv : InverseSpec inv) (h : ValidMesh m) (h2 : m.ndim = 2) {c : Nat} {cell : Cell} (hc : m.cells[c]? = some cell) (hk : cell.kind.ndim = 2)
    (hG : ∀ pad, getPad m c = .ok pad → GradientOk inv pad) : cellDivergence inv m v c = ∑ e ∈ Finset.range cell.kind.nedge, edgeW m v ⟨c, e⟩ := by
  obtain ⟨pad, hp, hold⟩ := (C53_get_pad m h c).1 cell hc (.inl h2) (by omega)
  obtain ⟨ek, hek⟩ : ∃ ek, cell.kind.edgeKind = some ek := by
    generalize cell.kind = q at hk
    cases q <;> first | exact absurd hk (by decide) | exact ⟨_, rfl⟩
  have hn1 : ek.ndim = 1 := by
    have := (edgeKind_nnode _ _ hek).2
    cases ek <;> first | rfl | exact absurd this (by decide)
  unfold cellDivergence
  rw [hp]
  simp only
  rw [C74_cell_2d hinv (by rw [hold.kind]; exact hk) (by rw [hold.space]; exact h2) (hG pad hp) _ (fun e => { pad with kind := ek, xxt := fun i j => pad.xxt i (edgeNode cell.kind e j) })]
  · rw [hold.kind]
    refine Finset.sum_congr rfl fun e he => ?_
    have he := Finset.mem_range.1 he
    rw [edgeW_eq hc hek, totalFlux_eq (X := fun j => coordP m (nodeOf m c (edgeNode cell.kind e j)))]
    · rfl
    · dsimp only; rw [hold.space, h2, hn1]
    · exact .inl hn1
    · dsimp only
      intro j hj i hi
      rw [hold.space] at hi
      show pad.X (edgeNode cell.kind e j) i = _
      rw [hold.coords _ i (Shapes.edgeNode_lt cell.kind e he j (by rw [← (edgeKind_nnode _ _ hek).1]; exact hj)) hi, nodeOf_eq hc]
      rfl
  · intro e he
    dsimp only
    rw [hold.kind, hold.space]
    exact ⟨h2, hek, fun _ _ _ _ => rfl⟩

theorem cell_faces (hinv : InverseSpec inv) (h : ValidMesh m) (h3 : m.ndim = 3) {c : Nat} {cell : Cell} (hc : m.cells[c]? = some cell) (hk : cell.kind.ndim = 3)
    (hG : ∀ pad, getPad m c = .ok pad → GradientOk inv pad) : cellDivergence inv m v c = ∑ e ∈ Finset.range cell.kind.nface, faceW m v ⟨c, e⟩ := by
  obtain ⟨pad, hp, hold⟩ := (C53_get_pad m h c).1 cell hc (.inr h3) (by omega)
  obtain ⟨fk, hfk⟩ : ∃ fk, cell.kind.faceKind = some fk := by
    generalize cell.kind = q at hk
    cases q <;> first | exact absurd hk (by decide) | exact ⟨_, rfl⟩
  have hn2 : fk.ndim = 2 := by
    obtain ⟨-, h⟩ | ⟨-, h⟩ := faceKind_class _ _ hfk <;> (cases fk <;> first | rfl | exact absurd h (by decide))
  unfold cellDivergence
  rw [hp]
  simp only
  rw [C74_cell_3d hinv (by rw [hold.kind]; exact hk) (by rw [hold.space]; exact h3) (hG pad hp) _ (fun f => { pad with kind := fk, xxt := fun i j => pad.xxt i (faceNode cell.kind f j) })]
  · rw [hold.kind]
    refine Finset.sum_congr rfl fun f hf => ?_
    have hf := Finset.mem_range.1 hf
    rw [faceW_eq hc hfk, totalFlux_eq (X := fun j => coordP m (nodeOf m c (faceNode cell.kind f j)))]
    · rfl
    · dsimp only; rw [hold.space, h3, hn2]
    · exact .inr hn2
    · dsimp only
      intro j hj i hi
      rw [hold.space] at hi
      show pad.X (faceNode cell.kind f j) i = _
      rw [hold.coords _ i (Shapes.faceNode_lt cell.kind f hf j (by rw [← faceKind_nnode _ _ hfk]; exact hj)) hi, nodeOf_eq hc]
      rfl
  · intro e he
    dsimp only
    rw [hold.kind, hold.space]
    exact ⟨h3, hfk, fun _ _ _ _ => rfl⟩

theorem cells_edges (hinv : InverseSpec inv) (h : ValidMesh m) (h2 : m.ndim = 2) (hG : ∀ c ∈ fullCells m, ∀ pad, getPad m c = .ok pad → GradientOk inv pad) :
    ∑ c ∈ fullCells m, cellDivergence inv m v c = ∑ x ∈ allEdges m, edgeW m v x := by
  classical
  unfold allEdges
  rw [Finset.sum_sigma]
  unfold fullCells at hG ⊢
  rw [Finset.sum_filter]
  refine Finset.sum_congr rfl fun c hc => ?_
  obtain ⟨cell, hcell⟩ : ∃ cell, m.cells[c]? = some cell := ⟨_, List.getElem?_eq_getElem (Finset.mem_range.1 hc)⟩
  rw [hcell, Option.map_some, Option.getD_some]
  by_cases hk : cell.kind.ndim = 2
  · rw [if_pos ⟨cell, rfl, by omega⟩, if_pos hk]
    exact cell_edges hinv h h2 hcell hk (hG c (Finset.mem_filter.2 ⟨hc, cell, hcell, by omega⟩))
  · rw [if_neg (by rintro ⟨cell', h1, h3⟩; rw [Option.some.injEq] at h1; subst h1; omega), if_neg hk]
    rfl

theorem cells_faces (hinv : InverseSpec inv) (h : ValidMesh m) (h3 : m.ndim = 3) (hG : ∀ c ∈ fullCells m, ∀ pad, getPad m c = .ok pad → GradientOk inv pad) :
    ∑ c ∈ fullCells m, cellDivergence inv m v c = ∑ x ∈ allFaces m, faceW m v x := by
  classical
  unfold allFaces
  rw [Finset.sum_sigma]
  unfold fullCells at hG ⊢
  rw [Finset.sum_filter]
  refine Finset.sum_congr rfl fun c hc => ?_
  obtain ⟨cell, hcell⟩ : ∃ cell, m.cells[c]? = some cell := ⟨_, List.getElem?_eq_getElem (Finset.mem_range.1 hc)⟩
  rw [hcell, Option.map_some, Option.getD_some]
  by_cases hk : cell.kind.ndim = 3
  · rw [if_pos ⟨cell, rfl, by omega⟩, if_pos hk]
    exact cell_faces hinv h h3 hcell hk (hG c (Finset.mem_filter.2 ⟨hc, cell, hcell, by omega⟩))
  · rw [if_neg (by rintro ⟨cell', h1, h3⟩; rw [Option.some.injEq] at h1; subst h1; omega), if_neg hk]
    rfl

/-- The points of a stored edge or face. -/
theorem feature_points {F : Features} (h : ValidMesh m) {c n : Nat} {cell : Cell} {f : Feature} (hcell : m.cells[c]? = some cell) (node : Nat → Nat) (hlen : f.points.length = f.kind.nnode)
    (hpts : ∀ (i : Nat), i < f.kind.nnode → f.points[i]? = cell.points[node i]?) (hin : ∀ j < f.kind.nnode, node j < cell.points.length) :
    (∀ p ∈ f.points, p < m.points.length) ∧ ∀ j < f.kind.nnode, f.points.getD j 0 = nodeOf m c (node j) := by
  have hmem := List.mem_of_getElem? hcell
  refine ⟨?_, fun j hj => ?_⟩
  · intro p hp
    obtain ⟨j, hj, rfl⟩ := List.mem_iff_getElem.1 hp
    have h1 := hpts j (hlen ▸ hj)
    rw [List.getElem?_eq_getElem hj, List.getElem?_eq_getElem (hin j (hlen ▸ hj)), Option.some.injEq] at h1
    rw [h1]
    exact h.inRange _ hmem _ (List.getElem_mem _)
  · rw [nodeOf_eq hcell, List.getD_eq_getElem?_getD, hpts j hj, ← List.getD_eq_getElem?_getD]

/-- **C74.** The divergence theorem for a mesh in the plane: the integral of the divergence over all plane cells is the sum of the fluxes
through the boundary edges found by `Features::new`. -/
theorem C74_mesh_2d {x : Extracted ℝ} {F : Features} (hinv : InverseSpec inv) (hF : IsNew m false x F) (h : ValidMesh m) (h2 : m.ndim = 2) (hc : ConformingEdges m)
    (hG : ∀ c ∈ fullCells m, ∀ pad, getPad m c = .ok pad → GradientOk inv pad) (v : Nat → Nat → ℝ) :
    (∀ c ∈ fullCells m, ∃ pad, getPad m c = .ok pad) ∧ (∀ e ∈ F.edges, ∃ pad, featurePad m e.2 = .ok pad) ∧
    ∑ c ∈ fullCells m, cellDivergence inv m v c = (F.edges.map fun e => featureFlux m v e.2).sum := by
  classical
  obtain ⟨_, hx⟩ | ⟨h3, _⟩ := hF.extracted
  swap
  · omega
  obtain ⟨hn, hb⟩ := boundary_keys hF h2
  have key : ∀ e ∈ F.edges, ∀ c k, HasEdge m e.1 c k → (∃ pad, featurePad m e.2 = .ok pad) ∧ featureFlux m v e.2 = edgeW m v ⟨c, k⟩ := by
    rintro ⟨key, f⟩ he c k hck
    obtain ⟨c', e', hone, huniq⟩ := (hb key).1 (List.mem_map_of_mem he)
    obtain ⟨c'', e'', hfirst, ⟨cell, hcell, hek, hlen, hpts⟩, -⟩ := hx.data key f (by rw [← hF.edges]; exact HMap.get_of_mem hn he)
    obtain ⟨rfl, rfl⟩ := huniq _ _ hck
    obtain ⟨rfl, rfl⟩ := huniq _ _ hfirst.1
    obtain ⟨cell', a, b, hc', hk2, hlt, -⟩ := hfirst.1
    rw [hcell, Option.some.injEq] at hc'
    subst hc'
    have hn1 : f.kind.ndim = 1 := by
      have := (edgeKind_nnode _ _ hek).2
      generalize f.kind = q at this
      cases q <;> first | rfl | exact absurd this (by decide)
    obtain ⟨q1, q2⟩ := feature_points (F := F) (n := 0) h hcell (fun j => edgeNode cell.kind e'' j) hlen hpts (fun j hj => by
      rw [h.nnode _ (List.mem_of_getElem? hcell)]
      exact Shapes.edgeNode_lt _ _ hlt j ((edgeKind_nnode _ _ hek).1 ▸ hj))
    obtain ⟨q3, q4⟩ := featureFlux_eq h (.inl h2) v f (by omega) hlen q1
    refine ⟨q3, ?_⟩
    rw [q4, edgeW_eq hcell hek]
    unfold fluxThrough
    exact congrArg _ (fluxPoly_congr (fun j hj => congrArg _ (q2 j hj)) (fun j hj => congrArg _ (q2 j hj)))
  refine ⟨?_, ?_, ?_⟩
  · intro c hcm
    obtain ⟨-, cell, hcell, hk⟩ := Finset.mem_filter.1 hcm
    obtain ⟨pad, hp, -⟩ := (C53_get_pad m h c).1 cell hcell (.inl h2) (by omega)
    exact ⟨pad, hp⟩
  · intro e he
    obtain ⟨c, k, hck, -⟩ := (hb e.1).1 (List.mem_map_of_mem he)
    exact (key e he c k hck).1
  · rw [cells_edges hinv h h2 hG]
    refine (edges_total h (edgeW m v) hc.two ?_ F.edges hn hb _ fun e he c k hck => (key e he c k hck).2).symm
    intro k c e c' e' g1 g2 g3
    obtain ⟨cell, _, _, k1, -⟩ := id g1
    obtain ⟨cell', _, _, k1', -⟩ := id g2
    obtain ⟨ek, e1, e2, e3⟩ := hc.opposite k c e c' e' g1 g2 g3 cell cell' k1 k1'
    rw [edgeW_eq k1 e1, edgeW_eq k1' e2]
    have hn1 : ek.ndim = 1 := by
      have := (edgeKind_nnode _ _ e1).2
      cases ek <;> first | rfl | exact absurd this (by decide)
    exact flux_mirror (.inl hn1) e3

theorem boundary_face_keys {x : Extracted ℝ} {F : Features} (hF : IsNew m false x F) (h3 : m.ndim = 3) :
    (F.faces.map (·.1)).Nodup ∧ ∀ key, key ∈ F.faces.map (·.1) ↔ ExactlyOne (HasFace m key) := by
  obtain ⟨h2, _⟩ | ⟨_, hx⟩ := hF.extracted
  · omega
  refine ⟨by rw [hF.faces]; exact hx.keysNodup.1, ?_⟩
  intro key
  have := hx.accepted key
  rw [← hF.faces] at this
  simp only [Bool.false_eq_true, false_or] at this
  constructor
  · intro hk
    by_contra hc
    have hnone : F.faces.get key = none := by
      by_contra hh
      obtain ⟨f, hf⟩ := Option.ne_none_iff_exists'.1 hh
      exact hc (this.1 (by rw [hf]; rfl)).2
    exact HMap.get_eq_none_iff.1 hnone hk
  · intro hk
    by_contra hc
    have hnone := HMap.get_eq_none_iff.2 hc
    obtain ⟨c, e, hce, -⟩ := id hk
    have h4 := this.2 ⟨⟨c, e, hce⟩, hk⟩
    rw [hnone] at h4
    cases h4

/-- **C74.** The divergence theorem for a mesh in space: the integral of the divergence over all solid cells is the sum of the fluxes through
the boundary faces found by `Features::new`. -/
theorem C74_mesh_3d {x : Extracted ℝ} {F : Features} (hinv : InverseSpec inv) (hF : IsNew m false x F) (h : ValidMesh m) (h3 : m.ndim = 3) (hc : ConformingFaces m)
    (hG : ∀ c ∈ fullCells m, ∀ pad, getPad m c = .ok pad → GradientOk inv pad) (v : Nat → Nat → ℝ) :
    (∀ c ∈ fullCells m, ∃ pad, getPad m c = .ok pad) ∧ (∀ e ∈ F.faces, ∃ pad, featurePad m e.2 = .ok pad) ∧
    ∑ c ∈ fullCells m, cellDivergence inv m v c = (F.faces.map fun e => featureFlux m v e.2).sum := by
  classical
  obtain ⟨h2, _⟩ | ⟨_, hx⟩ := hF.extracted
  · omega
  obtain ⟨hn, hb⟩ := boundary_face_keys hF h3
  have hfd : ∀ {k fk : GeoKind}, k.faceKind = some fk → fk.ndim = 2 := by
    intro k fk hfk
    obtain ⟨-, h⟩ | ⟨-, h⟩ := faceKind_class _ _ hfk <;> (cases fk <;> first | rfl | exact absurd h (by decide))
  have key : ∀ e ∈ F.faces, ∀ c k, HasFace m e.1 c k → (∃ pad, featurePad m e.2 = .ok pad) ∧ featureFlux m v e.2 = faceW m v ⟨c, k⟩ := by
    rintro ⟨key, f⟩ he c k hck
    obtain ⟨c', e', hone, huniq⟩ := (hb key).1 (List.mem_map_of_mem he)
    obtain ⟨c'', e'', hfirst, ⟨cell, hcell, hfk, hlen, hpts⟩, -⟩ := hx.data key f (by rw [← hF.faces]; exact HMap.get_of_mem hn he)
    obtain ⟨rfl, rfl⟩ := huniq _ _ hck
    obtain ⟨rfl, rfl⟩ := huniq _ _ hfirst.1
    obtain ⟨cell', _, _, _, _, hc', hk3, hlt, -⟩ := hfirst.1
    rw [hcell, Option.some.injEq] at hc'
    subst hc'
    have hn2 := hfd hfk
    obtain ⟨q1, q2⟩ := feature_points (F := F) (n := 0) h hcell (fun j => faceNode cell.kind e'' j) hlen hpts (fun j hj => by
      rw [h.nnode _ (List.mem_of_getElem? hcell)]
      exact Shapes.faceNode_lt _ _ hlt j (faceKind_nnode _ _ hfk ▸ hj))
    obtain ⟨q3, q4⟩ := featureFlux_eq h (.inr h3) v f (by omega) hlen q1
    refine ⟨q3, ?_⟩
    rw [q4, faceW_eq hcell hfk]
    unfold fluxThrough
    exact congrArg _ (fluxPoly_congr (fun j hj => congrArg _ (q2 j hj)) (fun j hj => congrArg _ (q2 j hj)))
  refine ⟨?_, ?_, ?_⟩
  · intro c hcm
    obtain ⟨-, cell, hcell, hk⟩ := Finset.mem_filter.1 hcm
    obtain ⟨pad, hp, -⟩ := (C53_get_pad m h c).1 cell hcell (.inr h3) (by omega)
    exact ⟨pad, hp⟩
  · intro e he
    obtain ⟨c, k, hck, -⟩ := (hb e.1).1 (List.mem_map_of_mem he)
    exact (key e he c k hck).1
  · rw [cells_faces hinv h h3 hG]
    refine (faces_total h (faceW m v) hc.two ?_ F.faces hn hb _ fun e he c k hck => (key e he c k hck).2).symm
    intro k c e c' e' g1 g2 g3
    obtain ⟨cell, _, _, _, _, k1, -⟩ := id g1
    obtain ⟨cell', _, _, _, _, k1', -⟩ := id g2
    obtain ⟨fk, e1, e2, e3⟩ := hc.opposite k c e c' e' g1 g2 g3 cell cell' k1 k1'
    rw [faceW_eq k1 e1, faceW_eq k1' e2]
    exact flux_mirror (.inr (hfd e1)) e3

end
end Gemlab.Mesh
