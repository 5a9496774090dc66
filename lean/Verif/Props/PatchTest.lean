import Verif.Proofs.PatchCell
import Verif.Props.Divergence3

/-!
# C75: the patch test

In a conforming mesh with any cells, the nodal forces of a constant stress are those of the tractions on the boundary.
-/
namespace Gemlab.Mesh
open MvPolynomial Gemlab.Shapes Gemlab.Spec Gemlab.GaussSpec Gemlab.Scratchpad Gemlab.Spec.Integ Gemlab.Props.Features Gemlab.Props.Mesh
noncomputable section

variable {inv : MatInverse} {m : Mesh ℝ}

theorem featurePad_kind {f : Feature} {pad : Scratchpad} (h : featurePad m f = .ok pad) : pad.kind = f.kind := by
  unfold featurePad at h
  obtain ⟨pad0, h1, h2⟩ := Res.bind_eq_ok.1 h
  have e1 : pad0.kind = f.kind := by
    unfold Scratchpad.new at h1
    split_ifs at h1
    rw [← Res.ok.inj h1]
  unfold setPad at h2
  split_ifs at h2
  refine Res.foldlM_ok_inv _ _ _ _ (fun _ (p : Scratchpad) => p.kind = f.kind) e1 ?_ h2
  intro _ n p q _ hp hq
  refine Res.foldlM_ok_inv _ _ _ _ (fun _ (p : Scratchpad) => p.kind = f.kind) hp ?_ hq
  intro _ j p q _ hp hq
  obtain ⟨_, -, hq⟩ := Res.bind_eq_ok.1 hq
  obtain ⟨_, -, hq⟩ := Res.bind_eq_ok.1 hq
  obtain ⟨_, -, hq⟩ := Res.bind_eq_ok.1 hq
  unfold Scratchpad.setXx at hq
  split_ifs at hq
  rw [← Res.ok.inj hq]
  exact hp

theorem featurePad_len {f : Feature} {pad : Scratchpad} (h : featurePad m f = .ok pad) : f.points.length = f.kind.nnode := by
  unfold featurePad at h
  obtain ⟨pad0, h1, h2⟩ := Res.bind_eq_ok.1 h
  have e1 : pad0.kind = f.kind := by
    unfold Scratchpad.new at h1
    split_ifs at h1
    rw [← Res.ok.inj h1]
  unfold setPad at h2
  split_ifs at h2 with h3
  rw [← e1]
  exact (not_not.1 h3).symm

/-- Bounds on the integrands of a cell and of a feature. -/
def cellNorm (m : Mesh ℝ) (v : Nat → Nat → ℝ) (c : Nat) : ℝ :=
  match getPad m c with
  | .ok pad => coeffNorm (divPoly pad.kind pad.X fun n => v (nodeOf m c n))
  | _ => 0
def sideNorm (m : Mesh ℝ) (v : Nat → Nat → ℝ) (f : Feature) : ℝ :=
  match featurePad m f with
  | .ok pad => coeffNorm (fluxPoly pad.kind pad.X fun j => v (f.points.getD j 0))
  | _ => 0

theorem coeffNorm_nonneg (P : MvPolynomial (Fin 3) ℝ) : 0 ≤ coeffNorm P := Finset.sum_nonneg fun _ _ => abs_nonneg _

theorem cellNorm_nonneg (v : Nat → Nat → ℝ) (c : Nat) : 0 ≤ cellNorm m v c := by
  unfold cellNorm
  split
  · exact coeffNorm_nonneg _
  · exact le_rfl

theorem sideNorm_nonneg (v : Nat → Nat → ℝ) (f : Feature) : 0 ≤ sideNorm m v f := by
  unfold sideNorm
  split
  · exact coeffNorm_nonneg _
  · exact le_rfl

theorem list_sum_close {α : Type} (l : List α) (a b k : α → ℝ) {ε : ℝ} (h : ∀ x ∈ l, |a x - b x| ≤ ε * k x) : |(l.map a).sum - (l.map b).sum| ≤ ε * (l.map k).sum := by
  induction l with
  | nil => simp
  | cons x l ih =>
    simp only [List.map_cons, List.sum_cons]
    have h1 := h x List.mem_cons_self
    have h2 := ih fun y hy => h y (List.mem_cons_of_mem _ hy)
    rw [show a x + (l.map a).sum - (b x + (l.map b).sum) = (a x - b x) + ((l.map a).sum - (l.map b).sum) by ring, mul_add]
    exact (abs_add_le _ _).trans (add_le_add h1 h2)

theorem sum_close {α : Type} (S : Finset α) (a b k : α → ℝ) {ε : ℝ} (h : ∀ x ∈ S, |a x - b x| ≤ ε * k x) : |∑ x ∈ S, a x - ∑ x ∈ S, b x| ≤ ε * ∑ x ∈ S, k x := by
  rw [← Finset.sum_sub_distrib, Finset.mul_sum]
  exact (Finset.abs_sum_le_sum_abs _ _).trans (Finset.sum_le_sum h)

theorem patch_cells (hinv : InverseSpec inv) (h : ValidMesh m) (hd : m.ndim = 2 ∨ m.ndim = 3)
    (hG : ∀ c ∈ fullCells m, ∀ pad, getPad m c = .ok pad → GradientOk inv pad) {l : List Feature} {gc : Nat → Gauss} {gf : Feature → Gauss} {ε : ℝ} (hr : PatchRules m l gc gf ε)
    {c : Nat} (hc : c ∈ fullCells m) : ∃ pad, getPad m c = .ok pad ∧ pad.kind.ndim = pad.spaceNdim ∧ SpaceOk pad ∧ pad.spaceNdim = m.ndim ∧ GradientOk inv pad ∧
      Accurate (gc c) pad.kind.classOf (cellNeed pad.kind) ε := by
  obtain ⟨-, cell, hcell, hk⟩ := Finset.mem_filter.1 hc
  obtain ⟨pad, hp, hh⟩ := (C53_get_pad m h c).1 cell hcell hd (by omega)
  have e1 := hh.kind
  have e2 := hh.space
  have hn := congrArg GeoKind.ndim e1
  refine ⟨pad, hp, by omega, ?_, e2, hG c hc pad hp, ?_⟩
  · unfold SpaceOk; omega
  · rw [e1]; exact hr.cells c hc cell hcell

theorem patch_sides (hd : m.ndim = 2 ∨ m.ndim = 3) {l : List Feature} (hl : ∀ f ∈ l, f.kind.ndim + 1 = m.ndim ∧ ∃ pad, featurePad m f = .ok pad)
    {gc : Nat → Gauss} {gf : Feature → Gauss} {ε : ℝ} (hr : PatchRules m l gc gf ε) {f : Feature} (hf : f ∈ l) :
    ∃ pad, featurePad m f = .ok pad ∧ pad.spaceNdim = pad.kind.ndim + 1 ∧ SpaceOk pad ∧ pad.spaceNdim = m.ndim ∧ Accurate (gf f) pad.kind.classOf (sideNeed pad.kind) ε := by
  obtain ⟨h1, pad, hp⟩ := hl f hf
  have e1 := featurePad_kind hp
  have e2 := featurePad_space hp
  have hn := congrArg GeoKind.ndim e1
  refine ⟨pad, hp, by omega, ?_, e2, ?_⟩
  · unfold SpaceOk; omega
  · rw [e1]; exact hr.sides f hf

/-- The calls succeed. -/
theorem patch_calls (hinv : InverseSpec inv) (h : ValidMesh m) (hd : m.ndim = 2 ∨ m.ndim = 3)
    (hG : ∀ c ∈ fullCells m, ∀ pad, getPad m c = .ok pad → GradientOk inv pad) {l : List Feature} (hl : ∀ f ∈ l, f.kind.ndim + 1 = m.ndim ∧ ∃ pad, featurePad m f = .ok pad)
    {gc : Nat → Gauss} {gf : Feature → Gauss} {ε : ℝ} (hr : PatchRules m l gc gf ε) (t w : Nat → ℝ) : PatchCalls inv m l gc gf t w := by
  constructor
  · intro c hc
    obtain ⟨pad, hp, h1, h2, h3, h4, h5⟩ := patch_cells hinv h hd hG hr hc
    obtain ⟨r, hr1⟩ := (stress_cell hinv h1 h2 h4 h5 t).1
    obtain ⟨r', hr2⟩ := (flow_cell hinv h1 h2 h4 h5 w).1
    exact ⟨pad, r, r', hp, hr1, hr2⟩
  · intro f hf
    obtain ⟨pad, hp, h1, h2, h3, h4⟩ := patch_sides hd hl hr hf
    obtain ⟨r, hr1⟩ := (traction_side h1 h2 (gf f) t).1
    obtain ⟨r', hr2⟩ := (outflow_side h1 h2 (gf f) w).1
    exact ⟨pad, r, r', hp, hr1, hr2⟩

/-- From the divergence theorem to the nodal forces. -/
theorem patch_force (hinv : InverseSpec inv) (h : ValidMesh m) (hd : m.ndim = 2 ∨ m.ndim = 3)
    (hG : ∀ c ∈ fullCells m, ∀ pad, getPad m c = .ok pad → GradientOk inv pad) {l : List Feature} (hl : ∀ f ∈ l, f.kind.ndim + 1 = m.ndim ∧ ∃ pad, featurePad m f = .ok pad)
    (hD : ∀ v : Nat → Nat → ℝ, ∑ c ∈ fullCells m, cellDivergence inv m v c = (l.map (featureFlux m v)).sum) (t : Nat → ℝ) (q i : Nat) (hi : i < m.ndim) :
    ∃ K, 0 ≤ K ∧ ∀ gc gf ε, PatchRules m l gc gf ε → |internalForce inv m gc t q i - boundaryForce m gf t l q i| ≤ K * ε := by
  let v : Nat → Nat → ℝ := fun p j => if p = q then tensor2 t i j else 0
  refine ⟨∑ c ∈ fullCells m, cellNorm m v c + (l.map (sideNorm m v)).sum, ?_, ?_⟩
  · refine add_nonneg (Finset.sum_nonneg fun c _ => cellNorm_nonneg v c) (List.sum_nonneg fun x hx => ?_)
    obtain ⟨f, -, rfl⟩ := List.mem_map.1 hx
    exact sideNorm_nonneg v f
  intro gc gf ε hr
  have h1 : |internalForce inv m gc t q i - ∑ c ∈ fullCells m, cellDivergence inv m v c| ≤ ε * ∑ c ∈ fullCells m, cellNorm m v c := by
    refine sum_close _ _ _ _ fun c hc => ?_
    obtain ⟨pad, hp, h1, h2, h3, h4, h5⟩ := patch_cells hinv h hd hG hr hc
    unfold cellDivergence cellNorm
    rw [hp]
    dsimp only
    rw [← h3, (stress_cell hinv h1 h2 h4 h5 t).2 _ q i (by omega)]
    exact cell_quadrature hinv h1 h2 h4 h5 _
  have h2 : |boundaryForce m gf t l q i - (l.map (featureFlux m v)).sum| ≤ ε * (l.map (sideNorm m v)).sum := by
    refine list_sum_close _ _ _ _ fun f hf => ?_
    obtain ⟨pad, hp, h1, h2, h3, h4⟩ := patch_sides hd hl hr hf
    unfold featureFlux sideNorm
    rw [hp]
    dsimp only
    rw [← h3, (traction_side h1 h2 (gf f) t).2 _ q i (by omega)]
    exact side_quadrature h1 (by rcases h2 with h | h <;> omega) h4 _
  rw [hD v] at h1
  rw [abs_le] at h1 h2 ⊢
  constructor <;> nlinarith [h1.1, h1.2, h2.1, h2.2]

theorem patch_flow (hinv : InverseSpec inv) (h : ValidMesh m) (hd : m.ndim = 2 ∨ m.ndim = 3)
    (hG : ∀ c ∈ fullCells m, ∀ pad, getPad m c = .ok pad → GradientOk inv pad) {l : List Feature} (hl : ∀ f ∈ l, f.kind.ndim + 1 = m.ndim ∧ ∃ pad, featurePad m f = .ok pad)
    (hD : ∀ v : Nat → Nat → ℝ, ∑ c ∈ fullCells m, cellDivergence inv m v c = (l.map (featureFlux m v)).sum) (w : Nat → ℝ) (q : Nat) :
    ∃ K, 0 ≤ K ∧ ∀ gc gf ε, PatchRules m l gc gf ε → |internalFlow inv m gc w q - boundaryFlow m gf w l q| ≤ K * ε := by
  let v : Nat → Nat → ℝ := fun p j => if p = q then w j else 0
  refine ⟨∑ c ∈ fullCells m, cellNorm m v c + (l.map (sideNorm m v)).sum, ?_, ?_⟩
  · refine add_nonneg (Finset.sum_nonneg fun c _ => cellNorm_nonneg v c) (List.sum_nonneg fun x hx => ?_)
    obtain ⟨f, -, rfl⟩ := List.mem_map.1 hx
    exact sideNorm_nonneg v f
  intro gc gf ε hr
  have h1 : |internalFlow inv m gc w q - ∑ c ∈ fullCells m, cellDivergence inv m v c| ≤ ε * ∑ c ∈ fullCells m, cellNorm m v c := by
    refine sum_close _ _ _ _ fun c hc => ?_
    obtain ⟨pad, hp, h1, h2, h3, h4, h5⟩ := patch_cells hinv h hd hG hr hc
    unfold cellDivergence cellNorm
    rw [hp]
    dsimp only
    rw [(flow_cell hinv h1 h2 h4 h5 w).2 _ q]
    exact cell_quadrature hinv h1 h2 h4 h5 _
  have h2 : |boundaryFlow m gf w l q - (l.map (featureFlux m v)).sum| ≤ ε * (l.map (sideNorm m v)).sum := by
    refine list_sum_close _ _ _ _ fun f hf => ?_
    obtain ⟨pad, hp, h1, h2, h3, h4⟩ := patch_sides hd hl hr hf
    unfold featureFlux sideNorm
    rw [hp]
    dsimp only
    rw [(outflow_side h1 h2 (gf f) w).2 _ q]
    exact side_quadrature h1 (by rcases h2 with h | h <;> omega) h4 _
  rw [hD v] at h1
  rw [abs_le] at h1 h2 ⊢
  constructor <;> nlinarith [h1.1, h1.2, h2.1, h2.2]

/-- Nothing is assembled at a point that is on none of the features. -/
theorem boundary_none {l : List Feature} {q : Nat} (hq : ∀ f ∈ l, q ∉ f.points) (g : Feature → Gauss) (t w : Nat → ℝ) (i : Nat) :
    boundaryForce m g t l q i = 0 ∧ boundaryFlow m g w l q = 0 := by
  have key : ∀ f ∈ l, ∀ pad d b i, featurePad m f = .ok pad → nodalPart pad.kind.nnode (fun j => f.points.getD j 0) d b q i = 0 := by
    intro f hf pad d b i hp
    refine Finset.sum_eq_zero fun j hj => if_neg ?_
    have hj' : j < f.points.length := by rw [featurePad_len hp, ← featurePad_kind hp]; exact Finset.mem_range.1 hj
    dsimp only
    rw [List.getD_eq_getElem _ _ hj']
    exact fun e => hq f hf (e ▸ List.getElem_mem hj')
  constructor
  · refine List.sum_eq_zero fun x hx => ?_
    obtain ⟨f, hf, rfl⟩ := List.mem_map.1 hx
    split
    · exact key f hf _ _ _ _ (by assumption)
    · rfl
  · refine List.sum_eq_zero fun x hx => ?_
    obtain ⟨f, hf, rfl⟩ := List.mem_map.1 hx
    split
    · exact key f hf _ _ _ _ (by assumption)
    · rfl

theorem edge_feature {x : Extracted ℝ} {F : Features} (hF : IsNew m false x F) (h2 : m.ndim = 2) : ∀ e ∈ F.edges, e.2.kind.ndim + 1 = m.ndim := by
  obtain ⟨_, hx⟩ | ⟨h3, _⟩ := hF.extracted
  swap
  · omega
  rintro ⟨key, f⟩ he
  have hn : (F.edges.map (·.1)).Nodup := (boundary_keys hF h2).1
  obtain ⟨c, e, -, ⟨cell, -, hek, -⟩, -⟩ := hx.data key f (by rw [← hF.edges]; exact HMap.get_of_mem hn he)
  have := (edgeKind_nnode _ _ hek).2
  dsimp only
  rw [h2]
  generalize f.kind = q at this
  cases q <;> first | rfl | exact absurd this (by decide)

theorem face_feature {x : Extracted ℝ} {F : Features} (hF : IsNew m false x F) (h3 : m.ndim = 3) : ∀ e ∈ F.faces, e.2.kind.ndim + 1 = m.ndim := by
  obtain ⟨h2, _⟩ | ⟨_, hx⟩ := hF.extracted
  · omega
  rintro ⟨key, f⟩ he
  have hn : (F.faces.map (·.1)).Nodup := (boundary_face_keys hF h3).1
  obtain ⟨c, e, -, ⟨cell, -, hfk, -⟩, -⟩ := hx.data key f (by rw [← hF.faces]; exact HMap.get_of_mem hn he)
  dsimp only
  rw [h3]
  obtain ⟨-, h⟩ | ⟨-, h⟩ := faceKind_class _ _ hfk <;> (generalize f.kind = fk at h; cases fk <;> first | rfl | exact absurd h (by decide))

/-- **C75.** The patch test in the plane: for a constant stress, the forces of `vec_04_bt`, assembled at any point `q`, are those of the tractions
(`vec_02_nv_bry`) on the boundary edges of `Features::new`; the same holds for the flows of `vec_03_bv` and `vec_01_ns_bry`. The error is a constant (that
does not depend on the rules) times the accuracy of the rules. -/
theorem C75_patch_2d {x : Extracted ℝ} {F : Features} (hinv : InverseSpec inv) (hF : IsNew m false x F) (h : ValidMesh m) (h2 : m.ndim = 2) (hc : ConformingEdges m)
    (hG : ∀ c ∈ fullCells m, ∀ pad, getPad m c = .ok pad → GradientOk inv pad) (t w : Nat → ℝ) :
    (∀ gc gf ε, PatchRules m (F.edges.map (·.2)) gc gf ε → PatchCalls inv m (F.edges.map (·.2)) gc gf t w) ∧
    (∀ q, ∀ i < 2, ∃ K, 0 ≤ K ∧ ∀ gc gf ε, PatchRules m (F.edges.map (·.2)) gc gf ε →
      |internalForce inv m gc t q i - boundaryForce m gf t (F.edges.map (·.2)) q i| ≤ K * ε) ∧
    (∀ q, ∃ K, 0 ≤ K ∧ ∀ gc gf ε, PatchRules m (F.edges.map (·.2)) gc gf ε →
      |internalFlow inv m gc w q - boundaryFlow m gf w (F.edges.map (·.2)) q| ≤ K * ε) := by
  have hD := C74_mesh_2d hinv hF h h2 hc hG
  have hl : ∀ f ∈ F.edges.map (·.2), f.kind.ndim + 1 = m.ndim ∧ ∃ pad, featurePad m f = .ok pad := by
    intro f hf
    obtain ⟨e, he, rfl⟩ := List.mem_map.1 hf
    exact ⟨edge_feature hF h2 e he, (hD fun _ _ => 0).2.1 e he⟩
  have hD' : ∀ v : Nat → Nat → ℝ, ∑ c ∈ fullCells m, cellDivergence inv m v c = ((F.edges.map (·.2)).map (featureFlux m v)).sum := by
    intro v
    rw [(hD v).2.2, List.map_map]
    rfl
  exact ⟨fun gc gf ε hr => patch_calls hinv h (.inl h2) hG hl hr t w, fun q i hi => patch_force hinv h (.inl h2) hG hl hD' t q i (by omega),
    fun q => patch_flow hinv h (.inl h2) hG hl hD' w q⟩

/-- **C75.** The patch test in space. -/
theorem C75_patch_3d {x : Extracted ℝ} {F : Features} (hinv : InverseSpec inv) (hF : IsNew m false x F) (h : ValidMesh m) (h3 : m.ndim = 3) (hc : ConformingFaces m)
    (hG : ∀ c ∈ fullCells m, ∀ pad, getPad m c = .ok pad → GradientOk inv pad) (t w : Nat → ℝ) :
    (∀ gc gf ε, PatchRules m (F.faces.map (·.2)) gc gf ε → PatchCalls inv m (F.faces.map (·.2)) gc gf t w) ∧
    (∀ q, ∀ i < 3, ∃ K, 0 ≤ K ∧ ∀ gc gf ε, PatchRules m (F.faces.map (·.2)) gc gf ε →
      |internalForce inv m gc t q i - boundaryForce m gf t (F.faces.map (·.2)) q i| ≤ K * ε) ∧
    (∀ q, ∃ K, 0 ≤ K ∧ ∀ gc gf ε, PatchRules m (F.faces.map (·.2)) gc gf ε →
      |internalFlow inv m gc w q - boundaryFlow m gf w (F.faces.map (·.2)) q| ≤ K * ε) := by
  have hD := C74_mesh_3d hinv hF h h3 hc hG
  have hl : ∀ f ∈ F.faces.map (·.2), f.kind.ndim + 1 = m.ndim ∧ ∃ pad, featurePad m f = .ok pad := by
    intro f hf
    obtain ⟨e, he, rfl⟩ := List.mem_map.1 hf
    exact ⟨face_feature hF h3 e he, (hD fun _ _ => 0).2.1 e he⟩
  have hD' : ∀ v : Nat → Nat → ℝ, ∑ c ∈ fullCells m, cellDivergence inv m v c = ((F.faces.map (·.2)).map (featureFlux m v)).sum := by
    intro v
    rw [(hD v).2.2, List.map_map]
    rfl
  exact ⟨fun gc gf ε hr => patch_calls hinv h (.inr h3) hG hl hr t w, fun q i hi => patch_force hinv h (.inr h3) hG hl hD' t q i (by omega),
    fun q => patch_flow hinv h (.inr h3) hG hl hD' w q⟩

/-- **C75.** At a point that is on no boundary edge (a plane mesh) the assembled forces and flows vanish, up to the accuracy of the rules. -/
theorem C75_interior_2d {x : Extracted ℝ} {F : Features} (hinv : InverseSpec inv) (hF : IsNew m false x F) (h : ValidMesh m) (h2 : m.ndim = 2) (hc : ConformingEdges m)
    (hG : ∀ c ∈ fullCells m, ∀ pad, getPad m c = .ok pad → GradientOk inv pad) (t w : Nat → ℝ) (q : Nat) (hq : ∀ e ∈ F.edges, q ∉ e.2.points) :
    ∃ K, 0 ≤ K ∧ ∀ gc gf ε, PatchRules m (F.edges.map (·.2)) gc gf ε → (∀ i < 2, |internalForce inv m gc t q i| ≤ K * ε) ∧ |internalFlow inv m gc w q| ≤ K * ε := by
  obtain ⟨-, hf, hw⟩ := C75_patch_2d hinv hF h h2 hc hG t w
  obtain ⟨K0, n0, h0⟩ := hf q 0 (by omega)
  obtain ⟨K1, n1, h1⟩ := hf q 1 (by omega)
  obtain ⟨K2, n2, h2⟩ := hw q
  have hq' : ∀ f ∈ F.edges.map (·.2), q ∉ f.points := by
    intro f hf
    obtain ⟨e, he, rfl⟩ := List.mem_map.1 hf
    exact hq e he
  refine ⟨K0 + K1 + K2, by positivity, fun gc gf ε hr => ?_⟩
  have b0 := boundary_none (m := m) hq' gf t w
  have c0 := h0 gc gf ε hr
  have c1 := h1 gc gf ε hr
  have c2 := h2 gc gf ε hr
  rw [(b0 _).1, sub_zero] at c0 c1
  rw [(b0 0).2, sub_zero] at c2
  have p0 := (abs_nonneg _).trans c0
  have p1 := (abs_nonneg _).trans c1
  have p2 := (abs_nonneg _).trans c2
  rw [add_mul, add_mul]
  refine ⟨fun i hi => ?_, by linarith⟩
  rcases (by omega : i = 0 ∨ i = 1) with rfl | rfl <;> linarith

/-- **C75.** At a point that is on no boundary face (a mesh in space) the assembled forces and flows vanish, up to the accuracy of the rules. -/
theorem C75_interior_3d {x : Extracted ℝ} {F : Features} (hinv : InverseSpec inv) (hF : IsNew m false x F) (h : ValidMesh m) (h3 : m.ndim = 3) (hc : ConformingFaces m)
    (hG : ∀ c ∈ fullCells m, ∀ pad, getPad m c = .ok pad → GradientOk inv pad) (t w : Nat → ℝ) (q : Nat) (hq : ∀ e ∈ F.faces, q ∉ e.2.points) :
    ∃ K, 0 ≤ K ∧ ∀ gc gf ε, PatchRules m (F.faces.map (·.2)) gc gf ε → (∀ i < 3, |internalForce inv m gc t q i| ≤ K * ε) ∧ |internalFlow inv m gc w q| ≤ K * ε := by
  obtain ⟨-, hf, hw⟩ := C75_patch_3d hinv hF h h3 hc hG t w
  obtain ⟨K0, n0, h0⟩ := hf q 0 (by omega)
  obtain ⟨K1, n1, h1⟩ := hf q 1 (by omega)
  obtain ⟨K2, n2, h2⟩ := hf q 2 (by omega)
  obtain ⟨K3, n3, h3⟩ := hw q
  have hq' : ∀ f ∈ F.faces.map (·.2), q ∉ f.points := by
    intro f hf
    obtain ⟨e, he, rfl⟩ := List.mem_map.1 hf
    exact hq e he
  refine ⟨K0 + K1 + K2 + K3, by positivity, fun gc gf ε hr => ?_⟩
  have b0 := boundary_none (m := m) hq' gf t w
  have c0 := h0 gc gf ε hr
  have c1 := h1 gc gf ε hr
  have c2 := h2 gc gf ε hr
  have c3 := h3 gc gf ε hr
  rw [(b0 _).1, sub_zero] at c0 c1 c2
  rw [(b0 0).2, sub_zero] at c3
  have p0 := (abs_nonneg _).trans c0
  have p1 := (abs_nonneg _).trans c1
  have p2 := (abs_nonneg _).trans c2
  have p3 := (abs_nonneg _).trans c3
  rw [add_mul, add_mul, add_mul]
  refine ⟨fun i hi => ?_, by linarith⟩
  rcases (by omega : i = 0 ∨ i = 1 ∨ i = 2) with rfl | rfl | rfl <;> linarith

end
end Gemlab.Mesh
