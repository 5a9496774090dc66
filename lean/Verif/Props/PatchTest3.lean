import Verif.Props.PatchTest2
import Verif.Props.Divergence5
import Verif.Props.TriSurface2

/-! C75: from the displacements to the boundary, and an example (see `Props/PatchTest`). -/

namespace Gemlab.Mesh
open Gemlab.Shapes Gemlab.Spec Gemlab.GaussSpec Gemlab.Scratchpad Gemlab.Props.Features Gemlab.Props.Mesh Gemlab.Spec.Integ Gemlab.Spec.Analytical
noncomputable section

variable {inv : MatInverse} {m : Mesh ℝ}

/-- The patch test can compute the gradients at the integration points. -/
theorem patch_gradients (hinv : InverseSpec inv) (h : ValidMesh m) (hd : m.ndim = 2 ∨ m.ndim = 3)
    (hG : ∀ c ∈ fullCells m, ∀ pad, getPad m c = .ok pad → GradientOk inv pad) {l : List Feature} {gc : Nat → Gauss} {gf : Feature → Gauss} {ε : ℝ}
    (hr : PatchRules m l gc gf ε) : ∀ c ∈ fullCells m, ∀ pad, getPad m c = .ok pad → ∀ p < (gc c).npoint, ∃ r, pad.calcGradient inv ((gc c).coords p) = .ok r := by
  intro c hc pad hp p hpp
  obtain ⟨pad', hp', h1, -, -, h4, h5⟩ := patch_cells hinv h hd hG hr hc
  rw [hp, Res.ok.injEq] at hp'
  subst hp'
  obtain ⟨B, hB, -⟩ := rule_gradient hinv h1 h4 h5
  exact (hB p hpp).1

/-- **C75.** The patch test for the matrices, in the plane: nodal displacements that are a linear function of the position have, with the stiffness matrices
of `mat_10_bdb`, assembled, the nodal forces of the tractions of the corresponding constant stress on the boundary edges; nodal temperatures that are a
linear function of the position have, with the conductivity matrices of `mat_03_btb`, the nodal flows of the constant flux through the boundary edges. -/
theorem C75_displacement_2d {x : Extracted ℝ} {F : Features} (hinv : InverseSpec inv) (hF : IsNew m false x F) (h : ValidMesh m) (h2 : m.ndim = 2)
    (hc : ConformingEdges m) (hG : ∀ c ∈ fullCells m, ∀ pad, getPad m c = .ok pad → GradientOk inv pad) (q : Nat) :
    (∀ (D E : Nat → Nat → ℝ) (a t : Nat → ℝ), IsStressOf 2 D E t → ∀ i < 2, ∃ K, 0 ≤ K ∧ ∀ gc gf ε, PatchRules m (F.edges.map (·.2)) gc gf ε →
      |stiffnessForce inv m gc D (fun p j => a j + ∑ l ∈ Finset.range 2, E j l * (coordsOf m p).getD l 0) q i -
        boundaryForce m gf t (F.edges.map (·.2)) q i| ≤ K * ε) ∧
    (∀ (k : Nat → ℝ) (a : ℝ) (b : Nat → ℝ), ∃ K, 0 ≤ K ∧ ∀ gc gf ε, PatchRules m (F.edges.map (·.2)) gc gf ε →
      |conductivityFlow inv m gc k (fun p => a + ∑ l ∈ Finset.range 2, b l * (coordsOf m p).getD l 0) q -
        boundaryFlow m gf (fun i => ∑ j ∈ Finset.range 2, tensor2 k i j * b j) (F.edges.map (·.2)) q| ≤ K * ε) := by
  constructor
  · intro D E a t ht i hi
    obtain ⟨-, hf, -⟩ := C75_patch_2d hinv hF h h2 hc hG t fun _ => 0
    obtain ⟨K, h0, hK⟩ := hf q i hi
    refine ⟨K, h0, fun gc gf ε hr => ?_⟩
    have := C75_linear hinv h (.inl h2) gc (patch_gradients hinv h (.inl h2) hG hr) D E a t (h2 ▸ ht) q i (by omega)
    rw [h2] at this
    rw [this]
    exact hK gc gf ε hr
  · intro k a b
    obtain ⟨-, -, hf⟩ := C75_patch_2d hinv hF h h2 hc hG (fun _ => 0) fun i => ∑ j ∈ Finset.range 2, tensor2 k i j * b j
    obtain ⟨K, h0, hK⟩ := hf q
    refine ⟨K, h0, fun gc gf ε hr => ?_⟩
    have := C75_linear_flow hinv h (.inl h2) gc (patch_gradients hinv h (.inl h2) hG hr) k a b q
    rw [h2] at this
    rw [this]
    exact hK gc gf ε hr

/-- **C75.** The patch test for the matrices, in the space: nodal displacements that are a linear function of the position have, with the stiffness matrices
of `mat_10_bdb`, assembled, the nodal forces of the tractions of the corresponding constant stress on the boundary faces; nodal temperatures that are a
linear function of the position have, with the conductivity matrices of `mat_03_btb`, the nodal flows of the constant flux through the boundary faces. -/
theorem C75_displacement_3d {x : Extracted ℝ} {F : Features} (hinv : InverseSpec inv) (hF : IsNew m false x F) (h : ValidMesh m) (h2 : m.ndim = 3)
    (hc : ConformingFaces m) (hG : ∀ c ∈ fullCells m, ∀ pad, getPad m c = .ok pad → GradientOk inv pad) (q : Nat) :
    (∀ (D E : Nat → Nat → ℝ) (a t : Nat → ℝ), IsStressOf 3 D E t → ∀ i < 3, ∃ K, 0 ≤ K ∧ ∀ gc gf ε, PatchRules m (F.faces.map (·.2)) gc gf ε →
      |stiffnessForce inv m gc D (fun p j => a j + ∑ l ∈ Finset.range 3, E j l * (coordsOf m p).getD l 0) q i -
        boundaryForce m gf t (F.faces.map (·.2)) q i| ≤ K * ε) ∧
    (∀ (k : Nat → ℝ) (a : ℝ) (b : Nat → ℝ), ∃ K, 0 ≤ K ∧ ∀ gc gf ε, PatchRules m (F.faces.map (·.2)) gc gf ε →
      |conductivityFlow inv m gc k (fun p => a + ∑ l ∈ Finset.range 3, b l * (coordsOf m p).getD l 0) q -
        boundaryFlow m gf (fun i => ∑ j ∈ Finset.range 3, tensor2 k i j * b j) (F.faces.map (·.2)) q| ≤ K * ε) := by
  constructor
  · intro D E a t ht i hi
    obtain ⟨-, hf, -⟩ := C75_patch_3d hinv hF h h2 hc hG t fun _ => 0
    obtain ⟨K, h0, hK⟩ := hf q i hi
    refine ⟨K, h0, fun gc gf ε hr => ?_⟩
    have := C75_linear hinv h (.inr h2) gc (patch_gradients hinv h (.inr h2) hG hr) D E a t (h2 ▸ ht) q i (by omega)
    rw [h2] at this
    rw [this]
    exact hK gc gf ε hr
  · intro k a b
    obtain ⟨-, -, hf⟩ := C75_patch_3d hinv hF h h2 hc hG (fun _ => 0) fun i => ∑ j ∈ Finset.range 3, tensor2 k i j * b j
    obtain ⟨K, h0, hK⟩ := hf q
    refine ⟨K, h0, fun gc gf ε hr => ?_⟩
    have := C75_linear_flow hinv h (.inr h2) gc (patch_gradients hinv h (.inr h2) hG hr) k a b q
    rw [h2] at this
    rw [this]
    exact hK gc gf ε hr

/-- **C75.** The example of C74 (a square and a triangle) passes the patch test with the default rules. -/
theorem C75_example (o : Orders) (ho : o.Valid) : ∃ F, Features.new o quaTri false = .ok F ∧
    PatchRules quaTri (F.edges.map (·.2)) (defaultCellRule quaTri) defaultSideRule (7 / 10 ^ 15) ∧
    ∀ t : Nat → ℝ, ∀ q, ∀ i < 2, ∃ K, 0 ≤ K ∧ ∀ gc gf ε, PatchRules quaTri (F.edges.map (·.2)) gc gf ε →
      |internalForce exactInverse quaTri gc t q i - boundaryForce quaTri gf t (F.edges.map (·.2)) q i| ≤ K * ε := by
  obtain ⟨x, F, hF, hN⟩ := quaTri_new o ho
  have hr := C75_default_2d exactInverse_spec hN quaTri_valid rfl quaTri_conforming quaTri_gradient
  refine ⟨F, hF, hr, fun t q i hi => ?_⟩
  exact (C75_patch_2d exactInverse_spec hN quaTri_valid rfl quaTri_conforming quaTri_gradient t fun _ => 0).2.1 q i hi

/-- **C75.** In meshes of tetrahedra and hexahedra up to the second order, the patch test holds for the default rules, up to a multiple of 7·10⁻¹⁵. -/
theorem C75_default_3d {x : Extracted ℝ} {F : Features} (hF : IsNew m false x F) (h3 : m.ndim = 3)
    (hk : ∀ c ∈ m.cells, c.kind.ndim = 3 → c.kind ∈ [GeoKind.tet4, .tet10, .hex8, .hex20]) :
    PatchRules m (F.faces.map (·.2)) (defaultCellRule m) defaultSideRule (7 / 10 ^ 15) := by
  constructor
  · intro c hc cell hcell
    obtain ⟨-, cell', hcell', hd⟩ := Finset.mem_filter.1 hc
    rw [hcell, Option.some.injEq] at hcell'
    subst hcell'
    unfold defaultCellRule
    rw [hcell, Option.map_some, Option.getD_some]
    refine C75_default_cell _ (.inr (by omega)) fun h => ?_
    have := hk cell (List.mem_of_getElem? hcell) (by omega)
    rw [h] at this
    exact absurd this (by decide)
  · intro f hf
    obtain ⟨⟨key, f⟩, he, rfl⟩ := List.mem_map.1 hf
    refine C75_default_side _ (.inr ?_)
    obtain ⟨h2, _⟩ | ⟨_, hx⟩ := hF.extracted
    · omega
    have hn : (F.faces.map (·.1)).Nodup := (boundary_face_keys hF h3).1
    obtain ⟨c, e, hface, ⟨cell, hcell, hfk, -⟩, -⟩ := hx.data key f (by rw [← hF.faces]; exact HMap.get_of_mem hn he)
    have hd : cell.kind.ndim = 3 := by
      revert hfk
      generalize cell.kind = k
      cases k <;> first | (intro _; rfl) | (intro h; exact absurd h (by simp [GeoKind.faceKind]))
    have := hk cell (List.mem_of_getElem? hcell) hd
    revert this hfk
    dsimp only
    generalize cell.kind = k
    generalize f.kind = k'
    cases k <;> cases k' <;> decide

theorem exTet_conforming : ConformingFaces exTet :=
  ⟨fun key c e c' e' _ _ h1 h2 _ => .inl (exTet_one key c e c' e' h1 h2), fun key c f c' f' h1 h2 hne => absurd (exTet_one key c f c' f' h1 h2) hne⟩

theorem exTet_gradient : ∀ c ∈ fullCells exTet, ∀ pad, getPad exTet c = .ok pad → GradientOk exactInverse pad := by
  intro c hc pad hp
  obtain ⟨-, cell, hcell, hk⟩ := Finset.mem_filter.1 hc
  obtain ⟨pad', hp', hold⟩ := (C53_get_pad exTet exTet_valid c).1 cell hcell (.inr rfl) (by omega)
  rw [hp, Res.ok.injEq] at hp'
  subst hp'
  refine gradientOk_of_det (by rw [hold.kind, hold.space]; exact hk) hold.ok ?_
  intro r s t _
  have hl := (List.getElem?_eq_some_iff.1 hcell).1
  simp only [exTet, List.length_cons, List.length_nil, Nat.zero_add] at hl
  have h2 : pad.spaceNdim = 3 := hold.space
  rw [h2, detN_three]
  have hkk := hold.kind
  have hx : ∀ i < 3, ∀ j, ∑ n ∈ Finset.range pad.kind.nnode, pad.X n i * calcDeriv pad.kind (point r s t) n j =
      ∑ n ∈ Finset.range cell.kind.nnode, (coordsOf exTet (cell.points.getD n 0)).getD i 0 * calcDeriv cell.kind (point r s t) n j := by
    intro i hi j
    rw [hkk]
    exact Finset.sum_congr rfl fun n hn => by rw [hold.coords n i (Finset.mem_range.1 hn) hi]
  interval_cases c
  simp [exTet] at hcell
  subst hcell
  have e : ∀ i < 3, ∀ j < 3, ∑ n ∈ Finset.range pad.kind.nnode, pad.X n i * calcDeriv pad.kind (point r s t) n j = if i = j then 1 else 0 := by
    intro i hi j hj
    rw [hx i hi]
    refine Props.Shapes.C28_jacobian_affine .tet4 (fun n i => (coordsOf exTet (([0, 1, 2, 3] : List Nat).getD n 0)).getD i 0) (fun _ => 0) (fun i j => if i = j then 1 else 0) ?_ _ i j hj
    intro n hn i
    have hn' : n < 4 := hn
    show _ = _ + ∑ j ∈ Finset.range 3, _
    rw [Finset.sum_range_succ, Finset.sum_range_succ, Finset.sum_range_one]
    match i with
    | 0 => interval_cases n <;> simp [exTet, coordsOf, refCoord, refCoordQ, GeoKind.referenceCoords]
    | 1 => interval_cases n <;> simp [exTet, coordsOf, refCoord, refCoordQ, GeoKind.referenceCoords]
    | 2 => interval_cases n <;> simp [exTet, coordsOf, refCoord, refCoordQ, GeoKind.referenceCoords]
    | i + 3 => interval_cases n <;> simp [exTet, coordsOf]
  simp only [e _ (by decide : 0 < 3) _ (by decide : 0 < 3), e _ (by decide : 0 < 3) _ (by decide : 1 < 3), e _ (by decide : 0 < 3) _ (by decide : 2 < 3),
    e _ (by decide : 1 < 3) _ (by decide : 0 < 3), e _ (by decide : 1 < 3) _ (by decide : 1 < 3), e _ (by decide : 1 < 3) _ (by decide : 2 < 3),
    e _ (by decide : 2 < 3) _ (by decide : 0 < 3), e _ (by decide : 2 < 3) _ (by decide : 1 < 3), e _ (by decide : 2 < 3) _ (by decide : 2 < 3)]
  norm_num

/-- **C75.** A tetrahedron, with the default rules, and the patch test for it. -/
theorem C75_example_3d (o : Orders) (ho : o.Valid) : ∃ F, Features.new o exTet false = .ok F ∧
    PatchRules exTet (F.faces.map (·.2)) (defaultCellRule exTet) defaultSideRule (7 / 10 ^ 15) ∧
    ∀ t : Nat → ℝ, ∀ q, ∀ i < 3, ∃ K, 0 ≤ K ∧ ∀ gc gf ε, PatchRules exTet (F.faces.map (·.2)) gc gf ε →
      |internalForce exactInverse exTet gc t q i - boundaryForce exTet gf t (F.faces.map (·.2)) q i| ≤ K * ε := by
  obtain ⟨x, F, -, -, -, hF, hN, -⟩ := C60_example o ho id fun l => List.Perm.refl l
  exact ⟨F, hF, C75_default_3d hN rfl (by simp [exTet]), fun t q i hi =>
    (C75_patch_3d exactInverse_spec hN exTet_valid rfl exTet_conforming exTet_gradient t fun _ => 0).2.1 q i hi⟩

end
end Gemlab.Mesh
