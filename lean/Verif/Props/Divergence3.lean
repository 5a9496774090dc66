import Verif.Props.Divergence2

/-!
# C74 (continued): the volume of a mesh from its boundary, and the closedness of the boundary
-/
namespace Gemlab.Scratchpad
open Gemlab Gemlab.Shapes Gemlab.GaussSpec Gemlab.Spec Gemlab.Spec.Analytical
noncomputable section
variable {inv : MatInverse} {pad : Scratchpad} {v : Nat → Nat → ℝ}

theorem refIntegral_smul (cls : GeoClass) (a : ℝ) (f : ℝ → ℝ → ℝ → ℝ) : refIntegral cls (fun r s t => a * f r s t) = a * refIntegral cls f := by
  cases cls <;> simp only [refIntegral, intervalIntegral.integral_const_mul]

theorem refIntegral_zero (cls : GeoClass) : refIntegral cls (fun _ _ _ => 0) = 0 := by
  cases cls <;> simp only [refIntegral, intervalIntegral.integral_zero]

/-- The divergence of the position is the dimension of the space. -/
theorem totalDivergence_position (hinv : InverseSpec inv) (hG : GradientOk inv pad) (hv : ∀ n < pad.kind.nnode, ∀ i < pad.spaceNdim, v n i = pad.X n i) :
    totalDivergence inv pad v = pad.spaceNdim * totalMeasure inv pad := by
  unfold totalDivergence totalMeasure
  rw [← refIntegral_smul]
  refine refIntegral_congr _ fun r s t hr => ?_
  obtain ⟨⟨d, pad'⟩, hg⟩ := hG r s t hr
  obtain ⟨-, -, h1, -⟩ := C31_gradient hinv hg
  unfold divDensity
  rw [hg]
  dsimp only
  rw [mul_comm]
  congr 1
  rw [Finset.sum_comm]
  have : ∀ i ∈ Finset.range pad.spaceNdim, ∑ n ∈ Finset.range pad.kind.nnode, pad'.gradient n i * v n i = 1 := by
    intro i hi
    have hi := Finset.mem_range.1 hi
    have := h1 i hi i hi
    rw [if_pos rfl] at this
    rw [← this]
    exact Finset.sum_congr rfl fun n hn => by rw [hv n (Finset.mem_range.1 hn) i hi, mul_comm]
  rw [Finset.sum_congr rfl this]
  simp

/-- The divergence of a constant field is zero. -/
theorem totalDivergence_const (hinv : InverseSpec inv) (hG : GradientOk inv pad) (w : Nat → ℝ) : totalDivergence inv pad (fun _ => w) = 0 := by
  unfold totalDivergence
  rw [refIntegral_congr (g := fun _ _ _ => 0)]
  · exact refIntegral_zero _
  intro r s t hr
  obtain ⟨⟨d, pad'⟩, hg⟩ := hG r s t hr
  obtain ⟨-, -, -, h1⟩ := C31_gradient hinv hg
  unfold divDensity
  rw [hg]
  dsimp only
  rw [Finset.sum_comm, Finset.sum_eq_zero, mul_zero]
  intro i hi
  rw [← Finset.sum_mul, h1 i (Finset.mem_range.1 hi), zero_mul]

/-- The flux of a constant field of unit vectors is the component of the integrated normal. -/
theorem totalFlux_unit (i : Nat) (hi : i < pad.spaceNdim) : totalFlux pad (fun _ j => if j = i then 1 else 0) = totalNormal pad i := by
  unfold totalFlux totalNormal
  refine refIntegral_congr _ fun r s t _ => ?_
  unfold fluxDensity
  cases hN : pad.calcNormalVector pad.spaceNdim (point r s t) with
  | ok res =>
    obtain ⟨mag, un, pad'⟩ := res
    dsimp only
    congr 1
    have hP : ∀ c : ℝ, interpolate pad.kind (fun _ => c) (point r s t) = c := by
      intro c
      unfold interpolate
      rw [← Finset.sum_mul, Props.Shapes.C25_partition_of_unity, one_mul]
    simp only [hP]
    rw [Finset.sum_eq_single i]
    · simp
    · intro b _ hb; simp [hb]
    · intro h; exact absurd (Finset.mem_range.2 hi) h
  | err e => rfl
  | panic => rfl

end
end Gemlab.Scratchpad

namespace Gemlab.Mesh
open Gemlab.Shapes Gemlab.Spec Gemlab.Scratchpad Gemlab.Props.Features
noncomputable section
variable {m : Mesh ℝ} {inv : MatInverse}

theorem cellDivergence_position (hinv : InverseSpec inv) (h : ValidMesh m) (hd : m.ndim = 2 ∨ m.ndim = 3) (hG : ∀ c ∈ fullCells m, ∀ pad, getPad m c = .ok pad → GradientOk inv pad) :
    ∑ c ∈ fullCells m, cellDivergence inv m (fun p i => (coordsOf m p).getD i 0) c = m.ndim * ∑ c ∈ fullCells m, cellMeasure inv m c := by
  rw [Finset.mul_sum]
  refine Finset.sum_congr rfl fun c hc => ?_
  obtain ⟨-, cell, hcell, hk⟩ := Finset.mem_filter.1 hc
  obtain ⟨pad, hp, hold⟩ := (C53_get_pad m h c).1 cell hcell hd (by omega)
  unfold cellDivergence cellMeasure
  rw [hp]
  dsimp only
  rw [totalDivergence_position hinv (hG c hc pad hp), hold.space]
  intro n hn i hi
  rw [hold.kind] at hn
  rw [hold.space] at hi
  rw [hold.coords n i hn hi, nodeOf_eq hcell]

theorem cellDivergence_const (hinv : InverseSpec inv) (hG : ∀ c ∈ fullCells m, ∀ pad, getPad m c = .ok pad → GradientOk inv pad) (w : Nat → ℝ) :
    ∑ c ∈ fullCells m, cellDivergence inv m (fun _ => w) c = 0 := by
  refine Finset.sum_eq_zero fun c hc => ?_
  unfold cellDivergence
  cases hp : getPad m c with
  | ok pad => exact totalDivergence_const hinv (hG c hc pad hp) w
  | err e => rfl
  | panic => rfl

theorem featureFlux_unit (f : Feature) (i : Nat) (hi : i < m.ndim) (hs : ∀ pad, featurePad m f = .ok pad → pad.spaceNdim = m.ndim) :
    featureFlux m (fun _ j => if j = i then 1 else 0) f = featureNormal m i f := by
  unfold featureFlux featureNormal
  cases hp : featurePad m f with
  | ok pad => exact totalFlux_unit i (by rw [hs pad hp]; exact hi)
  | err e => rfl
  | panic => rfl

theorem featurePad_space {f : Feature} {pad : Scratchpad} (h : featurePad m f = .ok pad) : pad.spaceNdim = m.ndim := by
  unfold featurePad at h
  obtain ⟨pad0, h1, h2⟩ := Res.bind_eq_ok.1 h
  have e1 : pad0.spaceNdim = m.ndim := by
    unfold Scratchpad.new at h1
    split_ifs at h1
    rw [← Res.ok.inj h1]
  unfold setPad at h2
  split_ifs at h2
  refine Res.foldlM_ok_inv _ _ _ _ (fun _ (p : Scratchpad) => p.spaceNdim = m.ndim) e1 ?_ h2
  intro _ n p q _ hp hq
  refine Res.foldlM_ok_inv _ _ _ _ (fun _ (p : Scratchpad) => p.spaceNdim = m.ndim) hp ?_ hq
  intro _ j p q _ hp hq
  obtain ⟨_, -, hq⟩ := Res.bind_eq_ok.1 hq
  obtain ⟨_, -, hq⟩ := Res.bind_eq_ok.1 hq
  obtain ⟨_, -, hq⟩ := Res.bind_eq_ok.1 hq
  unfold Scratchpad.setXx at hq
  split_ifs at hq
  rw [← Res.ok.inj hq]
  exact hp

/-- **C74.** The area of a plane mesh is half of the flux of the position through its boundary. -/
theorem C74_area {x : Extracted ℝ} {F : Features} (hinv : InverseSpec inv) (hF : IsNew m false x F) (h : ValidMesh m) (h2 : m.ndim = 2) (hc : ConformingEdges m)
    (hG : ∀ c ∈ fullCells m, ∀ pad, getPad m c = .ok pad → GradientOk inv pad) :
    2 * ∑ c ∈ fullCells m, cellMeasure inv m c = (F.edges.map fun e => featureFlux m (fun p i => (coordsOf m p).getD i 0) e.2).sum := by
  rw [← (C74_mesh_2d hinv hF h h2 hc hG _).2.2, cellDivergence_position hinv h (.inl h2) hG, h2]
  norm_num

/-- **C74.** The volume of a mesh in space is a third of the flux of the position through its boundary. -/
theorem C74_volume {x : Extracted ℝ} {F : Features} (hinv : InverseSpec inv) (hF : IsNew m false x F) (h : ValidMesh m) (h3 : m.ndim = 3) (hc : ConformingFaces m)
    (hG : ∀ c ∈ fullCells m, ∀ pad, getPad m c = .ok pad → GradientOk inv pad) :
    3 * ∑ c ∈ fullCells m, cellMeasure inv m c = (F.faces.map fun e => featureFlux m (fun p i => (coordsOf m p).getD i 0) e.2).sum := by
  rw [← (C74_mesh_3d hinv hF h h3 hc hG _).2.2, cellDivergence_position hinv h (.inr h3) hG, h3]
  norm_num

/-- **C74.** The normals of the boundary edges of a plane mesh add up to zero. -/
theorem C74_normals_2d {x : Extracted ℝ} {F : Features} (hinv : InverseSpec inv) (hF : IsNew m false x F) (h : ValidMesh m) (h2 : m.ndim = 2) (hc : ConformingEdges m)
    (hG : ∀ c ∈ fullCells m, ∀ pad, getPad m c = .ok pad → GradientOk inv pad) (i : Nat) (hi : i < 2) : (F.edges.map fun e => featureNormal m i e.2).sum = 0 := by
  rw [← cellDivergence_const hinv hG (fun j => if j = i then 1 else 0), (C74_mesh_2d hinv hF h h2 hc hG _).2.2]
  congr 1
  exact List.map_congr_left fun e _ => (featureFlux_unit e.2 i (by omega) fun pad hp => featurePad_space hp).symm

/-- **C74.** The normals of the boundary faces of a mesh in space add up to zero. -/
theorem C74_normals_3d {x : Extracted ℝ} {F : Features} (hinv : InverseSpec inv) (hF : IsNew m false x F) (h : ValidMesh m) (h3 : m.ndim = 3) (hc : ConformingFaces m)
    (hG : ∀ c ∈ fullCells m, ∀ pad, getPad m c = .ok pad → GradientOk inv pad) (i : Nat) (hi : i < 3) : (F.faces.map fun e => featureNormal m i e.2).sum = 0 := by
  rw [← cellDivergence_const hinv hG (fun j => if j = i then 1 else 0), (C74_mesh_3d hinv hF h h3 hc hG _).2.2]
  congr 1
  exact List.map_congr_left fun e _ => (featureFlux_unit e.2 i (by omega) fun pad hp => featurePad_space hp).symm

end
end Gemlab.Mesh
