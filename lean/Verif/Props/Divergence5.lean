import Verif.Props.Divergence4
import Verif.Props.FeaturesQueries
import Verif.Props.Rectangle

/-!
# C74: an example that meets the hypotheses (a square and a triangle with a common edge)
-/
namespace Gemlab.Mesh
open Gemlab Gemlab.Shapes Gemlab.Spec Gemlab.Scratchpad Gemlab.Props.Features Gemlab.Spec.Analytical
noncomputable section

/-- With the exact inverse of a matrix, the gradient can be computed wherever the determinant is not zero. -/
theorem gradientOk_of_det {pad : Scratchpad} (hk : pad.kind.ndim = pad.spaceNdim) (hok : pad.okXxt = true)
    (h : ∀ r s t, GaussSpec.InReference pad.kind.classOf r s t → detN pad.spaceNdim (fun i j => ∑ m ∈ Finset.range pad.kind.nnode, pad.X m i * calcDeriv pad.kind (point r s t) m j) ≠ 0) :
    GradientOk exactInverse pad := by
  intro r s t hr
  have h1 := h r s t hr
  unfold calcGradient
  rw [if_neg (by omega)]
  unfold calcJacobian
  simp only [hok, Bool.not_true, Bool.false_eq_true, if_false, hk, if_true, ↓reduceIte, not_true_eq_false]
  unfold exactInverse
  rw [if_pos (show (pad.fillJacobian (point r s t)).kind.ndim = (pad.fillJacobian (point r s t)).spaceNdim from hk), if_neg (show ¬ detN (pad.fillJacobian (point r s t)).spaceNdim (pad.fillJacobian (point r s t)).jacobian = 0 from h1)]
  exact ⟨_, rfl⟩

/-- A square and a triangle with a common edge. -/
def quaTri : Mesh ℝ where
  ndim := 2
  points := [⟨0, 0, [0, 0]⟩, ⟨1, 0, [1, 0]⟩, ⟨2, 0, [1, 1]⟩, ⟨3, 0, [0, 1]⟩, ⟨4, 0, [2, 0]⟩]
  cells := [⟨0, 1, .qua4, [0, 1, 2, 3]⟩, ⟨1, 1, .tri3, [1, 4, 2]⟩]
  markedEdges := []
  markedFaces := []

theorem quaTri_valid : ValidMesh quaTri := by
  refine ⟨?_, ?_, ?_, ?_, ?_⟩
  · intro p hp; simp [quaTri] at hp; rcases hp with rfl | rfl | rfl | rfl | rfl <;> rfl
  · intro i p hp
    have : i < 5 := by by_contra hc; rw [List.getElem?_eq_none (by simp [quaTri]; omega)] at hp; simp at hp
    interval_cases i <;> simp [quaTri] at hp <;> subst hp <;> rfl
  · intro i c hc
    have : i < 2 := by by_contra hc'; rw [List.getElem?_eq_none (by simp [quaTri]; omega)] at hc; simp at hc
    interval_cases i <;> simp [quaTri] at hc <;> subst hc <;> rfl
  · intro c hc; simp [quaTri] at hc; rcases hc with rfl | rfl <;> rfl
  · intro c hc; simp [quaTri] at hc; rcases hc with rfl | rfl <;> decide

theorem quaTri_oriented : OrientedEdges quaTri := by
  intro c e c' e' cell cell' hc hc' _ _ he he' hends
  have hl := (List.getElem?_eq_some_iff.1 hc).1
  have hl' := (List.getElem?_eq_some_iff.1 hc').1
  simp only [quaTri, List.length_cons, List.length_nil, Nat.zero_add] at hl hl'
  interval_cases c <;> interval_cases c' <;> simp [quaTri] at hc hc' <;> subst hc <;> subst hc' <;> (try change e < 3 at he) <;> (try change e < 4 at he) <;> (try change e' < 3 at he') <;> (try change e' < 4 at he') <;>
    interval_cases e <;> interval_cases e' <;> revert hends <;> decide

theorem quaTri_conforming : ConformingEdges quaTri := by
  refine conforming_of_oriented quaTri_oriented ?_
  intro c hc _
  simp [quaTri] at hc
  rcases hc with rfl | rfl <;> rfl

theorem quaTri_one (c e : Nat) (key : EdgeKey) (hk : key = (0, 1) ∨ key = (0, 3)) (h : HasEdge quaTri key c e) : c = 0 ∧ (key = (0, 1) → e = 0) ∧ (key = (0, 3) → e = 3) := by
  obtain ⟨cell, a, b, hc, -, he, h0, h1, -, hab⟩ := h
  have hl := (List.getElem?_eq_some_iff.1 hc).1
  simp only [quaTri, List.length_cons, List.length_nil, Nat.zero_add] at hl
  interval_cases c <;> simp [quaTri] at hc <;> subst hc <;> (try change e < 3 at he) <;> (try change e < 4 at he) <;> interval_cases e <;>
    simp only [edgeNode, GeoKind.edgeNodeIds] at h0 h1 <;> simp at h0 h1 <;> subst h0 <;> subst h1 <;> rcases hk with rfl | rfl <;> simp_all

/-- The gradient can be computed at all points of both cells. -/
theorem quaTri_gradient : ∀ c ∈ fullCells quaTri, ∀ pad, getPad quaTri c = .ok pad → GradientOk exactInverse pad := by
  intro c hc pad hp
  obtain ⟨-, cell, hcell, hk⟩ := Finset.mem_filter.1 hc
  obtain ⟨pad', hp', hold⟩ := (C53_get_pad quaTri quaTri_valid c).1 cell hcell (.inl rfl) (by omega)
  rw [hp, Res.ok.injEq] at hp'
  subst hp'
  refine gradientOk_of_det (by rw [hold.kind, hold.space]; exact hk) hold.ok ?_
  intro r s t _
  have hl := (List.getElem?_eq_some_iff.1 hcell).1
  simp only [quaTri, List.length_cons, List.length_nil, Nat.zero_add] at hl
  have h2 : pad.spaceNdim = 2 := hold.space
  rw [h2, detN_two]
  have hkk := hold.kind
  have hx : ∀ i < 2, ∀ j, ∑ n ∈ Finset.range pad.kind.nnode, pad.X n i * calcDeriv pad.kind (point r s t) n j =
      ∑ n ∈ Finset.range cell.kind.nnode, (coordsOf quaTri (cell.points.getD n 0)).getD i 0 * calcDeriv cell.kind (point r s t) n j := by
    intro i hi j
    rw [hkk]
    exact Finset.sum_congr rfl fun n hn => by rw [hold.coords n i (Finset.mem_range.1 hn) hi]
  rw [hx 0 (by decide), hx 0 (by decide), hx 1 (by decide), hx 1 (by decide)]
  interval_cases c <;> simp [quaTri] at hcell <;> subst hcell
  · have e : ∀ i < 2, ∀ j < 2, ∑ n ∈ Finset.range (GeoKind.nnode .qua4), (coordsOf quaTri (([0, 1, 2, 3] : List Nat).getD n 0)).getD i 0 * calcDeriv .qua4 (point r s t) n j = if i = j then 1/2 else 0 := by
      intro i hi j hj
      refine Props.Shapes.C28_jacobian_affine .qua4 (fun n i => (coordsOf quaTri (([0, 1, 2, 3] : List Nat).getD n 0)).getD i 0) (fun i => if i < 2 then 1/2 else 0) (fun i j => if i = j then 1/2 else 0) ?_ _ i j hj
      intro n hn i
      have hn' : n < 4 := hn
      show _ = _ + ∑ j ∈ Finset.range 2, _
      rw [Finset.sum_range_succ, Finset.sum_range_one]
      match i with
      | 0 => interval_cases n <;> simp [quaTri, coordsOf, refCoord, refCoordQ, GeoKind.referenceCoords] <;> norm_num
      | 1 => interval_cases n <;> simp [quaTri, coordsOf, refCoord, refCoordQ, GeoKind.referenceCoords] <;> norm_num
      | i + 2 => interval_cases n <;> simp [quaTri, coordsOf]
    rw [e 0 (by decide) 0 (by decide), e 0 (by decide) 1 (by decide), e 1 (by decide) 0 (by decide), e 1 (by decide) 1 (by decide)]
    norm_num
  · have e : ∀ i < 2, ∀ j < 2, ∑ n ∈ Finset.range (GeoKind.nnode .tri3), (coordsOf quaTri (([1, 4, 2] : List Nat).getD n 0)).getD i 0 * calcDeriv .tri3 (point r s t) n j = if i = j then 1 else 0 := by
      intro i hi j hj
      refine Props.Shapes.C28_jacobian_affine .tri3 (fun n i => (coordsOf quaTri (([1, 4, 2] : List Nat).getD n 0)).getD i 0) (fun i => if i = 0 then 1 else 0) (fun i j => if i = j then 1 else 0) ?_ _ i j hj
      intro n hn i
      have hn' : n < 3 := hn
      show _ = _ + ∑ j ∈ Finset.range 2, _
      rw [Finset.sum_range_succ, Finset.sum_range_one]
      match i with
      | 0 => interval_cases n <;> simp [quaTri, coordsOf, refCoord, refCoordQ, GeoKind.referenceCoords] <;> norm_num
      | 1 => interval_cases n <;> simp [quaTri, coordsOf, refCoord, refCoordQ, GeoKind.referenceCoords] <;> norm_num
      | i + 2 => interval_cases n <;> simp [quaTri, coordsOf]
    rw [e 0 (by decide) 0 (by decide), e 0 (by decide) 1 (by decide), e 1 (by decide) 0 (by decide), e 1 (by decide) 1 (by decide)]
    norm_num

/-- The features of the example can be computed. -/
theorem quaTri_new (o : Orders) (ho : o.Valid) : ∃ (x : Extracted ℝ) (F : Features), Features.new o quaTri false = .ok F ∧ IsNew quaTri false x F := by
  obtain ⟨x, hx, h1, _⟩ := C47_new quaTri quaTri_valid (Or.inl rfl) (by
    have hb : (2 : ℝ) ≤ f64Max := le_trans (by norm_num) Gemlab.Structured.three_le_f64Max
    have : ∀ p ∈ quaTri.points, ∀ v ∈ p.coords, (0 : ℝ) ≤ v ∧ v ≤ 2 := by simp [quaTri]
    intro p hp v hv
    have := this p hp v hv
    constructor <;> linarith) o ho false
  obtain ⟨_, hx2⟩ | ⟨h3, _⟩ := id hx
  swap
  · simp [quaTri] at h3
  have he01 : HasEdge quaTri (0, 1) 0 0 := ⟨_, 1, 0, rfl, rfl, by decide, rfl, rfl, by decide, by decide⟩
  have he03 : HasEdge quaTri (0, 3) 0 3 := ⟨_, 0, 3, rfl, rfl, by decide, rfl, rfl, by decide, by decide⟩
  have o01 : ExactlyOne (HasEdge quaTri (0, 1)) := ⟨0, 0, he01, fun c e h => ⟨(quaTri_one c e _ (.inl rfl) h).1, (quaTri_one c e _ (.inl rfl) h).2.1 rfl⟩⟩
  have o03 : ExactlyOne (HasEdge quaTri (0, 3)) := ⟨0, 3, he03, fun c e h => ⟨(quaTri_one c e _ (.inr rfl) h).1, (quaTri_one c e _ (.inr rfl) h).2.2 rfl⟩⟩
  obtain ⟨f01, hf01⟩ := Option.isSome_iff_exists.1 ((hx2.accepted (0, 1)).2 ⟨⟨0, 0, he01⟩, Or.inr o01⟩)
  obtain ⟨f03, hf03⟩ := Option.isSome_iff_exists.1 ((hx2.accepted (0, 3)).2 ⟨⟨0, 3, he03⟩, Or.inr o03⟩)
  obtain ⟨_, a1, a2, _, a3, _⟩ := edge_key_points quaTri_valid hx hf01
  obtain ⟨_, b1, b2, _, b3, _⟩ := edge_key_points quaTri_valid hx hf03
  obtain ⟨F, hF, hN⟩ := h1 (by
    intro i hi
    change i < 2 at hi
    interval_cases i
    · exact ⟨0, 1, Or.inl (a3 _ a1), Or.inl (a3 _ a2), by simp [coordsOf, quaTri]⟩
    · exact ⟨0, 3, Or.inl (b3 _ b1), Or.inl (b3 _ b2), by simp [coordsOf, quaTri]⟩)
  exact ⟨x, F, hF, hN⟩

/-- **C74.** The divergence theorem applies to the example, whatever the vectors at the points. -/
theorem C74_example (o : Orders) (ho : o.Valid) : ∃ F, Features.new o quaTri false = .ok F ∧
    (∀ v : Nat → Nat → ℝ, ∑ c ∈ fullCells quaTri, cellDivergence exactInverse quaTri v c = (F.edges.map fun e => featureFlux quaTri v e.2).sum) ∧
    2 * ∑ c ∈ fullCells quaTri, cellMeasure exactInverse quaTri c = (F.edges.map fun e => featureFlux quaTri (fun p i => (coordsOf quaTri p).getD i 0) e.2).sum ∧
    ∀ i < 2, (F.edges.map fun e => featureNormal quaTri i e.2).sum = 0 := by
  obtain ⟨x, F, hF, hN⟩ := quaTri_new o ho
  exact ⟨F, hF, fun v => (C74_mesh_2d exactInverse_spec hN quaTri_valid rfl quaTri_conforming quaTri_gradient v).2.2,
    C74_area exactInverse_spec hN quaTri_valid rfl quaTri_conforming quaTri_gradient, fun i hi => C74_normals_2d exactInverse_spec hN quaTri_valid rfl quaTri_conforming quaTri_gradient i hi⟩

end
end Gemlab.Mesh
