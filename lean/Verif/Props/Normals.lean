import Verif.Props.Scratchpad
import Verif.Props.MeshPad
import Verif.Spec.Normals
import Verif.Proofs.PolyCurve
import Mathlib.Analysis.Calculus.Deriv.Slope

/-!
# C63: normals are outward
-/
namespace Gemlab.Scratchpad
noncomputable section
open Gemlab Gemlab.Shapes Gemlab.Spec

theorem towards_zero (a b : Nat → ℝ) : towards a b 0 = a := by funext i; simp [towards]

theorem hasDerivAt_affine (a b t : ℝ) : HasDerivAt (fun s => a + s * b) b t := by
  simpa using ((hasDerivAt_id' t).mul_const b).const_add a

theorem outward_of_neg {dim : Nat} {k : GeoKind} {X : Nat → Nat → ℝ} {a n : Nat → ℝ}
    (h : ∀ b, StrictlyInside k.classOf b → ∑ i ∈ Finset.range dim, n i * ∑ j ∈ Finset.range k.ndim, jac k X a i j * (b j - a j) < 0) :
    PointsOutward dim k X a n := by
  intro b hb
  have hlin : ∀ i < k.ndim, HasDerivAt (fun t => towards a b t i) (b i - a i) 0 := by
    intro i _
    unfold towards
    exact hasDerivAt_affine _ _ _
  have hd : HasDerivAt (fun t => ∑ i ∈ Finset.range dim, n i * (Shapes.calcCoords k X (towards a b t) i - Shapes.calcCoords k X a i))
      (∑ i ∈ Finset.range dim, n i * ∑ j ∈ Finset.range k.ndim, jac k X a i j * (b j - a j)) 0 := by
    apply HasDerivAt.fun_sum
    intro i _
    apply HasDerivAt.const_mul
    have h1 := (calcCoords_curve k X (γ := towards a b) hlin i).sub_const (Shapes.calcCoords k X a i)
    rw [towards_zero] at h1
    exact h1
  have hs := hd.tendsto_slope
  have hn := hs.eventually (gt_mem_nhds (h b hb))
  rw [eventually_nhdsWithin_iff, Metric.eventually_nhds_iff] at hn
  obtain ⟨ε, he, hn⟩ := hn
  refine ⟨ε, he, fun t ht hte => ?_⟩
  have h1 := hn (y := t) (by rw [Real.dist_eq, sub_zero, abs_of_pos ht]; exact hte) (by simpa using ht.ne')
  rw [slope_def_field] at h1
  simp only [towards_zero, sub_self, mul_zero, Finset.sum_const_zero, sub_zero] at h1
  rw [div_lt_iff₀ ht, zero_mul] at h1
  exact h1

theorem quarter_inside (c : GeoClass) : StrictlyInside c (fun _ => 1/4) := by
  cases c <;> simp only [StrictlyInside] <;> norm_num

theorem detN_two (a : Nat → Nat → ℝ) : detN 2 a = a 0 0 * a 1 1 - a 0 1 * a 1 0 := by
  unfold detN; rw [Matrix.det_fin_two]; rfl

theorem detN_three (a : Nat → Nat → ℝ) : detN 3 a = a 0 0 * a 1 1 * a 2 2 - a 0 0 * a 1 2 * a 2 1 - a 0 1 * a 1 0 * a 2 2
    + a 0 1 * a 1 2 * a 2 0 + a 0 2 * a 1 0 * a 2 1 - a 0 2 * a 1 1 * a 2 0 := by
  unfold detN; rw [Matrix.det_fin_three]; rfl

/-- Direction of a local edge. -/
def edgeDir (k : GeoKind) (e i : Nat) : ℝ := (refCoord k (edgeNode k e 1) i - refCoord k (edgeNode k e 0) i) / 2

theorem edge_ends (k : GeoKind) (h2 : k.ndim = 2) : ∀ e < k.nedge,
    (k.classOf = .tri ∧ (refCoordQ k (edgeNode k e 0) 0, refCoordQ k (edgeNode k e 0) 1, refCoordQ k (edgeNode k e 1) 0, refCoordQ k (edgeNode k e 1) 1) ∈
      ([(1, 0, 0, 0), (0, 1, 1, 0), (0, 0, 0, 1)] : List (ℚ × ℚ × ℚ × ℚ))) ∨
    (k.classOf = .qua ∧ (refCoordQ k (edgeNode k e 0) 0, refCoordQ k (edgeNode k e 0) 1, refCoordQ k (edgeNode k e 1) 0, refCoordQ k (edgeNode k e 1) 1) ∈
      ([(1, -1, -1, -1), (1, 1, 1, -1), (-1, 1, 1, 1), (-1, -1, -1, 1)] : List (ℚ × ℚ × ℚ × ℚ))) := by
  cases k <;> first | exact absurd h2 (by decide) | decide +kernel

theorem edge_sign {k : GeoKind} (h2 : k.ndim = 2) {e : Nat} (he : e < k.nedge) (η : ℝ) {b : Nat → ℝ} (hb : StrictlyInside k.classOf b) :
    edgeDir k e 0 * (b 1 - edgePoint k e η 1) - edgeDir k e 1 * (b 0 - edgePoint k e η 0) < 0 := by
  unfold edgeDir edgePoint refCoord
  obtain ⟨hc, h⟩ | ⟨hc, h⟩ := edge_ends k h2 e he <;> rw [hc] at hb <;> simp only [StrictlyInside] at hb <;>
    simp only [List.mem_cons, Prod.mk.injEq, List.mem_nil_iff, or_false] at h
  · rcases h with ⟨h1, h3, h4, h5⟩ | ⟨h1, h3, h4, h5⟩ | ⟨h1, h3, h4, h5⟩ <;> rw [h1, h3, h4, h5] <;> push_cast <;> nlinarith
  · rcases h with ⟨h1, h3, h4, h5⟩ | ⟨h1, h3, h4, h5⟩ | ⟨h1, h3, h4, h5⟩ | ⟨h1, h3, h4, h5⟩ <;> rw [h1, h3, h4, h5] <;> push_cast <;> nlinarith

theorem interpolate_eq (k : GeoKind) (X : Nat → Nat → ℝ) (ξ : Nat → ℝ) (i : Nat) : Shapes.calcCoords k X ξ i = interpolate k (fun m => X m i) ξ := by
  unfold Shapes.calcCoords interpolate
  exact Finset.sum_congr rfl fun m _ => mul_comm _ _

/-- The tangent of an edge is the Jacobian applied to the direction of the edge in the reference cell. -/
theorem edge_tangent {k : GeoKind} {X : Nat → Nat → ℝ} {pe : Scratchpad} {e : Nat} (hek : k.edgeKind = some pe.kind) (he : e < k.nedge) {i : Nat}
    (hX : ∀ j < pe.kind.nnode, pe.X j i = X (edgeNode k e j) i) (ksi : Nat → ℝ) :
    tangent pe ksi 0 i = ∑ j ∈ Finset.range k.ndim, jac k X (edgePoint k e (ksi 0)) i j * edgeDir k e j := by
  have hn1 : pe.kind.ndim = 1 := by
    have := (edgeKind_nnode k _ hek).2
    generalize pe.kind = q at this
    cases q <;> first | rfl | exact absurd this (by decide)
  have h1 := C32_tangent pe ksi (a := 0) (by omega) i
  have h2 := calcCoords_curve k X (γ := fun v => edgePoint k e v) (γ' := edgeDir k e) (t := ksi 0) (fun j _ => by
    unfold edgePoint edgeDir
    have e1 : (fun s : ℝ => (1 - s) / 2 * refCoord k (edgeNode k e 0) j + (1 + s) / 2 * refCoord k (edgeNode k e 1) j) =
      fun s => ((refCoord k (edgeNode k e 0) j + refCoord k (edgeNode k e 1) j) / 2 : ℝ) + s * ((refCoord k (edgeNode k e 1) j - refCoord k (edgeNode k e 0) j) / 2) := by
      funext s; ring
    rw [e1]
    exact hasDerivAt_affine _ _ _) i
  have h3 : (fun v => Shapes.calcCoords pe.kind pe.X (Function.update ksi 0 v) i) = fun v => Shapes.calcCoords k X (edgePoint k e v) i := by
    funext v
    rw [interpolate_eq k, interpolate_edge k _ hek e he, interpolate_eq]
    unfold interpolate
    apply Finset.sum_congr rfl
    intro m hm
    dsimp only
    rw [hX m (Finset.mem_range.1 hm), calcInterp_congr pe.kind (ξ' := vec1 v) _ (Finset.mem_range.1 hm)]
    intro j hj
    rw [hn1] at hj
    interval_cases j
    simp [vec1]
  rw [h3] at h1
  exact h1.unique h2

theorem edge_outward {k : GeoKind} {X : Nat → Nat → ℝ} {pe pe' : Scratchpad} {e n : Nat} {ksi un : Nat → ℝ} {mag : ℝ}
    (hk : k.ndim = 2) (he : e < k.nedge) (hpe : pe.spaceNdim = 2) (hek : k.edgeKind = some pe.kind)
    (hX : ∀ j < pe.kind.nnode, ∀ i < 2, pe.X j i = X (edgeNode k e j) i) (hd : 0 < detN 2 (jac k X (edgePoint k e (ksi 0))))
    (hN : calcNormalVector pe n ksi = .ok (mag, un, pe')) :
    0 < mag ∧ dotN 2 un un = 1 ∧ dotN 2 un (tangent pe ksi 0) = 0 ∧ PointsOutward 2 k X (edgePoint k e (ksi 0)) un := by
  obtain ⟨n1, -, n2, n3, n4, n5⟩ := C32_line_2d hpe hN
  have hm0 : 0 ≤ mag := by rw [n1]; exact Real.sqrt_nonneg _
  have t0 := edge_tangent (X := X) hek he (fun j hj => hX j hj 0 (by omega)) ksi
  have t1 := edge_tangent (X := X) hek he (fun j hj => hX j hj 1 (by omega)) ksi
  rw [hk] at t0 t1
  have key : ∀ b : Nat → ℝ, mag * ∑ i ∈ Finset.range 2, un i * ∑ j ∈ Finset.range 2, jac k X (edgePoint k e (ksi 0)) i j * (b j - edgePoint k e (ksi 0) j)
      = detN 2 (jac k X (edgePoint k e (ksi 0))) * (edgeDir k e 0 * (b 1 - edgePoint k e (ksi 0) 1) - edgeDir k e 1 * (b 0 - edgePoint k e (ksi 0) 0)) := by
    intro b
    rw [detN_two]
    generalize jac k X (edgePoint k e (ksi 0)) = J at *
    simp only [Finset.sum_range_succ, Finset.sum_range_zero, zero_add] at t0 t1 ⊢
    rw [t1] at n4
    rw [t0] at n5
    linear_combination (J 0 0 * (b 0 - edgePoint k e (ksi 0) 0) + J 0 1 * (b 1 - edgePoint k e (ksi 0) 1)) * n4 +
      (J 1 0 * (b 0 - edgePoint k e (ksi 0) 0) + J 1 1 * (b 1 - edgePoint k e (ksi 0) 1)) * n5
  have hm : 0 < mag := by
    refine lt_of_le_of_ne hm0 fun h0 => ?_
    have h1 := key (fun _ => 1/4)
    rw [← h0, zero_mul] at h1
    have h2 := mul_neg_of_pos_of_neg hd (edge_sign hk he (ksi 0) (quarter_inside k.classOf))
    linarith
  refine ⟨hm, n3 hm.ne', n2, outward_of_neg fun b hb => ?_⟩
  rw [hk]
  have h2 := mul_neg_of_pos_of_neg hd (edge_sign hk he (ksi 0) hb)
  rw [← key b] at h2
  exact (pos_iff_neg_of_mul_neg h2).1 hm

/-- **C63.** In the plane: the normal computed on a pad holding the nodes of a local edge of a cell, in the order given by `edge_node_id`,
is a unit vector, orthogonal to the edge, and points out of the cell, wherever the determinant of the Jacobian of the cell is positive. -/
theorem C63_edge_outward {inv : MatInverse} (hinv : InverseSpec inv) {pc pc' pe pe' : Scratchpad} {e n : Nat} {ksi un : Nat → ℝ} {d mag : ℝ}
    (hc : pc.spaceNdim = 2) (hk : pc.kind.ndim = 2) (he : e < pc.kind.nedge) (hpe : pe.spaceNdim = 2) (hek : pc.kind.edgeKind = some pe.kind)
    (hX : ∀ j < pe.kind.nnode, ∀ i < 2, pe.X j i = pc.X (edgeNode pc.kind e j) i)
    (hJ : calcJacobian inv pc (edgePoint pc.kind e (ksi 0)) = .ok (d, pc')) (hd : 0 < d)
    (hN : calcNormalVector pe n ksi = .ok (mag, un, pe')) :
    0 < mag ∧ dotN 2 un un = 1 ∧ dotN 2 un (tangent pe ksi 0) = 0 ∧ PointsOutward 2 pc.kind pc.X (edgePoint pc.kind e (ksi 0)) un := by
  have hdet : d = detN 2 (jac pc.kind pc.X (edgePoint pc.kind e (ksi 0))) := by
    have := ((C31_det hinv hJ).1 (by omega)).1
    rw [hc] at this
    rw [this]
    obtain ⟨_, ⟨_, ji, _, rfl⟩ | ⟨_, rfl, _⟩⟩ := calcJacobian_ok hJ <;> rfl
  exact edge_outward hk he hpe hek hX (hdet ▸ hd) hN

/-- Directions of the two coordinate lines of a local face. -/
def faceDirQ (k : GeoKind) (f a i : Nat) : ℚ :=
  if k.classOf = .tet then refCoordQ k (faceNode k f (a + 1)) i - refCoordQ k (faceNode k f 0) i
  else (refCoordQ k (faceNode k f (2 * a + 1)) i - refCoordQ k (faceNode k f 0) i) / 2

theorem facePoint_eq {k fk : GeoKind} (hk : k.faceKind = some fk) {f i : Nat} (hf : f < k.nface) (hi : i < k.ndim) (η : Nat → ℝ) :
    facePoint k f η i = refCoordQ k (faceNode k f 0) i + (if k.classOf = .tet then η 0 else 1 + η 0) * faceDirQ k f 0 i
      + (if k.classOf = .tet then η 1 else 1 + η 1) * faceDirQ k f 1 i := by
  unfold facePoint faceDirQ
  obtain ⟨hc, -⟩ | ⟨hc, -⟩ := faceKind_class k fk hk
  · simp only [hc, if_true, triFacePoint, refCoord]
    push_cast
    ring
  · have c3 : ¬ (GeoClass.hex = GeoClass.tet) := by simp
    simp only [hc, c3, if_false, quaFacePoint, refCoord]
    have hq : (refCoordQ k (faceNode k f 0) i : ℝ) + refCoordQ k (faceNode k f 2) i
        = refCoordQ k (faceNode k f 1) i + refCoordQ k (faceNode k f 3) i := by
      exact_mod_cast quaFace_opposite k f i hc hf hi
    push_cast
    linear_combination ((1 + η 0) * (1 + η 1) / 4) * hq

/-- Normal vectors of the faces of the reference cells, and the position of the face along this normal. -/
def faceRef (k : GeoKind) (f : Nat) : ℚ × ℚ × ℚ × ℚ :=
  let s := faceDirQ k f 0
  let t := faceDirQ k f 1
  let r := refCoordQ k (faceNode k f 0)
  (s 1 * t 2 - s 2 * t 1, s 2 * t 0 - s 0 * t 2, s 0 * t 1 - s 1 * t 0,
    (s 1 * t 2 - s 2 * t 1) * r 0 + (s 2 * t 0 - s 0 * t 2) * r 1 + (s 0 * t 1 - s 1 * t 0) * r 2)

theorem face_table (k : GeoKind) (h3 : k.ndim = 3) : ∀ f < k.nface,
    (k.classOf = .tet ∧ faceRef k f ∈ ([(-1, 0, 0, 0), (0, -1, 0, 0), (0, 0, -1, 0), (1, 1, 1, 1)] : List (ℚ × ℚ × ℚ × ℚ))) ∨
    (k.classOf = .hex ∧ faceRef k f ∈ ([(-1, 0, 0, 1), (1, 0, 0, 1), (0, -1, 0, 1), (0, 1, 0, 1), (0, 0, -1, 1), (0, 0, 1, 1)] : List (ℚ × ℚ × ℚ × ℚ))) := by
  cases k <;> first | exact absurd h3 (by decide) | decide +kernel

theorem face_sign {k fk : GeoKind} (hk : k.faceKind = some fk) (h3 : k.ndim = 3) {f : Nat} (hf : f < k.nface) (η : Nat → ℝ) {b : Nat → ℝ}
    (hb : StrictlyInside k.classOf b) :
    ((faceDirQ k f 0 1 * faceDirQ k f 1 2 - faceDirQ k f 0 2 * faceDirQ k f 1 1 : ℚ) : ℝ) * (b 0 - facePoint k f η 0) +
    ((faceDirQ k f 0 2 * faceDirQ k f 1 0 - faceDirQ k f 0 0 * faceDirQ k f 1 2 : ℚ) : ℝ) * (b 1 - facePoint k f η 1) +
    ((faceDirQ k f 0 0 * faceDirQ k f 1 1 - faceDirQ k f 0 1 * faceDirQ k f 1 0 : ℚ) : ℝ) * (b 2 - facePoint k f η 2) < 0 := by
  have e0 : ((faceDirQ k f 0 1 * faceDirQ k f 1 2 - faceDirQ k f 0 2 * faceDirQ k f 1 1 : ℚ) : ℝ) * (b 0 - facePoint k f η 0) +
    ((faceDirQ k f 0 2 * faceDirQ k f 1 0 - faceDirQ k f 0 0 * faceDirQ k f 1 2 : ℚ) : ℝ) * (b 1 - facePoint k f η 1) +
    ((faceDirQ k f 0 0 * faceDirQ k f 1 1 - faceDirQ k f 0 1 * faceDirQ k f 1 0 : ℚ) : ℝ) * (b 2 - facePoint k f η 2) =
    ((faceRef k f).1 : ℝ) * b 0 + ((faceRef k f).2.1 : ℝ) * b 1 + ((faceRef k f).2.2.1 : ℝ) * b 2 - ((faceRef k f).2.2.2 : ℝ) := by
    rw [facePoint_eq hk hf (by omega), facePoint_eq hk hf (by omega), facePoint_eq hk hf (by omega)]
    simp only [faceRef]
    push_cast
    ring
  rw [e0]
  obtain ⟨hc, h⟩ | ⟨hc, h⟩ := face_table k h3 f hf <;> rw [hc] at hb <;> simp only [StrictlyInside] at hb <;>
    simp only [List.mem_cons, List.mem_nil_iff, or_false] at h
  · rcases h with h | h | h | h <;> rw [h] <;> push_cast <;> linarith
  · rcases h with h | h | h | h | h | h <;> rw [h] <;> push_cast <;> linarith

/-- The tangents of a face are the Jacobian applied to the directions of the face in the reference cell. -/
theorem face_tangent {k : GeoKind} {X : Nat → Nat → ℝ} {pf : Scratchpad} {f : Nat} (hfk : k.faceKind = some pf.kind) (hf : f < k.nface) {i a : Nat}
    (ha : a < 2) (hX : ∀ j < pf.kind.nnode, pf.X j i = X (faceNode k f j) i) (ksi : Nat → ℝ) :
    tangent pf ksi a i = ∑ j ∈ Finset.range k.ndim, jac k X (facePoint k f ksi) i j * faceDirQ k f a j := by
  have hn2 : pf.kind.ndim = 2 := by
    obtain ⟨-, h⟩ | ⟨-, h⟩ := faceKind_class k _ hfk <;> (generalize pf.kind = q at h; cases q <;> first | rfl | exact absurd h (by decide))
  have h1 := C32_tangent pf ksi (a := a) (by omega) i
  have h2 := calcCoords_curve k X (γ := fun v => facePoint k f (Function.update ksi a v)) (γ' := fun j => (faceDirQ k f a j : ℝ)) (t := ksi a)
    (fun j hj => by
      have e1 : (fun s : ℝ => facePoint k f (Function.update ksi a s) j) =
        fun s => (facePoint k f ksi j - ksi a * faceDirQ k f a j) + s * (faceDirQ k f a j : ℝ) := by
        funext s
        rw [facePoint_eq hfk hf hj, facePoint_eq hfk hf hj]
        interval_cases a
        · simp only [Function.update_self, Function.update_of_ne (show (1 : Nat) ≠ 0 by decide)]
          split <;> ring
        · simp only [Function.update_self, Function.update_of_ne (show (0 : Nat) ≠ 1 by decide)]
          split <;> ring
      rw [e1]
      exact hasDerivAt_affine _ _ _) i
  have h3 : (fun v => Shapes.calcCoords pf.kind pf.X (Function.update ksi a v) i) =
      fun v => Shapes.calcCoords k X (facePoint k f (Function.update ksi a v)) i := by
    funext v
    rw [interpolate_eq k, interpolate_face k _ hfk f hf, interpolate_eq]
    unfold interpolate
    apply Finset.sum_congr rfl
    intro m hm
    dsimp only
    rw [hX m (Finset.mem_range.1 hm)]
  rw [h3] at h1
  rw [Function.update_eq_self] at h2
  exact h1.unique h2

theorem face_outward {k : GeoKind} {X : Nat → Nat → ℝ} {pf pf' : Scratchpad} {f n : Nat} {ksi un : Nat → ℝ} {mag : ℝ}
    (hk : k.ndim = 3) (hf : f < k.nface) (hpf : pf.spaceNdim = 3) (hfk : k.faceKind = some pf.kind)
    (hX : ∀ j < pf.kind.nnode, ∀ i < 3, pf.X j i = X (faceNode k f j) i) (hd : 0 < detN 3 (jac k X (facePoint k f ksi)))
    (hN : calcNormalVector pf n ksi = .ok (mag, un, pf')) :
    0 < mag ∧ dotN 3 un un = 1 ∧ dotN 3 un (tangent pf ksi 0) = 0 ∧ dotN 3 un (tangent pf ksi 1) = 0 ∧
      PointsOutward 3 k X (facePoint k f ksi) un := by
  obtain ⟨hm0, -, o0, o1, n3, n4, n5, n6⟩ := C32_surface_3d hpf hN
  have t : ∀ a < 2, ∀ i < 3, tangent pf ksi a i = ∑ j ∈ Finset.range 3, jac k X (facePoint k f ksi) i j * faceDirQ k f a j := by
    intro a ha i hi
    rw [face_tangent (X := X) hfk hf ha (fun j hj => hX j hj i hi) ksi, hk]
  have key : ∀ b : Nat → ℝ, mag * ∑ i ∈ Finset.range 3, un i * ∑ j ∈ Finset.range 3, jac k X (facePoint k f ksi) i j * (b j - facePoint k f ksi j)
      = detN 3 (jac k X (facePoint k f ksi)) * (((faceDirQ k f 0 1 * faceDirQ k f 1 2 - faceDirQ k f 0 2 * faceDirQ k f 1 1 : ℚ) : ℝ) * (b 0 - facePoint k f ksi 0) +
    ((faceDirQ k f 0 2 * faceDirQ k f 1 0 - faceDirQ k f 0 0 * faceDirQ k f 1 2 : ℚ) : ℝ) * (b 1 - facePoint k f ksi 1) +
    ((faceDirQ k f 0 0 * faceDirQ k f 1 1 - faceDirQ k f 0 1 * faceDirQ k f 1 0 : ℚ) : ℝ) * (b 2 - facePoint k f ksi 2)) := by
    intro b
    rw [detN_three]
    rw [t 0 (by omega) 0 (by omega), t 0 (by omega) 1 (by omega), t 0 (by omega) 2 (by omega), t 1 (by omega) 0 (by omega), t 1 (by omega) 1 (by omega),
      t 1 (by omega) 2 (by omega)] at *
    generalize jac k X (facePoint k f ksi) = J at *
    simp only [Finset.sum_range_succ, Finset.sum_range_zero, zero_add] at n4 n5 n6 ⊢
    push_cast
    generalize facePoint k f ksi = P at *
    generalize b 0 - P 0 = d0
    generalize b 1 - P 1 = d1
    generalize b 2 - P 2 = d2
    linear_combination (J 0 0 * d0 + J 0 1 * d1 + J 0 2 * d2) * n4 + (J 1 0 * d0 + J 1 1 * d1 + J 1 2 * d2) * n5 +
      (J 2 0 * d0 + J 2 1 * d1 + J 2 2 * d2) * n6
  have hm : 0 < mag := by
    refine lt_of_le_of_ne hm0 fun h0 => ?_
    have h1 := key (fun _ => 1/4)
    rw [← h0, zero_mul] at h1
    have h2 := mul_neg_of_pos_of_neg hd (face_sign hfk hk hf ksi (quarter_inside k.classOf))
    linarith
  refine ⟨hm, n3 hm.ne', o0, o1, outward_of_neg fun b hb => ?_⟩
  rw [hk]
  have h2 := mul_neg_of_pos_of_neg hd (face_sign hfk hk hf ksi hb)
  rw [← key b] at h2
  exact (pos_iff_neg_of_mul_neg h2).1 hm

/-- **C63.** In space: the normal computed on a pad holding the nodes of a local face of a cell, in the order given by `face_node_id`,
is a unit vector, orthogonal to the face, and points out of the cell, wherever the determinant of the Jacobian of the cell is positive. -/
theorem C63_face_outward {inv : MatInverse} (hinv : InverseSpec inv) {pc pc' pf pf' : Scratchpad} {f n : Nat} {ksi un : Nat → ℝ} {d mag : ℝ}
    (hc : pc.spaceNdim = 3) (hk : pc.kind.ndim = 3) (hf : f < pc.kind.nface) (hpf : pf.spaceNdim = 3) (hfk : pc.kind.faceKind = some pf.kind)
    (hX : ∀ j < pf.kind.nnode, ∀ i < 3, pf.X j i = pc.X (faceNode pc.kind f j) i)
    (hJ : calcJacobian inv pc (facePoint pc.kind f ksi) = .ok (d, pc')) (hd : 0 < d)
    (hN : calcNormalVector pf n ksi = .ok (mag, un, pf')) :
    0 < mag ∧ dotN 3 un un = 1 ∧ dotN 3 un (tangent pf ksi 0) = 0 ∧ dotN 3 un (tangent pf ksi 1) = 0 ∧
      PointsOutward 3 pc.kind pc.X (facePoint pc.kind f ksi) un := by
  have hdet : d = detN 3 (jac pc.kind pc.X (facePoint pc.kind f ksi)) := by
    have := ((C31_det hinv hJ).1 (by omega)).1
    rw [hc] at this
    rw [this]
    obtain ⟨_, ⟨_, ji, _, rfl⟩ | ⟨_, rfl, _⟩⟩ := calcJacobian_ok hJ <;> rfl
  exact face_outward hk hf hpf hfk hX (hdet ▸ hd) hN

end
end Gemlab.Scratchpad
