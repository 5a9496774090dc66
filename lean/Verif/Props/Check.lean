import Verif.Model.Check
import Verif.Spec.Check
import Verif.Props.Normals2

/-!
# C76: the checks of a mesh
-/
namespace Gemlab.Props.Features
noncomputable section
open Gemlab Gemlab.Mesh Gemlab.Shapes Gemlab.Props.Mesh Gemlab.Spec Gemlab.Scratchpad

variable {m : Mesh ℝ} {extractAll : Bool} {x : Extracted ℝ} {F : Features}

/-- **C76.** `check_all` never panics on a mesh whose points have as many coordinates as the space has dimensions. If it succeeds, ids, numbers of
nodes and points are consistent, all cells fit in the space and the solid cells have a positive determinant of the Jacobian at (1/3, 1/3, 1/3);
conversely, it succeeds under these conditions if `mat_inverse` inverts every regular matrix. -/
theorem C76_check_all {inv : MatInverse} (hinv : InverseSpec inv) (hp : ∀ n a, inv n a ≠ .panic) (m : Mesh ℝ) (hc : ∀ p ∈ m.points, p.coords.length = m.ndim) :
    checkAll inv m ≠ .panic ∧
    (checkAll inv m = .ok () → ValidMesh m ∧ ∀ c ∈ m.cells, (m.ndim = 2 ∨ m.ndim = 3) ∧ c.kind.ndim ≤ m.ndim ∧
      (c.kind.ndim = m.ndim → 0 < detN m.ndim (cellJacobian m c))) ∧
    ((∀ n a, detN n a ≠ 0 → ∃ r, inv n a = .ok r) → (ValidMesh m ∧ ∀ c ∈ m.cells, (m.ndim = 2 ∨ m.ndim = 3) ∧ c.kind.ndim ≤ m.ndim ∧
      (c.kind.ndim = m.ndim → 0 < detN m.ndim (cellJacobian m c))) → checkAll inv m = .ok ()) := by
  unfold checkAll
  refine ⟨?_, ?_, ?_⟩
  · cases h : checkIdsAndKind m with
    | panic => exact absurd h (C19_check_never_panics m)
    | err e => simp
    | ok u =>
      rw [Res.bind_ok]
      exact (C53_check_jacobian hinv hp m (ValidMesh.of_check h hc)).1
  · intro h
    obtain ⟨u, h1, h2⟩ := Res.bind_eq_ok.1 h
    have hv := ValidMesh.of_check h1 hc
    exact ⟨hv, (C53_check_jacobian hinv hp m hv).2.1 h2⟩
  · rintro hreg ⟨hv, hj⟩
    have h1 : checkIdsAndKind m = .ok () := (C19_check_ids_and_kind m).2 ⟨hv.pointIds, fun i c hi =>
      ⟨hv.cellIds i c hi, hv.nnode c (List.mem_of_getElem? hi), hv.inRange c (List.mem_of_getElem? hi)⟩⟩
    rw [h1, Res.bind_ok]
    exact (C53_check_jacobian hinv hp m hv).2.2 hreg hj

theorem checkUn_ok (d : Nat) (un : Nat → ℝ) (correct : List ℝ) (hl : correct.length = d) (tol : ℝ) (msg : String) :
    (checkUn d un correct tol msg = .ok () ↔ ∀ i < d, |un i - correct.getD i 0| ≤ tol) ∧ checkUn d un correct tol msg ≠ .panic := by
  unfold checkUn
  have e : ∀ i < d, Res.idx correct i = .ok (correct.getD i 0) := by
    intro i hi
    rw [Res.idx_of_lt (by omega), List.getD_eq_getElem _ _ (by omega)]
  constructor
  · rw [Res.forM_ok_iff]
    refine ⟨fun h i hi => ?_, fun h i hi => ?_⟩
    · have := h i (List.mem_range.2 hi)
      rw [e i hi, Res.bind_ok] at this
      by_contra hn
      rw [if_pos (not_le.1 hn)] at this
      simp at this
    · rw [e i (List.mem_range.1 hi), Res.bind_ok, if_neg (not_lt.2 (h i (List.mem_range.1 hi)))]
      rfl
  · refine Res.forM_ne_panic _ _ fun i hi => ?_
    rw [e i (List.mem_range.1 hi), Res.bind_ok]
    split <;> simp

/-- The result of `calc_normal_vector` is the normal divided by its norm (in Lean, division of zero by zero is zero, as is the vector in the code). -/
theorem normal_line {pad pad' : Scratchpad} {n : Nat} {ksi un : Nat → ℝ} {mag : ℝ} (h2 : pad.spaceNdim = 2) (h : calcNormalVector pad n ksi = .ok (mag, un, pad'))
    {v : Nat → ℝ} (v0 : v 0 = - tangent pad ksi 0 1) (v1 : v 1 = tangent pad ksi 0 0) : mag = normOf 2 v ∧ ∀ i < 2, un i = v i / normOf 2 v := by
  obtain ⟨a1, -, -, -, a2, a3⟩ := C32_line_2d h2 h
  rw [← v0] at a2
  rw [← v1] at a3
  have hm : mag = normOf 2 v := by
    rw [a1]
    unfold normOf dotN
    simp only [Finset.sum_range_succ, Finset.sum_range_zero]
    rw [v0, v1]
    congr 1; ring
  refine ⟨hm, fun i hi => ?_⟩
  rw [← hm]
  by_cases h0 : mag = 0
  · have hk := calcNormalVector_ok h
    unfold calcNormalVector at h
    rw [if_neg (by tauto), if_neg (by omega), if_neg (by tauto)] at h
    dsimp only at h
    rw [if_pos (show (pad.fillJacobian ksi).spaceNdim = 2 from h2)] at h
    simp only [Res.ok.injEq, Prod.mk.injEq] at h
    obtain ⟨e1, e2, -⟩ := h
    rw [e1, h0] at e2
    rw [h0, div_zero, ← e2]
    rw [h0, zero_mul] at a2 a3
    dsimp only
    rw [if_neg (lt_irrefl _)]
    have w0 : (pad.fillJacobian ksi).jacobian 1 0 = tangent pad ksi 0 1 := rfl
    have w1 : (pad.fillJacobian ksi).jacobian 0 0 = tangent pad ksi 0 0 := rfl
    rw [w0, w1, ← v0, ← v1, ← a2, ← a3]
    simp
  · interval_cases i
    · rw [← a2]; field_simp
    · rw [← a3]; field_simp

theorem normal_surface {pad pad' : Scratchpad} {n : Nat} {ksi un : Nat → ℝ} {mag : ℝ} (h3 : pad.spaceNdim = 3) (h : calcNormalVector pad n ksi = .ok (mag, un, pad'))
    {v : Nat → ℝ} (v0 : v 0 = tangent pad ksi 0 1 * tangent pad ksi 1 2 - tangent pad ksi 0 2 * tangent pad ksi 1 1)
    (v1 : v 1 = tangent pad ksi 0 2 * tangent pad ksi 1 0 - tangent pad ksi 0 0 * tangent pad ksi 1 2)
    (v2 : v 2 = tangent pad ksi 0 0 * tangent pad ksi 1 1 - tangent pad ksi 0 1 * tangent pad ksi 1 0) : mag = normOf 3 v ∧ ∀ i < 3, un i = v i / normOf 3 v := by
  obtain ⟨-, -, -, -, -, a2, a3, a4⟩ := C32_surface_3d h3 h
  rw [← v0] at a2
  rw [← v1] at a3
  rw [← v2] at a4
  have hk := calcNormalVector_ok h
  unfold calcNormalVector at h
  rw [if_neg (by omega), if_neg (by tauto), if_neg (by tauto)] at h
  dsimp only at h
  rw [if_neg (show ¬ (pad.fillJacobian ksi).spaceNdim = 2 by show ¬ pad.spaceNdim = 2; omega)] at h
  simp only [Res.ok.injEq, Prod.mk.injEq] at h
  obtain ⟨e1, e2, -⟩ := h
  have w : ∀ i j, (pad.fillJacobian ksi).jacobian i j = tangent pad ksi j i := fun _ _ => rfl
  have hm : mag = normOf 3 v := by
    rw [← e1]
    unfold normOf
    simp only [Finset.sum_range_succ, Finset.sum_range_zero, w]
    rw [v0, v1, v2]
    congr 1; ring
  refine ⟨hm, fun i hi => ?_⟩
  rw [← hm]
  by_cases h0 : mag = 0
  · rw [e1, h0] at e2
    rw [h0, zero_mul] at a2 a3 a4
    rw [h0, div_zero, ← e2]
    dsimp only
    rw [if_neg (lt_irrefl _)]
    simp only [w]
    split_ifs <;> linarith
  · interval_cases i
    · rw [← a2]; field_simp
    · rw [← a3]; field_simp
    · rw [← a4]; field_simp

/-- One iteration, when the pad can be filled. -/
theorem checkNormal_cases (h : ValidMesh m) (hd : m.ndim = 2 ∨ m.ndim = 3) {f : Feature} (hk : f.kind.ndim + 1 = m.ndim) (hl : f.points.length = f.kind.nnode)
    (hr : ∀ p ∈ f.points, p < m.points.length) {mag : ℝ} {correct : List ℝ} (hc : correct.length = m.ndim) {tol : ℝ} {e1 e2 : String} {v : Nat → ℝ}
    (hv : ∀ i < m.ndim, v i = if m.ndim = 2 then edgeNormal m f (fun _ => 0) i else faceNormal m f (fun _ => 0) i) :
    (checkNormal m (some f) mag correct tol e1 e2 = .ok () ↔ MagnitudeIs m.ndim v mag tol ∧ DirectionIs m.ndim v (fun i => correct.getD i 0) tol) ∧
    (checkNormal m (some f) mag correct tol e1 e2 = .panic ↔ ¬ MagnitudeIs m.ndim v mag tol) := by
  obtain ⟨pad, pad', p1, p2, hh⟩ := pad_ready h hd f.kind (by omega) f.points hl hr
  obtain ⟨⟨magN, un, pad''⟩, p3⟩ := (C32_errors pad' (by rw [hh.space]; exact hd) m.ndim (fun _ => 0)).1 ⟨by rw [hh.kind, hh.space]; exact hk, by rw [hh.space]⟩
  have ht : ∀ a, ∀ i < m.ndim, tangent pad' (fun _ => 0) a i = featureTangent m f (fun _ => 0) a i := by
    intro a i hi
    unfold tangent featureTangent
    rw [hh.kind]
    exact Finset.sum_congr rfl fun n hn => by rw [hh.coords n i (Finset.mem_range.1 hn) hi]
  have hnv : magN = normOf m.ndim v ∧ ∀ i < m.ndim, un i = v i / normOf m.ndim v := by
    rcases hd with h2 | h3
    · have e1 := hv 0 (by omega)
      have e2 := hv 1 (by omega)
      rw [if_pos h2] at e1 e2
      simp only [edgeNormal, if_true, one_ne_zero, if_false] at e1 e2
      rw [h2]
      exact normal_line (by rw [hh.space, h2]) p3 (by rw [ht 0 1 (by omega), e1]) (by rw [ht 0 0 (by omega), e2])
    · have e0 := hv 0 (by omega)
      have e1 := hv 1 (by omega)
      have e2 := hv 2 (by omega)
      rw [if_neg (by omega)] at e0 e1 e2
      simp only [faceNormal, if_true, one_ne_zero, if_false, OfNat.ofNat_ne_zero, OfNat.ofNat_ne_one] at e0 e1 e2
      rw [h3]
      refine normal_surface (by rw [hh.space, h3]) p3 ?_ ?_ ?_ <;>
        simp only [ht _ _ (show 0 < m.ndim by omega), ht _ _ (show 1 < m.ndim by omega), ht _ _ (show 2 < m.ndim by omega)]
      · exact e0
      · exact e1
      · exact e2
  obtain ⟨hm, hu⟩ := hnv
  have hun : ∀ correct : Nat → ℝ, (∀ i < m.ndim, |un i - correct i| ≤ tol) ↔ DirectionIs m.ndim v correct tol := by
    intro correct
    unfold DirectionIs
    exact forall₂_congr fun i hi => by rw [hu i hi]
  have hM : (MagnitudeIs m.ndim v mag tol → approxEq magN mag tol = .ok ()) ∧ (¬ MagnitudeIs m.ndim v mag tol → approxEq magN mag tol = .panic) := by
    unfold approxEq MagnitudeIs
    rw [hm]
    exact ⟨fun hc => if_neg (not_lt.2 hc), fun hc => if_pos (not_le.1 hc)⟩
  have e : checkNormal m (some f) mag correct tol e1 e2 = (approxEq magN mag tol >>= fun _ => checkUn m.ndim un correct tol e2) := by
    unfold checkNormal
    simp only [p1, p2, p3, Res.bind_ok]
  have hU := checkUn_ok m.ndim un correct hc tol e2
  rw [e]
  by_cases hmag : MagnitudeIs m.ndim v mag tol
  · rw [hM.1 hmag, Res.bind_ok, hU.1, hun]
    exact ⟨⟨fun h => ⟨hmag, h⟩, fun h => h.2⟩, fun h => absurd h hU.2, fun h => absurd hmag h⟩
  · rw [hM.2 hmag]
    exact ⟨⟨fun h => by simp at h, fun h => absurd h.1 hmag⟩, fun _ => hmag, fun _ => rfl⟩

/-- A loop ends with a panic (an error) only if one of the iterations does. -/
theorem forM_outcome {α : Type} (f : α → Res PUnit) (l : List α) : (l.forM f = .panic → ∃ x ∈ l, f x = .panic) ∧ ∀ e, l.forM f = .err e → ∃ x ∈ l, f x = .err e := by
  induction l with
  | nil => exact ⟨fun h => by simp at h, fun e h => by simp at h⟩
  | cons a l ih =>
    have e : (a :: l).forM f = (f a >>= fun _ => l.forM f) := rfl
    rw [e]
    cases h : f a with
    | panic => exact ⟨fun _ => ⟨a, List.mem_cons_self, h⟩, fun e h => by simp at h⟩
    | err e' => exact ⟨fun h => by simp at h, fun e he => ⟨a, List.mem_cons_self, by rw [h, ← he]; rfl⟩⟩
    | ok u =>
      rw [Res.bind_ok]
      exact ⟨fun h => (ih.1 h).elim fun x hx => ⟨x, List.mem_cons_of_mem _ hx.1, hx.2⟩, fun e h => (ih.2 e h).elim fun x hx => ⟨x, List.mem_cons_of_mem _ hx.1, hx.2⟩⟩

/-- The stored edges of a plane mesh. -/
theorem stored_edge (hF : IsNew m extractAll x F) (h : ValidMesh m) (h2 : m.ndim = 2) {key : EdgeKey} {f : Feature} (hf : F.edges.get key = some f) :
    f.kind.ndim + 1 = m.ndim ∧ f.points.length = f.kind.nnode ∧ ∀ p ∈ f.points, p < m.points.length := by
  rw [hF.edges] at hf
  obtain ⟨_, hx⟩ | ⟨h3, _⟩ := hF.extracted
  swap
  · omega
  obtain ⟨c, e, hfirst, ⟨cell, hcell, hek, hlen, hpts⟩, -⟩ := hx.data key f hf
  obtain ⟨cell', a, b, hc', hk2, he, -⟩ := hfirst.1
  rw [hcell, Option.some.injEq] at hc'
  subst hc'
  have hmem := List.mem_of_getElem? hcell
  have hn1 : f.kind.ndim = 1 := by
    have := (edgeKind_nnode cell.kind _ hek).2
    generalize f.kind = q at this
    cases q <;> first | rfl | exact absurd this (by decide)
  have hnn := (edgeKind_nnode cell.kind _ hek).1
  refine ⟨by omega, hlen, fun p hp => ?_⟩
  obtain ⟨j, hj, rfl⟩ := List.mem_iff_getElem.1 hp
  have h1 := hpts j (hlen ▸ hj)
  have hin : edgeNode cell.kind e j < cell.points.length := by
    rw [h.nnode _ hmem]
    exact Shapes.edgeNode_lt _ e he j (by omega)
  rw [List.getElem?_eq_getElem hj, List.getElem?_eq_getElem hin, Option.some.injEq] at h1
  rw [h1]
  exact h.inRange _ hmem _ (List.getElem_mem _)

/-- The stored faces of a mesh in space. -/
theorem stored_face (hF : IsNew m extractAll x F) (h : ValidMesh m) (h3 : m.ndim = 3) {key : FaceKey} {f : Feature} (hf : F.faces.get key = some f) :
    f.kind.ndim + 1 = m.ndim ∧ f.points.length = f.kind.nnode ∧ ∀ p ∈ f.points, p < m.points.length := by
  rw [hF.faces] at hf
  obtain ⟨h2, _⟩ | ⟨_, hx⟩ := hF.extracted
  · omega
  obtain ⟨c, k, hfirst, ⟨cell, hcell, hfk, hlen, hpts⟩, -⟩ := hx.data key f hf
  obtain ⟨cell', _, _, _, _, hc', hk3, hk, -⟩ := hfirst.1
  rw [hcell, Option.some.injEq] at hc'
  subst hc'
  have hmem := List.mem_of_getElem? hcell
  have hn2 : f.kind.ndim = 2 := by
    obtain ⟨-, h⟩ | ⟨-, h⟩ := faceKind_class cell.kind _ hfk <;> (generalize f.kind = q at h; cases q <;> first | rfl | exact absurd h (by decide))
  have hnn := faceKind_nnode cell.kind _ hfk
  refine ⟨by omega, hlen, fun p hp => ?_⟩
  obtain ⟨j, hj, rfl⟩ := List.mem_iff_getElem.1 hp
  have h1 := hpts j (hlen ▸ hj)
  have hin : faceNode cell.kind k j < cell.points.length := by
    rw [h.nnode _ hmem]
    exact Shapes.faceNode_lt _ k hk j (hnn ▸ hlen ▸ hj)
  rw [List.getElem?_eq_getElem hj, List.getElem?_eq_getElem hin, Option.some.injEq] at h1
  rw [h1]
  exact h.inRange _ hmem _ (List.getElem_mem _)

/-- **C76.** `check_2d_edge_normals` with the edges of the features of a valid plane mesh: it succeeds exactly when, for all listed keys, the edge is
stored, and the magnitude and the direction of its normal at the middle (in the reference coordinate) are the listed ones, within the tolerance,
whatever the iteration order. It panics only if a magnitude is wrong, and returns an error only if an edge is missing or a direction is wrong. -/
theorem C76_edge_normals (hF : IsNew m extractAll x F) (h : ValidMesh m) (h2 : m.ndim = 2) {iter : List (EdgeKey × ℝ × ℝ × ℝ) → List (EdgeKey × ℝ × ℝ × ℝ)}
    (hi : IterOrder iter) (solutions : HMap EdgeKey (ℝ × ℝ × ℝ)) (tol : ℝ) :
    (check2dEdgeNormals iter m F.edges solutions tol = .ok () ↔ ∀ key mag u0 u1, (key, mag, u0, u1) ∈ solutions → ∃ f, F.edges.get key = some f ∧
      MagnitudeIs 2 (edgeNormal m f fun _ => 0) mag tol ∧ DirectionIs 2 (edgeNormal m f fun _ => 0) (fun i => [u0, u1].getD i 0) tol) ∧
    (check2dEdgeNormals iter m F.edges solutions tol = .panic → ∃ key mag u0 u1 f, (key, mag, u0, u1) ∈ solutions ∧ F.edges.get key = some f ∧
      ¬ MagnitudeIs 2 (edgeNormal m f fun _ => 0) mag tol) ∧
    ∀ e, check2dEdgeNormals iter m F.edges solutions tol = .err e → ∃ key mag u0 u1, (key, mag, u0, u1) ∈ solutions ∧
      (F.edges.get key = none ∨ ∃ f, F.edges.get key = some f ∧ ¬ DirectionIs 2 (edgeNormal m f fun _ => 0) (fun i => [u0, u1].getD i 0) tol) := by
  have key_cases : ∀ key mag u0 u1 f, F.edges.get key = some f →
      (checkNormal m (some f) mag [u0, u1] tol "cannot find edge_key in edges map" "wrong 2d edge unit normal vector found" = .ok () ↔
        MagnitudeIs 2 (edgeNormal m f fun _ => 0) mag tol ∧ DirectionIs 2 (edgeNormal m f fun _ => 0) (fun i => [u0, u1].getD i 0) tol) ∧
      (checkNormal m (some f) mag [u0, u1] tol "cannot find edge_key in edges map" "wrong 2d edge unit normal vector found" = .panic ↔
        ¬ MagnitudeIs 2 (edgeNormal m f fun _ => 0) mag tol) := by
    intro key mag u0 u1 f hf
    obtain ⟨a1, a2, a3⟩ := stored_edge hF h h2 hf
    have := checkNormal_cases (v := edgeNormal m f fun _ => 0) (mag := mag) (correct := [u0, u1]) (tol := tol) (e1 := "cannot find edge_key in edges map")
      (e2 := "wrong 2d edge unit normal vector found") h (.inl h2) a1 a2 a3 (by rw [h2]; rfl) (fun i _ => by rw [if_pos h2])
    rwa [h2] at this
  unfold check2dEdgeNormals
  refine ⟨?_, ?_, ?_⟩
  · rw [Res.forM_ok_iff]
    constructor
    · intro hall key mag u0 u1 hs
      have := hall _ (hi.mem.2 hs)
      dsimp only at this
      cases hf : F.edges.get key with
      | none => rw [hf] at this; simp [checkNormal] at this
      | some f => rw [hf] at this; exact ⟨f, rfl, (key_cases key mag u0 u1 f hf).1.1 this⟩
    · rintro hall ⟨key, mag, u0, u1⟩ hs
      obtain ⟨f, hf, hh⟩ := hall key mag u0 u1 (hi.mem.1 hs)
      dsimp only
      rw [hf]
      exact (key_cases key mag u0 u1 f hf).1.2 hh
  · intro hp
    obtain ⟨⟨key, mag, u0, u1⟩, hs, hx⟩ := (forM_outcome _ _).1 hp
    dsimp only at hx
    cases hf : F.edges.get key with
    | none => rw [hf] at hx; simp [checkNormal] at hx
    | some f => rw [hf] at hx; exact ⟨key, mag, u0, u1, f, hi.mem.1 hs, hf, (key_cases key mag u0 u1 f hf).2.1 hx⟩
  · intro e he
    obtain ⟨⟨key, mag, u0, u1⟩, hs, hx⟩ := (forM_outcome _ _).2 e he
    dsimp only at hx
    refine ⟨key, mag, u0, u1, hi.mem.1 hs, ?_⟩
    cases hf : F.edges.get key with
    | none => exact .inl rfl
    | some f =>
      rw [hf] at hx
      refine .inr ⟨f, rfl, fun hd => ?_⟩
      by_cases hm : MagnitudeIs 2 (edgeNormal m f fun _ => 0) mag tol
      · rw [(key_cases key mag u0 u1 f hf).1.2 ⟨hm, hd⟩] at hx; simp at hx
      · rw [(key_cases key mag u0 u1 f hf).2.2 hm] at hx; simp at hx

/-- **C76.** The same for `check_face_normals` with the faces of the features of a valid mesh in space; the normals are those at the reference point
(0, 0): the centre of quadrilaterals, the first corner of triangles. -/
theorem C76_face_normals (hF : IsNew m extractAll x F) (h : ValidMesh m) (h3 : m.ndim = 3) {iter : List (FaceKey × ℝ × ℝ × ℝ × ℝ) → List (FaceKey × ℝ × ℝ × ℝ × ℝ)}
    (hi : IterOrder iter) (solutions : HMap FaceKey (ℝ × ℝ × ℝ × ℝ)) (tol : ℝ) :
    (checkFaceNormals iter m F.faces solutions tol = .ok () ↔ ∀ key mag u0 u1 u2, (key, mag, u0, u1, u2) ∈ solutions → ∃ f, F.faces.get key = some f ∧
      MagnitudeIs 3 (faceNormal m f fun _ => 0) mag tol ∧ DirectionIs 3 (faceNormal m f fun _ => 0) (fun i => [u0, u1, u2].getD i 0) tol) ∧
    (checkFaceNormals iter m F.faces solutions tol = .panic → ∃ key mag u0 u1 u2 f, (key, mag, u0, u1, u2) ∈ solutions ∧ F.faces.get key = some f ∧
      ¬ MagnitudeIs 3 (faceNormal m f fun _ => 0) mag tol) ∧
    ∀ e, checkFaceNormals iter m F.faces solutions tol = .err e → ∃ key mag u0 u1 u2, (key, mag, u0, u1, u2) ∈ solutions ∧
      (F.faces.get key = none ∨ ∃ f, F.faces.get key = some f ∧ ¬ DirectionIs 3 (faceNormal m f fun _ => 0) (fun i => [u0, u1, u2].getD i 0) tol) := by
  have key_cases : ∀ key mag u0 u1 u2 f, F.faces.get key = some f →
      (checkNormal m (some f) mag [u0, u1, u2] tol "cannot find face_key in faces map" "wrong face unit normal vector found" = .ok () ↔
        MagnitudeIs 3 (faceNormal m f fun _ => 0) mag tol ∧ DirectionIs 3 (faceNormal m f fun _ => 0) (fun i => [u0, u1, u2].getD i 0) tol) ∧
      (checkNormal m (some f) mag [u0, u1, u2] tol "cannot find face_key in faces map" "wrong face unit normal vector found" = .panic ↔
        ¬ MagnitudeIs 3 (faceNormal m f fun _ => 0) mag tol) := by
    intro key mag u0 u1 u2 f hf
    obtain ⟨a1, a2, a3⟩ := stored_face hF h h3 hf
    have := checkNormal_cases (v := faceNormal m f fun _ => 0) (mag := mag) (correct := [u0, u1, u2]) (tol := tol) (e1 := "cannot find face_key in faces map")
      (e2 := "wrong face unit normal vector found") h (.inr h3) a1 a2 a3 (by rw [h3]; rfl) (fun i _ => by rw [if_neg (by omega)])
    rwa [h3] at this
  unfold checkFaceNormals
  refine ⟨?_, ?_, ?_⟩
  · rw [Res.forM_ok_iff]
    constructor
    · intro hall key mag u0 u1 u2 hs
      have := hall _ (hi.mem.2 hs)
      dsimp only at this
      cases hf : F.faces.get key with
      | none => rw [hf] at this; simp [checkNormal] at this
      | some f => rw [hf] at this; exact ⟨f, rfl, (key_cases key mag u0 u1 u2 f hf).1.1 this⟩
    · rintro hall ⟨key, mag, u0, u1, u2⟩ hs
      obtain ⟨f, hf, hh⟩ := hall key mag u0 u1 u2 (hi.mem.1 hs)
      dsimp only
      rw [hf]
      exact (key_cases key mag u0 u1 u2 f hf).1.2 hh
  · intro hp
    obtain ⟨⟨key, mag, u0, u1, u2⟩, hs, hx⟩ := (forM_outcome _ _).1 hp
    dsimp only at hx
    cases hf : F.faces.get key with
    | none => rw [hf] at hx; simp [checkNormal] at hx
    | some f => rw [hf] at hx; exact ⟨key, mag, u0, u1, u2, f, hi.mem.1 hs, hf, (key_cases key mag u0 u1 u2 f hf).2.1 hx⟩
  · intro e he
    obtain ⟨⟨key, mag, u0, u1, u2⟩, hs, hx⟩ := (forM_outcome _ _).2 e he
    dsimp only at hx
    refine ⟨key, mag, u0, u1, u2, hi.mem.1 hs, ?_⟩
    cases hf : F.faces.get key with
    | none => exact .inl rfl
    | some f =>
      rw [hf] at hx
      refine .inr ⟨f, rfl, fun hd => ?_⟩
      by_cases hm : MagnitudeIs 3 (faceNormal m f fun _ => 0) mag tol
      · rw [(key_cases key mag u0 u1 u2 f hf).1.2 ⟨hm, hd⟩] at hx; simp at hx
      · rw [(key_cases key mag u0 u1 u2 f hf).2.2 hm] at hx; simp at hx

theorem tangent_affine (f : Feature) (A : Nat → ℝ) (B : Nat → Nat → ℝ)
    (h : ∀ n < f.kind.nnode, ∀ i, (coordsOf m (f.points.getD n 0)).getD i 0 = A i + ∑ j ∈ Finset.range f.kind.ndim, B i j * refCoord f.kind n j)
    (ksi : Nat → ℝ) (j i : Nat) (hj : j < f.kind.ndim) : featureTangent m f ksi j i = B i j :=
  Props.Shapes.C28_jacobian_affine f.kind (fun n i => (coordsOf m (f.points.getD n 0)).getD i 0) A B h ksi i j hj

/-- **C76.** What the numbers are for a straight edge from `a` to `b` (of any order, with evenly spaced nodes): the magnitude is half the length, the
direction that of the edge, turned by 90 degrees. -/
theorem C76_straight_edge (f : Feature) (hk : f.kind.ndim = 1) (a b : Nat → ℝ)
    (h : ∀ n < f.kind.nnode, ∀ i, (coordsOf m (f.points.getD n 0)).getD i 0 = (a i + b i) / 2 + refCoord f.kind n 0 * ((b i - a i) / 2)) (ksi : Nat → ℝ) :
    edgeNormal m f ksi 0 = (a 1 - b 1) / 2 ∧ edgeNormal m f ksi 1 = (b 0 - a 0) / 2 ∧
      normOf 2 (edgeNormal m f ksi) = Real.sqrt ((b 0 - a 0) ^ 2 + (b 1 - a 1) ^ 2) / 2 := by
  have e : ∀ i, featureTangent m f ksi 0 i = (b i - a i) / 2 := fun i => tangent_affine f (fun i => (a i + b i) / 2) (fun i _ => (b i - a i) / 2) (fun n hn i => by
    rw [h n hn i, hk, Finset.sum_range_one, mul_comm]) ksi 0 i (by omega)
  have e0 : edgeNormal m f ksi 0 = (a 1 - b 1) / 2 := by
    unfold edgeNormal; rw [if_pos rfl, e]; ring
  have e1 : edgeNormal m f ksi 1 = (b 0 - a 0) / 2 := by
    unfold edgeNormal; rw [if_neg (by decide), e]
  refine ⟨e0, e1, ?_⟩
  unfold normOf
  rw [Finset.sum_range_succ, Finset.sum_range_one, e0, e1]
  rw [show (a 1 - b 1) / 2 * ((a 1 - b 1) / 2) + (b 0 - a 0) / 2 * ((b 0 - a 0) / 2) = ((b 0 - a 0) ^ 2 + (b 1 - a 1) ^ 2) / 2 ^ 2 by ring]
  rw [Real.sqrt_div' _ (by norm_num), Real.sqrt_sq (by norm_num)]

/-- Component `i` of the cross product. -/
def crossOf (u v : Nat → ℝ) (i : Nat) : ℝ := if i = 0 then u 1 * v 2 - u 2 * v 1 else if i = 1 then u 2 * v 0 - u 0 * v 2 else u 0 * v 1 - u 1 * v 0

/-- **C76.** For a flat triangle with the corner `a` and the sides `u`, `v` at it (of any order, with evenly spaced nodes) the normal is the cross product of the
sides (twice the area); for a parallelogram it is a quarter of it (a quarter of the area). -/
theorem C76_flat_face (f : Feature) (a u v : Nat → ℝ) (ksi : Nat → ℝ) :
    (f.kind.classOf = .tri → (∀ n < f.kind.nnode, ∀ i, (coordsOf m (f.points.getD n 0)).getD i 0 = a i + refCoord f.kind n 0 * u i + refCoord f.kind n 1 * v i) →
      ∀ i < 3, faceNormal m f ksi i = crossOf u v i) ∧
    (f.kind.classOf = .qua → (∀ n < f.kind.nnode, ∀ i, (coordsOf m (f.points.getD n 0)).getD i 0 =
        a i + (1 + refCoord f.kind n 0) / 2 * u i + (1 + refCoord f.kind n 1) / 2 * v i) →
      ∀ i < 3, faceNormal m f ksi i = crossOf u v i / 4) := by
  have hd : f.kind.classOf = .tri ∨ f.kind.classOf = .qua → f.kind.ndim = 2 := by
    generalize f.kind = k
    cases k <;> decide
  constructor
  · intro hc h i hi
    have e := tangent_affine f a (fun i j => if j = 0 then u i else v i) (fun n hn i => by
      rw [h n hn i, hd (.inl hc), Finset.sum_range_succ, Finset.sum_range_one, if_pos rfl, if_neg (by decide)]; ring) ksi
    have e0 : ∀ i, featureTangent m f ksi 0 i = u i := fun i => e 0 i (by rw [hd (.inl hc)]; decide)
    have e1 : ∀ i, featureTangent m f ksi 1 i = v i := fun i => e 1 i (by rw [hd (.inl hc)]; decide)
    unfold faceNormal crossOf
    simp only [e0, e1]
  · intro hc h i hi
    have e := tangent_affine f (fun i => a i + u i / 2 + v i / 2) (fun i j => if j = 0 then u i / 2 else v i / 2) (fun n hn i => by
      rw [h n hn i, hd (.inr hc), Finset.sum_range_succ, Finset.sum_range_one, if_pos rfl, if_neg (by decide)]; ring) ksi
    have e0 : ∀ i, featureTangent m f ksi 0 i = u i / 2 := fun i => e 0 i (by rw [hd (.inr hc)]; decide)
    have e1 : ∀ i, featureTangent m f ksi 1 i = v i / 2 := fun i => e 1 i (by rw [hd (.inr hc)]; decide)
    unfold faceNormal crossOf
    simp only [e0, e1]
    split_ifs <;> ring

/-- **C76.** Normals accepted exactly point out of the cell: if `check_2d_edge_normals` accepts a direction without tolerance for an edge of the boundary, it is
a unit vector that points out of the only cell with this edge, provided that the determinant of the Jacobian is positive at the middle of the edge. -/
theorem C76_outward (hF : IsNew m extractAll x F) (h : ValidMesh m) (h2 : m.ndim = 2) {iter : List (EdgeKey × ℝ × ℝ × ℝ) → List (EdgeKey × ℝ × ℝ × ℝ)}
    (hi : IterOrder iter) {solutions : HMap EdgeKey (ℝ × ℝ × ℝ)} (hok : check2dEdgeNormals iter m F.edges solutions 0 = .ok ())
    {key : EdgeKey} {mag u0 u1 : ℝ} (hs : (key, mag, u0, u1) ∈ solutions) :
    ∃ c e cell, m.cells[c]? = some cell ∧ IsFirst (HasEdge m key) c e ∧
      (0 < detN 2 (jac cell.kind (nodeX m cell) (edgePoint cell.kind e 0)) → 0 < mag ∧ u0 * u0 + u1 * u1 = 1 ∧
        PointsOutward 2 cell.kind (nodeX m cell) (edgePoint cell.kind e 0) fun i => [u0, u1].getD i 0) := by
  obtain ⟨f, hf, hm, hdir⟩ := (C76_edge_normals hF h h2 hi solutions 0).1.1 hok key mag u0 u1 hs
  obtain ⟨c, e, cell, hcell, hfirst, -, hout⟩ := C63_mesh_edges hF h h2 key f hf
  refine ⟨c, e, cell, hcell, hfirst, fun hdet => ?_⟩
  obtain ⟨pad, pad', mg, un, pad'', p1, p2, p3, p4, p5, p6⟩ := hout (fun _ => 0) hdet
  obtain ⟨a1, a2, a3⟩ := stored_edge hF h h2 hf
  obtain ⟨qad, qad', q1, q2, hh⟩ := pad_ready h (.inl h2) f.kind (by omega) f.points a2 a3
  rw [p1, Res.ok.injEq] at q1
  subst q1
  rw [p2, Res.ok.injEq] at q2
  subst q2
  have ht : ∀ a, ∀ i < m.ndim, tangent pad' (fun _ => 0) a i = featureTangent m f (fun _ => 0) a i := by
    intro a i hi
    unfold tangent featureTangent
    rw [hh.kind]
    exact Finset.sum_congr rfl fun n hn => by rw [hh.coords n i (Finset.mem_range.1 hn) hi]
  obtain ⟨n1, n2⟩ := normal_line (v := edgeNormal m f fun _ => 0) (by rw [hh.space, h2]) p3 (by rw [ht 0 1 (by omega)]; rfl) (by rw [ht 0 0 (by omega)]; rfl)
  have hu : ∀ i < 2, un i = [u0, u1].getD i 0 := by
    intro i hi
    rw [n2 i hi]
    have := hdir i hi
    linarith [abs_nonpos_iff.1 this]
  have hmag : mg = mag := by
    rw [n1]
    linarith [abs_nonpos_iff.1 hm]
  refine ⟨hmag ▸ p4, ?_, ?_⟩
  · unfold dotN at p5
    rw [Finset.sum_range_succ, Finset.sum_range_one, hu 0 (by decide), hu 1 (by decide)] at p5
    exact p5
  · intro b hb
    obtain ⟨ε, he, hε⟩ := p6 b hb
    refine ⟨ε, he, fun t t1 t2 => ?_⟩
    have := hε t t1 t2
    rw [Finset.sum_range_succ, Finset.sum_range_one, hu 0 (by decide), hu 1 (by decide)] at this
    rw [Finset.sum_range_succ, Finset.sum_range_one]
    exact this

/-- The right side of the unit square, as it is stored. -/
theorem square_right {x : Extracted ℝ} {F : Features} (h2 : IsNew square true x F) {f : Feature} (hf : F.edges.get (1, 2) = some f) :
    f.kind = .lin2 ∧ f.points = [2, 1] ∧ ∃ c e, HasEdge square (1, 2) c e := by
  rw [h2.edges] at hf
  obtain ⟨_, hx⟩ | ⟨h3, _⟩ := h2.extracted
  swap
  · simp [square] at h3
  obtain ⟨c, e, hfirst, ⟨cell, hcell, hek, hlen, hpts⟩, -⟩ := hx.data _ f hf
  obtain ⟨cell', a, b, hc', hk2, he, ha, hb, -, hkey⟩ := hfirst.1
  rw [hcell, Option.some.injEq] at hc'
  subst hc'
  have hm := List.mem_of_getElem? hcell
  have hc : cell = ⟨0, 1, .qua4, [0, 1, 2, 3]⟩ := by simpa [square] using hm
  subst hc
  have hk : f.kind = .lin2 := (Option.some.inj hek).symm
  change e < 4 at he
  have he1 : e = 1 := by
    interval_cases e <;> simp [edgeNode, GeoKind.edgeNodeIds] at ha hb <;> simp_all <;> omega
  subst he1
  have hp : f.points = [2, 1] := by
    rw [hk] at hlen hpts
    have p0 := hpts 0 (by decide)
    have p1 := hpts 1 (by decide)
    match hfp : f.points, hlen with
    | [a, b], _ =>
      rw [hfp] at p0 p1
      simp [edgeNode, GeoKind.edgeNodeIds] at p0 p1
      rw [p0, p1]
  exact ⟨hk, hp, _, _, hfirst.1⟩

/-- The right side of the unit square: the check accepts the normal (1, 0) and the magnitude 1/2, and rejects other directions. -/
theorem C76_example (o : Orders) (ho : o.Valid) {iter : List (EdgeKey × ℝ × ℝ × ℝ) → List (EdgeKey × ℝ × ℝ × ℝ)} (hi : IterOrder iter) :
    ∃ F, Features.new o square true = .ok F ∧ check2dEdgeNormals iter square F.edges [((1, 2), 1 / 2, 1, 0)] 0 = .ok () ∧
      check2dEdgeNormals iter square F.edges [((1, 2), 1 / 2, -1, 0)] (1 / 10) ≠ .ok () := by
  obtain ⟨x, F, h1, h2, ⟨f, hf⟩, _⟩ := exists_features o ho
  have hf' := hf
  obtain ⟨hk, hp, -⟩ := square_right h2 hf
  obtain ⟨e0, e1, e2⟩ := C76_straight_edge (m := square) f (by rw [hk]; rfl) (fun i => if i < 2 then 1 else 0) (fun i => if i = 0 then 1 else 0) (by
    rw [hk, hp]
    intro n hn i
    have hn' : n < 2 := hn
    match i with
    | 0 => interval_cases n <;> simp [square, coordsOf]
    | 1 => interval_cases n <;> simp [square, coordsOf, refCoord, refCoordQ, GeoKind.referenceCoords] <;> norm_num
    | i + 2 => interval_cases n <;> simp [square, coordsOf]) fun _ => 0
  norm_num at e0 e1 e2
  have hs := C76_edge_normals h2 square_valid rfl hi
  refine ⟨F, h1, ((hs _ _).1.2 ?_), fun hok => ?_⟩
  · intro key mag u0 u1 hmem
    simp only [List.mem_singleton, Prod.mk.injEq] at hmem
    obtain ⟨rfl, rfl, rfl, rfl⟩ := hmem
    refine ⟨f, hf', ?_, fun i hi => ?_⟩
    · unfold MagnitudeIs; rw [e2]; norm_num
    · rw [e2]
      interval_cases i
      · rw [e0]; norm_num
      · rw [e1]; norm_num
  · obtain ⟨f', hf2, -, hd⟩ := (hs _ _).1.1 hok _ _ _ _ (List.mem_singleton.2 rfl)
    rw [hf', Option.some.injEq] at hf2
    subst hf2
    have := hd 0 (by decide)
    rw [e0, e2] at this
    norm_num at this

end
end Gemlab.Props.Features
