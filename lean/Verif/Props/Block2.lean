import Verif.Proofs.Block8

/-!
# C42, C54, C55, C56: construction, constraints, topology and geometry of the subdivision of a block

`iterG` and `iterC` are arbitrary iteration orders of the hash maps. Arithmetic is exact (real numbers).
-/
namespace Gemlab.Block
noncomputable section
open Classical
open Gemlab.Mesh Gemlab.Shapes

variable {inv : MatInverse} {nrow ndim : Nat} {at_ : Nat → Nat → ℝ} {b : Block} {target : GeoKind}
variable {iterG : List (Nat × List ℝ) → List (Nat × List ℝ)} {iterC : List (Nat × Nat) → List (Nat × Nat)}

theorem Reached.ctx (h : Reached inv nrow ndim at_ b) (hf : NotTooFine b) (ht : TargetOk b target) : Ctx b target :=
  ⟨h.wf.dims, ht, fun _ ha => dir_of_wf h.wf hf ha⟩

/-! ## Constraints -/

/-- **C42 (mapping of a node).** Coordinates of the point of a node of a block that is not transformed into a ring: if all constraints of
the sides where the node is are satisfied by the isoparametric map (in particular if there is none) then these coordinates; else the
radial projection onto the surface of the first constraint that is not satisfied; an error if the point is at its centre. -/
theorem C42_mapped (h : Reached inv nrow ndim at_ b) (hf : NotTooFine b) (ht : TargetOk b target) (hr : b.transformIntoRing = false)
    {ξ : List ℝ} (hn : IsNode b target ξ) :
    ((∀ s S, Active b ξ s S → ¬ S.Off (isoMap nrow ndim at_ ξ)) → mapped b ξ = isoMap nrow ndim at_ ξ ∧ movedBy b ξ = none) ∧
    ∀ s S, FirstOff b ξ (isoMap nrow ndim at_ ξ) s S →
      (1 / 10 ^ 8 < S.dist (isoMap nrow ndim at_ ξ) → mapped b ξ = S.project (isoMap nrow ndim at_ ξ) ∧ movedBy b ξ = some s) ∧
      (S.dist (isoMap nrow ndim at_ ξ) ≤ 1 / 10 ^ 8 → ∃ e, realCoords b ξ = .err e) := by
  obtain ⟨h1, h2⟩ := realCoords_spec h.wf (h.ctx hf ht) hr hn
  refine ⟨fun hall => ?_, fun s S hF => ⟨fun hd => ?_, (h2 s S hF).2⟩⟩
  · unfold mapped movedBy
    rw [h1 hall]
    exact ⟨rfl, rfl⟩
  · unfold mapped movedBy
    rw [(h2 s S hF).1 hd]
    exact ⟨rfl, rfl⟩

/-- **C42 (projection).** The radial projection of a point that is not at the centre: it is on the circle (cylinder), at the distance `|r|`
from the centre (axis), on the line from the centre to the point; the third coordinate is unchanged. -/
theorem C42_projection (hd : b.ndim = 2 ∨ b.ndim = 3) {s : Nat} {S : Surface} (hS : constraintOf b s = some S) {x : List ℝ} (hx : x.length = b.ndim)
    (h : 0 < S.dist x) : (S.project x).length = b.ndim ∧ S.On (S.project x) ∧ S.dist (S.project x) = |S.r| ∧
      (S.project x).getD S.p 0 - S.cp = S.r / S.dist x * (x.getD S.p 0 - S.cp) ∧ (S.project x).getD S.q 0 - S.cq = S.r / S.dist x * (x.getD S.q 0 - S.cq) ∧
      ∀ a, a ≠ S.p → a ≠ S.q → (S.project x).getD a 0 = x.getD a 0 := by
  obtain ⟨h1, h2, h3⟩ := surface_comps hd hS
  rw [← hx] at h1 h2
  have hon := project_on h1 h2 h3 h
  refine ⟨by rw [project_length, hx], hon, ?_, ?_, ?_, ?_⟩
  · unfold Surface.dist
    unfold Surface.On at hon
    rw [hon, Real.sqrt_sq_eq_abs]
  · unfold Surface.project
    rw [getD_map_range h1, if_pos rfl]; ring
  · unfold Surface.project
    rw [getD_map_range h2, if_neg (Ne.symm h3), if_pos rfl]; ring
  · intro a ha1 ha2
    by_cases hlt : a < x.length
    · unfold Surface.project
      rw [getD_map_range hlt, if_neg ha1, if_neg ha2]
    · rw [List.getD_eq_getElem?_getD, List.getD_eq_getElem?_getD, List.getElem?_eq_none (by rw [project_length]; omega), List.getElem?_eq_none (by omega)]

/-- **C42 (setters).** The constraint of a side is what was last set; the constraints of the other sides are unchanged. -/
theorem C42_set_edge_constraint (h : Reached inv nrow ndim at_ b) (e : Nat) (v : Option Constraint2d) :
    (ndim = 2 ∧ e < 4 → (setEdgeConstraint b e v).2 = .ok () ∧
      ∀ s, constraintOf (setEdgeConstraint b e v).1 s = if s = e then v.map surface2d else constraintOf b s) ∧
    (¬ (ndim = 2 ∧ e < 4) → ∃ msg, setEdgeConstraint b e v = (b, .err msg)) := by
  have hn := h.wf.ndim_eq
  unfold setEdgeConstraint
  rw [hn]
  constructor
  · rintro ⟨h1, h2⟩
    rw [if_neg (by omega), if_neg (by omega)]
    refine ⟨rfl, fun s => ?_⟩
    unfold constraintOf
    dsimp only
    have h2' : b.ndim = 2 := by omega
    simp only [if_pos h2', if_pos h1]
    cases v with
    | some c =>
      dsimp only
      rw [HMap.get_insert]
      by_cases hs : s = e
      · rw [if_pos hs, if_pos hs]
      · rw [if_neg hs, if_neg hs]
    | none =>
      dsimp only
      rw [get_hremove]
      by_cases hs : s = e
      · rw [if_pos hs, if_pos hs]
      · rw [if_neg hs, if_neg hs]
  · intro hne
    split
    · exact ⟨_, rfl⟩
    split
    · exact ⟨_, rfl⟩
    · exfalso; apply hne; omega

theorem C42_set_face_constraint (h : Reached inv nrow ndim at_ b) (f : Nat) (v : Option Constraint3d) :
    (ndim = 3 ∧ f < 6 → (setFaceConstraint b f v).2 = .ok () ∧
      ∀ s, constraintOf (setFaceConstraint b f v).1 s = if s = f then v.map surface3d else constraintOf b s) ∧
    (¬ (ndim = 3 ∧ f < 6) → ∃ msg, setFaceConstraint b f v = (b, .err msg)) := by
  have hn := h.wf.ndim_eq
  unfold setFaceConstraint
  rw [hn]
  constructor
  · rintro ⟨h1, h2⟩
    rw [if_neg (by omega), if_neg (by omega)]
    refine ⟨rfl, fun s => ?_⟩
    unfold constraintOf
    dsimp only
    have h2' : ¬ b.ndim = 2 := by omega
    simp only [if_neg h2', if_neg (show ¬ ndim = 2 by omega)]
    cases v with
    | some c =>
      dsimp only
      rw [HMap.get_insert]
      by_cases hs : s = f
      · rw [if_pos hs, if_pos hs]
      · rw [if_neg hs, if_neg hs]
    | none =>
      dsimp only
      rw [get_hremove]
      by_cases hs : s = f
      · rw [if_pos hs, if_pos hs]
      · rw [if_neg hs, if_neg hs]
  · intro hne
    split
    · exact ⟨_, rfl⟩
    split
    · exact ⟨_, rfl⟩
    · exfalso; apply hne; omega

/-! ## Subdivision -/

theorem badNode_iff (h : Reached inv nrow ndim at_ b) (hf : NotTooFine b) (ht : TargetOk b target) : BadNode b target ↔ Unmappable nrow ndim at_ b target := by
  constructor
  · rintro ⟨ξ, hn, e, he⟩
    by_cases hr : b.transformIntoRing = true
    · unfold realCoords at he
      rw [if_pos hr] at he
      cases he
    · rw [Bool.not_eq_true] at hr
      refine ⟨hr, ξ, ?_⟩
      obtain ⟨h1, h2⟩ := realCoords_spec h.wf (h.ctx hf ht) hr hn
      by_cases hall : ∀ s S, Active b ξ s S → ¬ S.Off (isoMap nrow ndim at_ ξ)
      · rw [h1 hall] at he; cases he
      · push Not at hall
        have hex : ∃ s, ∃ S, Active b ξ s S ∧ S.Off (isoMap nrow ndim at_ ξ) := hall
        obtain ⟨S, hA, hO⟩ := Nat.find_spec hex
        have hmin := @Nat.find_min _ _ hex
        have hF : FirstOff b ξ (isoMap nrow ndim at_ ξ) (Nat.find hex) S := by
          refine ⟨hA, hO, fun s' hs' S' hA' hO' => hmin hs' ⟨S', hA', hO'⟩⟩
        refine ⟨Nat.find hex, S, hn, hF, ?_⟩
        by_contra hlt
        rw [(h2 _ S hF).1 (not_le.1 hlt)] at he
        cases he
  · rintro ⟨hr, ξ, s, S, hn, hF, hd⟩
    exact ⟨ξ, hn, ((realCoords_spec h.wf (h.ctx hf ht) hr hn).2 s S hF).2 hd⟩

theorem isSubdivision_of_inv (hc : Ctx b target) {H : List (List ℝ)} {st : State} (hi : Inv b target H (numCells b) st) : IsSubdivision b target st.mesh := by
  have hpt : ∀ i j k m, InGrid b i j k → m < target.nnode → H[ptAt b st.mesh i j k m]? = some (nodePos b target i j k m) := by
    intro i j k m hg hm
    obtain ⟨pts, c1, -, c3⟩ := hi.cells i j k hg (cellNum_lt hg)
    unfold ptAt
    rw [c1]
    exact c3 m hm
  have hh := hi.hist
  refine ⟨hi.base.ndim, hi.ncell, ?_, by rw [hi.base.len, ← hh], hi.base.ids, ?_, ?_⟩
  · intro i j k hg
    obtain ⟨pts, c1, c2, -⟩ := hi.cells i j k hg (cellNum_lt hg)
    exact ⟨_, c1, rfl, rfl, rfl, c2⟩
  · intro i j k m hg hm
    have := hpt i j k m hg hm
    obtain ⟨hlt, he⟩ := List.getElem?_eq_some_iff.1 this
    refine ⟨by rw [hi.base.len]; exact hlt, ?_⟩
    rw [← hh, ← he, hi.base.nodup.idxOf_getElem]
  · intro i j k m hg hm
    rw [hi.coord _ _ (hpt i j k m hg hm), coordsAt_nodePos hc hg hm]

/-- **C55 (subdivision).** For every block obtained through the API whose divisions are not too small, and every kind of quadrilaterals
(hexahedra in 3D): `subdivide` never panics; it returns an error exactly if a node to be moved by a constraint is at the centre; otherwise
the mesh is the subdivision, whatever the iteration order of the hash maps. -/
theorem C55_subdivide (h : Reached inv nrow ndim at_ b) (hf : NotTooFine b) (ht : TargetOk b target) (hI : IterOrder iterG) (hIC : IterOrder iterC) :
    (Unmappable nrow ndim at_ b target → ∃ e, subdivide iterG iterC b target = .err e) ∧
    (¬ Unmappable nrow ndim at_ b target → ∃ M, subdivide iterG iterC b target = .ok M ∧ IsSubdivision b target M) := by
  have hc := h.ctx hf ht
  have hbad := badNode_iff h hf ht
  rcases subdivide_spec h.wf hc hI hIC (iterG := iterG) (iterC := iterC) with ⟨M, hM, H, st, hi, rfl⟩ | ⟨⟨e, he⟩, hB⟩
  · refine ⟨fun hu => ?_, fun _ => ⟨_, hM, isSubdivision_of_inv hc hi⟩⟩
    exfalso
    obtain ⟨ξ, ⟨i, j, k, m, hg, hm, rfl⟩, e, he⟩ := hbad.2 hu
    obtain ⟨pts, -, -, c3⟩ := hi.cells i j k hg (cellNum_lt hg)
    obtain ⟨r, hr⟩ := hi.base.good _ (List.mem_of_getElem? (c3 m hm))
    rw [hr] at he
    cases he
  · exact ⟨fun _ => ⟨e, he⟩, fun hu => absurd (hbad.1 hB) hu⟩

/-- **C55 (wrong kind).** A kind that is not a quadrilateral in 2D (hexahedron in 3D) is an error. -/
theorem C55_wrong_kind (h : Reached inv nrow ndim at_ b) (ht : ¬ TargetOk b target) : ∃ e, subdivide iterG iterC b target = .err e := by
  unfold subdivide
  unfold TargetOk at ht
  rcases h.wf.dims with hd | hd
  · rw [if_pos hd] at ht
    rw [if_pos ⟨hd, ht⟩]
    exact ⟨_, rfl⟩
  · rw [if_neg (by omega)] at ht
    rw [if_neg (by omega), if_pos ⟨by omega, ht⟩]
    exact ⟨_, rfl⟩

/-- **C55 (conforming).** Two nodes of two cells (or of the same cell) are the same point exactly if they are at the same position of the
block, that is: in every direction, the divisions and the reference coordinates are equal, or the divisions are adjacent and the nodes
are at the common end. In particular, the nodes of a cell are different points. -/
theorem C55_shared (h : Reached inv nrow ndim at_ b) (hf : NotTooFine b) (ht : TargetOk b target) {M : Mesh ℝ} (hM : IsSubdivision b target M)
    {i j k m i' j' k' m' : Nat} (hg : InGrid b i j k) (hm : m < target.nnode) (hg' : InGrid b i' j' k') (hm' : m' < target.nnode) :
    (ptAt b M i j k m = ptAt b M i' j' k' m' ↔ nodePos b target i j k m = nodePos b target i' j' k' m') ∧
    (nodePos b target i j k m = nodePos b target i' j' k' m' ↔ ∀ a < ndim,
      (pick i j k a = pick i' j' k' a ∧ refCoordQ target m a = refCoordQ target m' a) ∨
      (pick i' j' k' a = pick i j k a + 1 ∧ refCoordQ target m a = 1 ∧ refCoordQ target m' a = -1) ∨
      (pick i j k a = pick i' j' k' a + 1 ∧ refCoordQ target m a = -1 ∧ refCoordQ target m' a = 1)) := by
  have hc := h.ctx hf ht
  constructor
  · constructor
    · intro he
      obtain ⟨l1, e1⟩ := hM.node i j k m hg hm
      obtain ⟨l2, e2⟩ := hM.node i' j' k' m' hg' hm'
      rw [hM.npoint] at l1 l2
      have i1 : (nodeList b target (numCells b))[ptAt b M i j k m] = nodePos b target i j k m := by
        simp only [e1]; rw [List.getElem_idxOf]
      have i2 : (nodeList b target (numCells b))[ptAt b M i' j' k' m'] = nodePos b target i' j' k' m' := by
        simp only [e2]; rw [List.getElem_idxOf]
      rw [← i1, ← i2]
      simp only [he]
    · intro he
      rw [(hM.node i j k m hg hm).2, (hM.node i' j' k' m' hg' hm').2, he]
  · rw [nodePos_eq_iff hc hg hg' hm hm', h.wf.ndim_eq]
    refine forall₂_congr fun a ha => ?_
    unfold Same
    have e1 : ∀ n n', rr target n a = rr target n' a ↔ refCoordQ target n a = refCoordQ target n' a := by
      intro n n'
      unfold rr refCoord
      constructor
      · intro h
        have : ((refCoordQ target n a : ℚ) : ℝ) = (refCoordQ target n' a : ℚ) := by linarith
        exact_mod_cast this
      · intro h; rw [h]
    have e2 : ∀ n, rr target n a = 1 ↔ refCoordQ target n a = 1 := by
      intro n
      unfold rr refCoord
      constructor
      · intro h
        have : ((refCoordQ target n a : ℚ) : ℝ) = (1 : ℚ) := by push_cast; linarith
        exact_mod_cast this
      · intro h; rw [h]; norm_num
    have e3 : ∀ n, rr target n a = 0 ↔ refCoordQ target n a = -1 := by
      intro n
      unfold rr refCoord
      constructor
      · intro h
        have : ((refCoordQ target n a : ℚ) : ℝ) = (-1 : ℚ) := by push_cast; linarith
        exact_mod_cast this
      · intro h; rw [h]; norm_num
    rw [e1, e2, e2, e3, e3]
    constructor
    · rintro (h | h | ⟨h1, h2, h3⟩)
      · exact .inl h
      · exact .inr (.inl h)
      · exact .inr (.inr ⟨h1, h3, h2⟩)
    · rintro (h | h | ⟨h1, h2, h3⟩)
      · exact .inl h
      · exact .inr (.inl h)
      · exact .inr (.inr ⟨h1, h3, h2⟩)

theorem mem_distinctFrom (H L : List (List ℝ)) (x : List ℝ) : x ∈ distinctFrom H L ↔ x ∈ H ∨ x ∈ L := by
  induction L generalizing H with
  | nil => simp [distinctFrom]
  | cons y L ih =>
    rw [show y :: L = [y] ++ L from rfl, distinctFrom_append, ih]
    by_cases hy : y ∈ H
    · rw [distinctFrom_old hy]
      simp only [List.mem_append, List.mem_singleton]
      constructor
      · rintro (h | h) <;> simp [h]
      · rintro (h | h | h)
        · exact .inl h
        · subst h; exact .inl hy
        · exact .inr h
    · rw [distinctFrom_new hy]
      simp [or_assoc]

theorem nodup_distinctFrom (H L : List (List ℝ)) (h : H.Nodup) : (distinctFrom H L).Nodup := by
  induction L generalizing H with
  | nil => exact h
  | cons y L ih =>
    rw [show y :: L = [y] ++ L from rfl, distinctFrom_append]
    apply ih
    by_cases hy : y ∈ H
    · rw [distinctFrom_old hy]; exact h
    · rw [distinctFrom_new hy, List.nodup_append]
      exact ⟨h, by simp, by rintro a ha b hb rfl; rw [List.mem_singleton] at hb; exact hy (hb ▸ ha)⟩

theorem mem_nodeList (x : List ℝ) : x ∈ nodeList b target (numCells b) ↔ IsNode b target x := by
  unfold nodeList
  rw [mem_distinctFrom, List.mem_flatMap]
  simp only [List.not_mem_nil, false_or, List.mem_range]
  constructor
  · rintro ⟨n, hn, hx⟩
    obtain ⟨i, j, k, hg, rfl⟩ := cellNum_surj hn
    obtain ⟨n1, n2, n3⟩ := ijk_of_num hg
    unfold cellPositions at hx
    rw [n1, n2, n3, List.mem_map] at hx
    obtain ⟨m, hm, rfl⟩ := hx
    exact ⟨i, j, k, m, hg, List.mem_range.1 hm, rfl⟩
  · rintro ⟨i, j, k, m, hg, hm, rfl⟩
    obtain ⟨n1, n2, n3⟩ := ijk_of_num hg
    refine ⟨_, cellNum_lt hg, ?_⟩
    unfold cellPositions
    rw [n1, n2, n3, List.mem_map]
    exact ⟨m, List.mem_range.2 hm, rfl⟩

/-- **C55 (no unused point).** Every point is the point of a node. -/
theorem C55_used {M : Mesh ℝ} (hM : IsSubdivision b target M) {p : Nat} (hp : p < M.points.length) :
    ∃ i j k m, InGrid b i j k ∧ m < target.nnode ∧ ptAt b M i j k m = p := by
  rw [hM.npoint] at hp
  obtain ⟨i, j, k, m, hg, hm, he⟩ := (mem_nodeList _).1 (List.getElem_mem hp)
  refine ⟨i, j, k, m, hg, hm, ?_⟩
  rw [(hM.node i j k m hg hm).2, ← he]
  exact (nodup_distinctFrom [] _ List.nodup_nil).idxOf_getElem p hp

/-- **C55 (valid mesh).** The mesh passes the check of ids and kinds, and the coordinates are complete. -/
theorem C55_valid {M : Mesh ℝ} (hM : IsSubdivision b target M) : ValidMesh M := by
  have hcell : ∀ (n : Nat) c, M.cells[n]? = some c → ∃ i j k, InGrid b i j k ∧ cellNum b i j k = n ∧ c.id = n ∧ c.kind = target ∧ c.points.length = target.nnode := by
    intro n c hn
    have hlt := (List.getElem?_eq_some_iff.1 hn).1
    rw [hM.ncell] at hlt
    obtain ⟨i, j, k, hg, rfl⟩ := cellNum_surj hlt
    obtain ⟨c', h1, h2, -, h4, h5⟩ := hM.cells i j k hg
    rw [hn] at h1; cases h1
    exact ⟨i, j, k, hg, rfl, h2, h4, h5⟩
  refine ⟨?_, ?_, ?_, ?_, ?_⟩
  · intro p hp
    obtain ⟨n, hn⟩ := List.mem_iff_getElem?.1 hp
    rw [hM.ndim]
    exact (hM.points n p hn).2.2
  · intro i p hp
    exact (hM.points i p hp).1
  · intro n c hn
    obtain ⟨i, j, k, -, -, h, -⟩ := hcell n c hn
    exact h
  · intro c hc
    obtain ⟨n, hn⟩ := List.mem_iff_getElem?.1 hc
    obtain ⟨i, j, k, -, -, -, h1, h2⟩ := hcell n c hn
    rw [h1, h2]
  · intro c hc p hp
    obtain ⟨n, hn⟩ := List.mem_iff_getElem?.1 hc
    obtain ⟨i, j, k, hg, rfl, -, h1, h2⟩ := hcell n c hn
    obtain ⟨m, hm⟩ := List.mem_iff_getElem?.1 hp
    have hlt := (List.getElem?_eq_some_iff.1 hm).1
    have := (hM.node i j k m hg (by omega)).1
    unfold ptAt at this
    rw [hn] at this
    simp only [Option.map_some, Option.getD_some, List.getD_eq_getElem?_getD, hm] at this
    exact this

/-- **C55 (coordinates of the corners).** Whatever the constraints, a node at a corner of a cell has the mapped coordinates. -/
theorem C56_corners {M : Mesh ℝ} (hM : IsSubdivision b target M) {i j k m : Nat} (hg : InGrid b i j k) (hm : m < target.nnode)
    (hcorner : ∀ a < target.ndim, refCoordQ target m a = -1 ∨ refCoordQ target m a = 1) :
    coordsOf M (ptAt b M i j k m) = mapped b (nodePos b target i j k m) := by
  rw [hM.coords i j k m hg hm]
  have hfree : freeDirs target m = [] := by
    unfold freeDirs
    rw [List.filter_eq_nil_iff]
    intro a ha
    rw [List.mem_range] at ha
    rcases hcorner a ha with h | h <;> simp [h]
  unfold finalCoords
  split
  · rw [hfree, if_pos (by simp)]
    unfold edgeCoords
    rw [hfree]
  · rfl

theorem mapped_unconstrained (h : Reached inv nrow ndim at_ b) (hf : NotTooFine b) (ht : TargetOk b target) (hno : ∀ s, constraintOf b s = none)
    {ξ : List ℝ} (hn : IsNode b target ξ) : mapped b ξ = if b.transformIntoRing then ringMap b ξ else isoMap nrow ndim at_ ξ := by
  by_cases hr : b.transformIntoRing = true
  · rw [if_pos hr]
    unfold mapped realCoords
    rw [if_pos hr]
    dsimp only
    unfold mapCoordsCylindrical ringMap at'
    dsimp only
    rcases h.wf.dims with hd | hd
    · rw [if_neg (by omega), if_pos hd]
      congr 1
      · ring_nf
      · congr 1; ring_nf
    · rw [if_pos hd, if_neg (by omega)]
      congr 1
      · ring_nf
      · congr 1
        · ring_nf
        · congr 1; ring
  · rw [if_neg hr]
    refine ((C42_mapped h hf ht (by simpa using hr) hn).1 ?_).1
    rintro s S ⟨-, -, hS⟩
    rw [hno s] at hS; cases hS

theorem hasConstraints_false (h : Reached inv nrow ndim at_ b) (hno : ∀ s, constraintOf b s = none) : hasConstraints b = false := by
  unfold hasConstraints
  rw [decide_eq_false_iff_not]
  push Not
  unfold constraintOf at hno
  have hw := h.wf
  have key : ∀ {V : Type} (m : HMap Nat V), (∀ s, m.get s = none) → m.length ≤ 0 := by
    intro V m hm
    match m, hm with
    | [], _ => simp
    | (s, v) :: l, hm =>
      have := hm s
      simp [HMap.get] at this
  rcases hw.dims with hd | hd
  · refine ⟨key _ (fun s => ?_), key _ (fun s => ?_)⟩
    · have := hno s
      rw [if_pos hd, Option.map_eq_none_iff] at this
      exact this
    · cases hs : b.faceConstraints.get s with
      | none => rfl
      | some v => exact absurd (hw.faceC s v hs).1 (by omega)
  · refine ⟨key _ (fun s => ?_), key _ (fun s => ?_)⟩
    · cases hs : b.edgeConstraints.get s with
      | none => rfl
      | some v => exact absurd (hw.edgeC s v hs).1 (by omega)
    · have := hno s
      rw [if_neg (by omega), Option.map_eq_none_iff] at this
      exact this

/-- **C56 (no constraints).** Without constraints, `subdivide` succeeds and every point is at the image of its position by the
isoparametric map of the given array, or by the ring map if the block is transformed into a ring. -/
theorem C56_unconstrained (h : Reached inv nrow ndim at_ b) (hf : NotTooFine b) (ht : TargetOk b target) (hI : IterOrder iterG) (hIC : IterOrder iterC)
    (hno : ∀ s, constraintOf b s = none) :
    ∃ M, subdivide iterG iterC b target = .ok M ∧ IsSubdivision b target M ∧ ∀ i j k m, InGrid b i j k → m < target.nnode →
      coordsOf M (ptAt b M i j k m) =
        if b.transformIntoRing then ringMap b (nodePos b target i j k m) else isoMap nrow ndim at_ (nodePos b target i j k m) := by
  obtain ⟨M, h1, h2⟩ := (C55_subdivide h hf ht hI hIC).2 (by
    rintro ⟨-, ξ, s, S, -, ⟨⟨-, -, hS⟩, -⟩, -⟩
    rw [hno s] at hS; cases hS)
  refine ⟨M, h1, h2, fun i j k m hg hm => ?_⟩
  rw [h2.coords i j k m hg hm, ← mapped_unconstrained h hf ht hno ⟨i, j, k, m, hg, hm, rfl⟩]
  unfold finalCoords
  rw [if_neg (by rw [hasConstraints_false h hno]; simp)]

/-- **C56 (ring).** The points of a ring: the radius is between the given limits and depends linearly on the first coordinate of the
position, the angle on the second, z on the third; the coordinates of the block are not used. -/
theorem C56_ring (h : Reached inv nrow ndim at_ b) {ξ : List ℝ} (hin : ∀ a < b.ndim, -1 ≤ ξ.getD a 0 ∧ ξ.getD a 0 ≤ 1) :
    ∃ r t : ℝ, b.argsRing.rmin ≤ r ∧ r ≤ b.argsRing.rmax ∧ b.argsRing.amin ≤ t ∧ t ≤ b.argsRing.amax ∧ 0 ≤ t ∧ t ≤ Real.pi / 2 ∧
      (ringMap b ξ).getD 0 0 = r * Real.cos t ∧ (ringMap b ξ).getD 1 0 = r * Real.sin t ∧
      (ringMap b ξ).getD 0 0 ^ 2 + (ringMap b ξ).getD 1 0 ^ 2 = r ^ 2 ∧
      (ndim = 3 → b.argsRing.zmin ≤ (ringMap b ξ).getD 2 0 ∧ (ringMap b ξ).getD 2 0 ≤ b.argsRing.zmax) := by
  have hw := h.wf
  obtain ⟨w1, w2, w3, w4, w5⟩ := hw.ring
  have h0 := hin 0 (by rcases hw.dims with h | h <;> omega)
  have h1 := hin 1 (by rcases hw.dims with h | h <;> omega)
  have lin : ∀ {lo hi x : ℝ}, lo < hi → -1 ≤ x → x ≤ 1 → lo ≤ lo + (x + 1) / 2 * (hi - lo) ∧ lo + (x + 1) / 2 * (hi - lo) ≤ hi := by
    intro lo hi x h1 h2 h3
    constructor <;> nlinarith
  obtain ⟨r1, r2⟩ := lin w2 h0.1 h0.2
  obtain ⟨t1, t2⟩ := lin w1 h1.1 h1.2
  refine ⟨_, _, r1, r2, t1, t2, w4.trans t1, t2.trans w5, ?_⟩
  have e : ∀ r t : ℝ, (r * Real.cos t) ^ 2 + (r * Real.sin t) ^ 2 = r ^ 2 := by
    intro r t
    have := Real.sin_sq_add_cos_sq t
    rw [mul_pow, mul_pow, ← mul_add, add_comm, this, mul_one]
  rcases hw.dims with hd | hd
  · unfold ringMap
    dsimp only
    rw [if_pos hd]
    exact ⟨rfl, rfl, e _ _, fun h3 => by have := hw.ndim_eq; omega⟩
  · unfold ringMap
    dsimp only
    rw [if_neg (by omega)]
    refine ⟨rfl, rfl, e _ _, fun _ => ?_⟩
    have h2 := hin 2 (by omega)
    exact lin w3 h2.1 h2.2

/-- **C56 (nodes within edges).** With constraints and middle nodes: the nodes within an edge one of whose ends was moved by a side
orthogonal to the edge are on the straight line between the ends; the other nodes within edges have the mapped coordinates. -/
theorem C56_edges {M : Mesh ℝ} (hM : IsSubdivision b target M) {i j k m d : Nat} (hg : InGrid b i j k) (hm : m < target.nnode)
    (hfree : freeDirs target m = [d]) (hcon : hasConstraints b = true) (hen : 2 < target.edgeNnode) :
    (Pulled b (endPos b target i j k m d 0) (endPos b target i j k m d 1) d →
      coordsOf M (ptAt b M i j k m) = (List.range b.ndim).map fun c =>
        (1 - refCoord target m d) / 2 * (mapped b (endPos b target i j k m d 0)).getD c 0 + (1 + refCoord target m d) / 2 * (mapped b (endPos b target i j k m d 1)).getD c 0) ∧
    (¬ Pulled b (endPos b target i j k m d 0) (endPos b target i j k m d 1) d →
      coordsOf M (ptAt b M i j k m) = mapped b (nodePos b target i j k m)) := by
  rw [hM.coords i j k m hg hm, finalCoords_fix ⟨hcon, hen⟩ (by rw [hfree]; simp)]
  unfold edgeCoords
  rw [hfree]
  dsimp only
  constructor
  · intro hp
    rw [if_pos hp]
    apply List.map_congr_left
    intro c _
    ring
  · intro hp
    rw [if_neg hp]

/-- **C42 (nodes of a constrained side).** If one side of the block has a constraint and the block is not a ring then in the mesh all
nodes on this side, for all kinds of cells, are exactly on the circle (cylinder). -/
theorem C42_single_constraint (h : Reached inv nrow ndim at_ b) (hf : NotTooFine b) (ht : TargetOk b target) (hr : b.transformIntoRing = false)
    {s : Nat} {S : Surface} (hs : s < 2 * ndim) (hS : constraintOf b s = some S) (honly : ∀ s', s' ≠ s → constraintOf b s' = none)
    (hgood : ¬ Unmappable nrow ndim at_ b target) {M : Mesh ℝ} (hM : IsSubdivision b target M) {i j k m : Nat} (hg : InGrid b i j k) (hm : m < target.nnode)
    (hon : OnSide b.ndim s (nodePos b target i j k m)) : S.On (coordsOf M (ptAt b M i j k m)) := by
  have hw := h.wf
  have hc := h.ctx hf ht
  have hnode : IsNode b target (nodePos b target i j k m) := ⟨i, j, k, m, hg, hm, rfl⟩
  have hfirst : ∀ ξ, OnSide b.ndim s ξ → S.Off (isoMap nrow ndim at_ ξ) → FirstOff b ξ (isoMap nrow ndim at_ ξ) s S := by
    intro ξ hξ hO
    refine ⟨⟨by rw [hw.ndim_eq]; exact hs, hξ, hS⟩, hO, fun s' hs' S' hA => ?_⟩
    have := hA.2.2
    rw [honly s' (by omega)] at this; cases this
  have hmap : S.On (mapped b (nodePos b target i j k m)) := by
    obtain ⟨h1, h2⟩ := C42_mapped h hf ht hr hnode
    by_cases hO : S.Off (isoMap nrow ndim at_ (nodePos b target i j k m))
    · have hF := hfirst _ hon hO
      have hd : 1 / 10 ^ 8 < S.dist (isoMap nrow ndim at_ (nodePos b target i j k m)) := by
        by_contra hle
        exact hgood ⟨hr, _, s, S, hnode, hF, not_lt.1 hle⟩
      rw [((h2 s S hF).1 hd).1]
      exact (C42_projection hc.dims hS (by rw [hw.ndim_eq]; simp [isoMap]) (lt_trans (by norm_num) hd)).2.1
    · rw [(h1 ?_).1]
      · unfold Surface.Off at hO
        push Not at hO
        unfold Surface.On
        rw [← hO.2]
        unfold Surface.dist
        rw [Real.sq_sqrt (by positivity)]
      · intro s' S' hA
        have := hA.2.2
        by_cases hss : s' = s
        · subst hss
          rw [hS] at this; cases this
          exact hO
        · rw [honly s' hss] at this; cases this
  have hsd : sideDir b.ndim s < b.ndim := by
    have := sides_spec hc.dims _ (sides_mem hc.dims (show s < 2 * b.ndim by rw [hw.ndim_eq]; exact hs))
    exact this.2.2.1
  have hrr : rr target m (sideDir b.ndim s) = 0 ∨ rr target m (sideDir b.ndim s) = 1 := by
    have hv := (sides_spec hc.dims _ (sides_mem hc.dims (show s < 2 * b.ndim by rw [hw.ndim_eq]; exact hs))).2.2.2.2
    dsimp only at hv
    unfold OnSide at hon
    rw [getD_nodePos hsd] at hon
    rcases hv with hv | hv
    · rw [hv] at hon
      rcases pos_low (hc.dir _ hsd) (hg.pick hsd hc.dims) (hc.rok hm hsd) with ⟨-, h, -⟩ | h
      · exact .inl h
      · rw [hon] at h; norm_num at h
    · rw [hv] at hon
      rcases pos_high (hc.dir _ hsd) (hg.pick hsd hc.dims) (hc.rok hm hsd) with ⟨-, h, -⟩ | h
      · exact .inr h
      · rw [hon] at h; norm_num at h
  have hnf : sideDir b.ndim s ∉ freeDirs target m := by
    intro hmem
    obtain ⟨-, a, b⟩ := mem_freeDirs.1 hmem
    rcases hrr with h | h
    · exact a h
    · exact b h
  rw [hM.coords i j k m hg hm]
  by_cases hfix : hasConstraints b ∧ target.edgeNnode > 2
  · have hle : (freeDirs target m).length ≤ 1 := by
      by_contra hgt
      obtain ⟨h2, he⟩ := free_all target hc.qh m hm (by omega)
      apply hnf
      rw [he]
      rw [hc.ndim] at h2
      have : sideDir b.ndim s = 0 ∨ sideDir b.ndim s = 1 := by omega
      rcases this with h | h <;> simp [h]
    rw [finalCoords_fix hfix hle]
    unfold edgeCoords
    match hfd : freeDirs target m with
    | [] => exact hmap
    | d :: l =>
      dsimp only
      rw [if_neg]
      · exact hmap
      · have hdm : d ∈ freeDirs target m := by rw [hfd]; simp
        have hdl := mem_freeDirs.1 hdm
        have hend : ∀ ξ, IsNode b target ξ → ∀ s', movedBy b ξ = some s' → s' = s := by
          intro ξ hξ s' hmv
          by_contra hne
          obtain ⟨h1, h2⟩ := C42_mapped h hf ht hr hξ
          by_cases hall : ∀ s S, Active b ξ s S → ¬ S.Off (isoMap nrow ndim at_ ξ)
          · rw [(h1 hall).2] at hmv; cases hmv
          · push Not at hall
            obtain ⟨s2, S2, hA, hO⟩ := hall
            have : s2 = s := by
              by_contra hne2
              have := hA.2.2
              rw [honly s2 hne2] at this; cases this
            subst this
            have hSS : S2 = S := by have := hA.2.2; rw [hS] at this; exact (Option.some.inj this).symm
            subst hSS
            have hF := hfirst ξ hA.2.1 hO
            have hd : 1 / 10 ^ 8 < S2.dist (isoMap nrow ndim at_ ξ) := by
              by_contra hle
              exact hgood ⟨hr, _, s2, S2, hξ, hF, not_lt.1 hle⟩
            rw [((h2 s2 S2 hF).1 hd).2] at hmv
            cases hmv
            exact hne rfl
        obtain ⟨ek, hek⟩ : ∃ ek, target.edgeKind = some ek := by
          have := hc.qh
          clear * - this
          cases target <;> first | exact absurd this (by unfold IsQuaHex; decide) | exact ⟨_, rfl⟩
        obtain ⟨e, he, idx, hidx, h2, hedge⟩ := edge_of_mid target hc.qh m hm (by rw [hfd] at hle ⊢; simp at hle ⊢; exact hle)
        subst hedge
        have hd : d = edgeDir target e := by
          have := (edge_mids target ek hc.qh hek e he idx hidx h2).2.1
          rw [hfd] at this
          exact (List.cons.inj this).1
        obtain ⟨-, c1, c2, -⟩ := edge_corners target hc.qh e he
        rintro ⟨s', hmv, hdir⟩
        have hs' : s' = s := by
          rw [hd] at hmv
          rcases ends_of_mid (b := b) (i := i) (j := j) (k := k) hc hek he hidx h2 with ⟨-, e1, e2⟩ | ⟨-, e1, e2⟩ <;> rw [e1, e2] at hmv
          · rcases hmv with h | h
            · exact hend _ ⟨i, j, k, _, hg, c1, rfl⟩ _ h
            · exact hend _ ⟨i, j, k, _, hg, c2, rfl⟩ _ h
          · rcases hmv with h | h
            · exact hend _ ⟨i, j, k, _, hg, c2, rfl⟩ _ h
            · exact hend _ ⟨i, j, k, _, hg, c1, rfl⟩ _ h
        subst hs'
        apply hnf
        rw [hdir]
        exact hdm
  · unfold finalCoords
    rw [if_neg hfix]
    exact hmap

end
end Gemlab.Block
