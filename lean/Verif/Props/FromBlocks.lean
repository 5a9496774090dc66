import Verif.Proofs.FromBlocks
import Verif.Proofs.EvenBlock
import Verif.Props.JoinExact
import Verif.Props.Rings

/-! # C66: meshes from blocks -/
namespace Gemlab.Structured
noncomputable section
open Classical
open Gemlab.Mesh Gemlab.Shapes Gemlab.Block Gemlab.Spec

variable {inv : MatInverse} {o : GenOrders}

/-- From settings to a region block. -/
theorem region_of {nrow ndim : Nat} {d : Region} {nd dk cs es fs} {b : Block} (h : HasSettings inv nrow ndim d.at_ d.marker nd dk cs es fs b) (hn : nrow = 2 ^ ndim)
    {E F}
    (h1 : nd = if d.Weighted then d.weights.map List.length else List.replicate ndim 2)
    (h2 : dk = if d.Weighted then d.weights.map proportional else List.replicate ndim (equalDivisions 2))
    (h3 : ∀ s, cs s = (d.constraint.filter fun c => c.1 = s).map (·.2))
    (h4 : ∀ e, es e = if e < (cornerKind ndim).nedge then edgeMark E (d.corners.getD (edgeNode (cornerKind ndim) e 0) 0) (d.corners.getD (edgeNode (cornerKind ndim) e 1) 0) else none)
    (h5 : ∀ f, fs f = if f < (cornerKind ndim).nface then faceMark F ((List.range 4).map fun t => d.corners.getD (faceNode (cornerKind ndim) f t) 0) else none) :
    IsRegionBlock inv ndim d E F b := by
  subst hn h1 h2
  exact h.congr h3 h4 h5

theorem weighted_ite {α : Type} {d : Region} {x y : α} {dec} : (@ite α (∀ v ∈ d.weights, v ≠ []) dec x y) = if d.Weighted then x else y := by
  unfold Region.Weighted
  congr

/-- **C66 (one region, 2D).** If data is missing no block is made. Otherwise an unusable region is an error, and the block of a usable region
has its marker, divisions and constraint, and the markers of its edges. -/
theorem C66_region_2d (hinv : InverseSpec inv) (hnp : ∀ n a, inv n a ≠ .panic) (hall : ∀ n a, detN n a ≠ 0 → ∃ r, inv n a = .ok r) (blocks : Blocks2d) (i : Nat) :
    (region2d blocks i = none → ∀ b, makeBlock2d inv blocks i ≠ .ok b) ∧
    ∀ d, region2d blocks i = some d →
      (d.Accepted 2 → ∃ b, makeBlock2d inv blocks i = .ok b ∧ IsRegionBlock inv 2 d blocks.markedEdges [] b) ∧
      (¬ d.Accepted 2 → ∃ e, makeBlock2d inv blocks i = .err e) := by
  constructor
  · intro hn b hb
    unfold makeBlock2d at hb
    obtain ⟨reg, h1, hb⟩ := Res.bind_eq_ok.1 hb
    rw [Res.idx_eq_ok] at h1
    obtain ⟨rows, h2, hb⟩ := Res.bind_eq_ok.1 hb
    obtain ⟨b1, -, hb⟩ := Res.bind_eq_ok.1 hb
    obtain ⟨w, h3, hb⟩ := Res.bind_eq_ok.1 hb
    obtain ⟨b2, -, hb⟩ := Res.bind_eq_ok.1 hb
    obtain ⟨c, h4, hb⟩ := Res.bind_eq_ok.1 hb
    rw [Res.idx_eq_ok] at h3 h4
    unfold region2d at hn
    simp only [h1, h3, h4, Option.bind_eq_bind, Option.bind_some] at hn
    cases hr : [reg.2.1, reg.2.2.1, reg.2.2.2.1, reg.2.2.2.2].mapM (fun p => (blocks.points[p]?).map fun x => [x.1, x.2]) with
    | none => rw [rows_none hr] at h2; cases h2
    | some rs => rw [hr] at hn; simp at hn
  · intro d hd
    unfold region2d at hd
    simp only [Option.bind_eq_bind, Option.bind_eq_some_iff, Option.some.injEq] at hd
    obtain ⟨reg, h1, rows, h2, w, h3, c, h4, rfl⟩ := hd
    obtain ⟨r1, r2⟩ := rows_of h2
    have hblock := C54_new (nrow := 4) (ndim := 2) (at_ := fun m j => at' (rows.getD m []) j) hinv hnp hall
    have hlen : rows.length = 4 := by rw [r2]; rfl
    have hbo : blockOf inv 2 rows = Block.new inv 4 2 (fun m j => at' (rows.getD m []) j) := by unfold blockOf; rw [hlen]
    have e0 : makeBlock2d inv blocks i = (blockOf inv 2 rows >>= fun b =>
        withWeights2d (b.setMarker reg.1) w >>= fun b =>
        withEdgeConstraint b c >>= fun b =>
        setMarkedEdges .qua4 (edgeMap blocks.markedEdges) [reg.2.1, reg.2.2.1, reg.2.2.2.1, reg.2.2.2.2] b) := by
      unfold makeBlock2d
      simp only [(Res.idx_eq_ok ..).2 h1, (Res.idx_eq_ok ..).2 h3, (Res.idx_eq_ok ..).2 h4, Res.bind_ok]
      rw [r1, Res.bind_ok]
    rw [e0, hbo]
    by_cases hj : 0 < detN 2 (centreJacobian 4 2 (fun m j => at' (rows.getD m []) j))
    swap
    · obtain ⟨e, he⟩ := hblock.2 (fun hh => hj hh.2)
      rw [he]
      exact ⟨fun ha => absurd ha.jacobian hj, fun _ => ⟨e, rfl⟩⟩
    obtain ⟨b0, hb0⟩ := hblock.1 ⟨.inl ⟨rfl, .inl rfl⟩, hj⟩
    rw [hb0, Res.bind_ok]
    have s1 := settings_marker (settings_new hb0) reg.1
    -- the divisions
    have hdiv : ((∀ v ∈ [w.1, w.2], v ≠ []) → ∀ v ∈ [w.1, w.2], 1 ≤ v.sum) →
        ∃ b1 : Block, withWeights2d (b0.setMarker reg.1) w = .ok b1 ∧
        HasSettings inv 4 2 (fun m j => at' (rows.getD m []) j) reg.1 (if ∀ v ∈ [w.1, w.2], v ≠ [] then [w.1, w.2].map List.length else List.replicate 2 2)
          (if ∀ v ∈ [w.1, w.2], v ≠ [] then [w.1, w.2].map proportional else List.replicate 2 (equalDivisions 2)) (fun _ => none) (fun _ => none) (fun _ => none) b1 := by
      intro hw
      unfold withWeights2d
      by_cases hne : ∀ v ∈ [w.1, w.2], v ≠ []
      · have n1 : w.1 ≠ [] := hne _ (by simp)
        have n2 : w.2 ≠ [] := hne _ (by simp)
        rw [if_pos ⟨List.length_pos_iff.2 n1, List.length_pos_iff.2 n2⟩, if_pos hne, if_pos hne]
        exact (settings_weights2 s1 n1 n2).1 ⟨hw hne _ (by simp), hw hne _ (by simp)⟩
      · rw [if_neg (fun hh => hne (by
          intro v hv; simp at hv; rcases hv with rfl | rfl
          · exact List.length_pos_iff.1 hh.1
          · exact List.length_pos_iff.1 hh.2)), if_neg hne, if_neg hne]
        exact ⟨_, rfl, s1⟩
    have hdivbad : ¬ ((∀ v ∈ [w.1, w.2], v ≠ []) → ∀ v ∈ [w.1, w.2], 1 ≤ v.sum) →
        ∃ e, withWeights2d (b0.setMarker reg.1) w = .err e := by
      intro hw
      unfold withWeights2d
      rw [Classical.not_imp] at hw
      obtain ⟨hne, hw⟩ := hw
      have n1 : w.1 ≠ [] := hne _ (by simp)
      have n2 : w.2 ≠ [] := hne _ (by simp)
      rw [if_pos ⟨List.length_pos_iff.2 n1, List.length_pos_iff.2 n2⟩]
      refine (settings_weights2 s1 n1 n2).2 (fun hh => hw ?_)
      intro v hv; simp at hv; rcases hv with rfl | rfl
      · exact hh.1
      · exact hh.2
    by_cases hw : ((∀ v ∈ [w.1, w.2], v ≠ []) → ∀ v ∈ [w.1, w.2], 1 ≤ v.sum)
    swap
    · obtain ⟨e, he⟩ := hdivbad hw
      rw [he]
      exact ⟨fun ha => absurd ha.weights hw, fun _ => ⟨e, rfl⟩⟩
    obtain ⟨b1, e1, s2⟩ := hdiv hw
    rw [e1, Res.bind_ok]
    -- the constraint
    have hc : (∀ c', c.map (fun c => (c.1, surface2d c.2)) = some c' → c'.1 < 2 * 2) →
        ∃ b2 : Block, withEdgeConstraint b1 c = .ok b2 ∧
        HasSettings inv 4 2 (fun m j => at' (rows.getD m []) j) reg.1 (if ∀ v ∈ [w.1, w.2], v ≠ [] then [w.1, w.2].map List.length else List.replicate 2 2)
          (if ∀ v ∈ [w.1, w.2], v ≠ [] then [w.1, w.2].map proportional else List.replicate 2 (equalDivisions 2))
          (fun s => ((c.map (fun c => (c.1, surface2d c.2))).filter fun c => c.1 = s).map (·.2)) (fun _ => none) (fun _ => none) b2 := by
      intro hs
      cases c with
      | none => exact ⟨b1, rfl, s2⟩
      | some c =>
        obtain ⟨b2, e2, s3⟩ := (settings_edgeConstraint s2 c.1 c.2).1 (hs _ rfl)
        refine ⟨b2, e2, s3.congr (fun s => ?_) (fun _ => rfl) (fun _ => rfl)⟩
        by_cases he : s = c.1
        · subst he; simp [Option.filter]
        · have : ¬ c.1 = s := fun h => he h.symm
          simp [Option.filter, he, this]
    by_cases hs : ∀ c', c.map (fun c => (c.1, surface2d c.2)) = some c' → c'.1 < 2 * 2
    swap
    · have : ∃ e, withEdgeConstraint b1 c = .err e := by
        cases c with
        | none => exact absurd (by simp) hs
        | some c => exact (settings_edgeConstraint s2 c.1 c.2).2 (fun h4 => hs (by intro c' hc'; cases hc'; exact h4))
      obtain ⟨e, he⟩ := this
      rw [he]
      exact ⟨fun ha => absurd ha.side hs, fun _ => ⟨e, rfl⟩⟩
    obtain ⟨b2, e2, s3⟩ := hc hs
    rw [e2, Res.bind_ok]
    obtain ⟨b3, e3, s4⟩ := settings_markedEdges s3 (kind := .qua4) (by decide) (edgeMap blocks.markedEdges) [reg.2.1, reg.2.2.1, reg.2.2.2.1, reg.2.2.2.2]
    refine ⟨fun _ => ⟨b3, e3, ?_⟩, fun hn => absurd ⟨hj, hw, hs⟩ hn⟩
    refine region_of (d := ⟨reg.1, [reg.2.1, reg.2.2.1, reg.2.2.2.1, reg.2.2.2.2], rows, [w.1, w.2], c.map fun c => (c.1, surface2d c.2)⟩) s4 rfl
      (weighted_ite (d := ⟨reg.1, [reg.2.1, reg.2.2.1, reg.2.2.2.1, reg.2.2.2.2], rows, [w.1, w.2], c.map fun c => (c.1, surface2d c.2)⟩))
      (weighted_ite (d := ⟨reg.1, [reg.2.1, reg.2.2.1, reg.2.2.2.1, reg.2.2.2.2], rows, [w.1, w.2], c.map fun c => (c.1, surface2d c.2)⟩)) (fun _ => rfl) (fun e => ?_) (fun f => ?_)
    · show _ = if e < GeoKind.qua4.nedge then _ else none
      rw [edgeMap_get]
      rfl
    · show none = if f < GeoKind.qua4.nface then _ else none
      rw [if_neg (by rw [show GeoKind.qua4.nface = 0 by decide]; omega)]

/-- **C66 (one region, 3D).** If data is missing no block is made. Otherwise an unusable region is an error, and the block of a usable region
has its marker, divisions and constraint, and the markers of its edges and faces. -/
theorem C66_region_3d (hinv : InverseSpec inv) (hnp : ∀ n a, inv n a ≠ .panic) (hall : ∀ n a, detN n a ≠ 0 → ∃ r, inv n a = .ok r) (blocks : Blocks3d) (i : Nat) :
    (region3d blocks i = none → ∀ b, makeBlock3d inv blocks i ≠ .ok b) ∧
    ∀ d, region3d blocks i = some d →
      (d.Accepted 3 → ∃ b, makeBlock3d inv blocks i = .ok b ∧ IsRegionBlock inv 3 d blocks.markedEdges blocks.markedFaces b) ∧
      (¬ d.Accepted 3 → ∃ e, makeBlock3d inv blocks i = .err e) := by
  constructor
  · intro hn b hb
    unfold makeBlock3d at hb
    obtain ⟨reg, h1, hb⟩ := Res.bind_eq_ok.1 hb
    rw [Res.idx_eq_ok] at h1
    obtain ⟨rows, h2, hb⟩ := Res.bind_eq_ok.1 hb
    obtain ⟨b1, -, hb⟩ := Res.bind_eq_ok.1 hb
    obtain ⟨w, h3, hb⟩ := Res.bind_eq_ok.1 hb
    obtain ⟨b2, -, hb⟩ := Res.bind_eq_ok.1 hb
    obtain ⟨c, h4, hb⟩ := Res.bind_eq_ok.1 hb
    rw [Res.idx_eq_ok] at h3 h4
    unfold region3d at hn
    simp only [h1, h3, h4, Option.bind_eq_bind, Option.bind_some] at hn
    cases hr : [reg.2.1, reg.2.2.1, reg.2.2.2.1, reg.2.2.2.2.1, reg.2.2.2.2.2.1, reg.2.2.2.2.2.2.1, reg.2.2.2.2.2.2.2.1, reg.2.2.2.2.2.2.2.2].mapM (fun p => (blocks.points[p]?).map fun x => [x.1, x.2.1, x.2.2]) with
    | none => rw [rows_none hr] at h2; cases h2
    | some rs => rw [hr] at hn; simp at hn
  · intro d hd
    unfold region3d at hd
    simp only [Option.bind_eq_bind, Option.bind_eq_some_iff, Option.some.injEq] at hd
    obtain ⟨reg, h1, rows, h2, w, h3, c, h4, rfl⟩ := hd
    obtain ⟨r1, r2⟩ := rows_of h2
    have hblock := C54_new (nrow := 8) (ndim := 3) (at_ := fun m j => at' (rows.getD m []) j) hinv hnp hall
    have hlen : rows.length = 8 := by rw [r2]; rfl
    have hbo : blockOf inv 3 rows = Block.new inv 8 3 (fun m j => at' (rows.getD m []) j) := by unfold blockOf; rw [hlen]
    have e0 : makeBlock3d inv blocks i = (blockOf inv 3 rows >>= fun b =>
        withWeights3d (b.setMarker reg.1) w >>= fun b =>
        withFaceConstraint b c >>= fun b =>
        setMarkedEdges .hex8 (edgeMap blocks.markedEdges) [reg.2.1, reg.2.2.1, reg.2.2.2.1, reg.2.2.2.2.1, reg.2.2.2.2.2.1, reg.2.2.2.2.2.2.1, reg.2.2.2.2.2.2.2.1, reg.2.2.2.2.2.2.2.2] b >>= fun b => setMarkedFaces (faceMap blocks.markedFaces) [reg.2.1, reg.2.2.1, reg.2.2.2.1, reg.2.2.2.2.1, reg.2.2.2.2.2.1, reg.2.2.2.2.2.2.1, reg.2.2.2.2.2.2.2.1, reg.2.2.2.2.2.2.2.2] b) := by
      unfold makeBlock3d
      simp only [(Res.idx_eq_ok ..).2 h1, (Res.idx_eq_ok ..).2 h3, (Res.idx_eq_ok ..).2 h4, Res.bind_ok]
      rw [r1, Res.bind_ok]
    rw [e0, hbo]
    by_cases hj : 0 < detN 3 (centreJacobian 8 3 (fun m j => at' (rows.getD m []) j))
    swap
    · obtain ⟨e, he⟩ := hblock.2 (fun hh => hj hh.2)
      rw [he]
      exact ⟨fun ha => absurd ha.jacobian hj, fun _ => ⟨e, rfl⟩⟩
    obtain ⟨b0, hb0⟩ := hblock.1 ⟨.inr ⟨rfl, .inl rfl⟩, hj⟩
    rw [hb0, Res.bind_ok]
    have s1 := settings_marker (settings_new hb0) reg.1
    -- the divisions
    have hdiv : ((∀ v ∈ [w.1, w.2.1, w.2.2], v ≠ []) → ∀ v ∈ [w.1, w.2.1, w.2.2], 1 ≤ v.sum) →
        ∃ b1 : Block, withWeights3d (b0.setMarker reg.1) w = .ok b1 ∧
        HasSettings inv 8 3 (fun m j => at' (rows.getD m []) j) reg.1 (if ∀ v ∈ [w.1, w.2.1, w.2.2], v ≠ [] then [w.1, w.2.1, w.2.2].map List.length else List.replicate 3 2)
          (if ∀ v ∈ [w.1, w.2.1, w.2.2], v ≠ [] then [w.1, w.2.1, w.2.2].map proportional else List.replicate 3 (equalDivisions 2)) (fun _ => none) (fun _ => none) (fun _ => none) b1 := by
      intro hw
      unfold withWeights3d
      by_cases hne : ∀ v ∈ [w.1, w.2.1, w.2.2], v ≠ []
      · have n1 : w.1 ≠ [] := hne _ (by simp)
        have n2 : w.2.1 ≠ [] := hne _ (by simp)
        have n3 : w.2.2 ≠ [] := hne _ (by simp)
        rw [if_pos ⟨List.length_pos_iff.2 n1, List.length_pos_iff.2 n2, List.length_pos_iff.2 n3⟩, if_pos hne, if_pos hne]
        exact (settings_weights3 s1 n1 n2 n3).1 ⟨hw hne _ (by simp), hw hne _ (by simp), hw hne _ (by simp)⟩
      · rw [if_neg (fun hh => hne (by
          intro v hv; simp at hv; rcases hv with rfl | rfl | rfl
          · exact List.length_pos_iff.1 hh.1
          · exact List.length_pos_iff.1 hh.2.1
          · exact List.length_pos_iff.1 hh.2.2)), if_neg hne, if_neg hne]
        exact ⟨_, rfl, s1⟩
    have hdivbad : ¬ ((∀ v ∈ [w.1, w.2.1, w.2.2], v ≠ []) → ∀ v ∈ [w.1, w.2.1, w.2.2], 1 ≤ v.sum) →
        ∃ e, withWeights3d (b0.setMarker reg.1) w = .err e := by
      intro hw
      unfold withWeights3d
      rw [Classical.not_imp] at hw
      obtain ⟨hne, hw⟩ := hw
      have n1 : w.1 ≠ [] := hne _ (by simp)
      have n2 : w.2.1 ≠ [] := hne _ (by simp)
      have n3 : w.2.2 ≠ [] := hne _ (by simp)
      rw [if_pos ⟨List.length_pos_iff.2 n1, List.length_pos_iff.2 n2, List.length_pos_iff.2 n3⟩]
      refine (settings_weights3 s1 n1 n2 n3).2 (fun hh => hw ?_)
      intro v hv; simp at hv; rcases hv with rfl | rfl | rfl
      · exact hh.1
      · exact hh.2.1
      · exact hh.2.2
    by_cases hw : ((∀ v ∈ [w.1, w.2.1, w.2.2], v ≠ []) → ∀ v ∈ [w.1, w.2.1, w.2.2], 1 ≤ v.sum)
    swap
    · obtain ⟨e, he⟩ := hdivbad hw
      rw [he]
      exact ⟨fun ha => absurd ha.weights hw, fun _ => ⟨e, rfl⟩⟩
    obtain ⟨b1, e1, s2⟩ := hdiv hw
    rw [e1, Res.bind_ok]
    -- the constraint
    have hc : (∀ c', c.map (fun c => (c.1, surface3d c.2)) = some c' → c'.1 < 2 * 3) →
        ∃ b2 : Block, withFaceConstraint b1 c = .ok b2 ∧
        HasSettings inv 8 3 (fun m j => at' (rows.getD m []) j) reg.1 (if ∀ v ∈ [w.1, w.2.1, w.2.2], v ≠ [] then [w.1, w.2.1, w.2.2].map List.length else List.replicate 3 2)
          (if ∀ v ∈ [w.1, w.2.1, w.2.2], v ≠ [] then [w.1, w.2.1, w.2.2].map proportional else List.replicate 3 (equalDivisions 2))
          (fun s => ((c.map (fun c => (c.1, surface3d c.2))).filter fun c => c.1 = s).map (·.2)) (fun _ => none) (fun _ => none) b2 := by
      intro hs
      cases c with
      | none => exact ⟨b1, rfl, s2⟩
      | some c =>
        obtain ⟨b2, e2, s3⟩ := (settings_faceConstraint s2 c.1 c.2).1 (hs _ rfl)
        refine ⟨b2, e2, s3.congr (fun s => ?_) (fun _ => rfl) (fun _ => rfl)⟩
        by_cases he : s = c.1
        · subst he; simp [Option.filter]
        · have : ¬ c.1 = s := fun h => he h.symm
          simp [Option.filter, he, this]
    by_cases hs : ∀ c', c.map (fun c => (c.1, surface3d c.2)) = some c' → c'.1 < 2 * 3
    swap
    · have : ∃ e, withFaceConstraint b1 c = .err e := by
        cases c with
        | none => exact absurd (by simp) hs
        | some c => exact (settings_faceConstraint s2 c.1 c.2).2 (fun h4 => hs (by intro c' hc'; cases hc'; exact h4))
      obtain ⟨e, he⟩ := this
      rw [he]
      exact ⟨fun ha => absurd ha.side hs, fun _ => ⟨e, rfl⟩⟩
    obtain ⟨b2, e2, s3⟩ := hc hs
    rw [e2, Res.bind_ok]
    obtain ⟨b3, e3, s4⟩ := settings_markedEdges s3 (kind := .hex8) (by decide) (edgeMap blocks.markedEdges) [reg.2.1, reg.2.2.1, reg.2.2.2.1, reg.2.2.2.2.1, reg.2.2.2.2.2.1, reg.2.2.2.2.2.2.1, reg.2.2.2.2.2.2.2.1, reg.2.2.2.2.2.2.2.2]
    rw [e3, Res.bind_ok]
    obtain ⟨b4, e4, s5⟩ := settings_markedFaces s4 (faceMap blocks.markedFaces) [reg.2.1, reg.2.2.1, reg.2.2.2.1, reg.2.2.2.2.1, reg.2.2.2.2.2.1, reg.2.2.2.2.2.2.1, reg.2.2.2.2.2.2.2.1, reg.2.2.2.2.2.2.2.2]
    refine ⟨fun _ => ⟨b4, e4, ?_⟩, fun hn => absurd ⟨hj, hw, hs⟩ hn⟩
    refine region_of (d := ⟨reg.1, [reg.2.1, reg.2.2.1, reg.2.2.2.1, reg.2.2.2.2.1, reg.2.2.2.2.2.1, reg.2.2.2.2.2.2.1, reg.2.2.2.2.2.2.2.1, reg.2.2.2.2.2.2.2.2], rows, [w.1, w.2.1, w.2.2], c.map fun c => (c.1, surface3d c.2)⟩) s5 rfl
      (weighted_ite (d := ⟨reg.1, [reg.2.1, reg.2.2.1, reg.2.2.2.1, reg.2.2.2.2.1, reg.2.2.2.2.2.1, reg.2.2.2.2.2.2.1, reg.2.2.2.2.2.2.2.1, reg.2.2.2.2.2.2.2.2], rows, [w.1, w.2.1, w.2.2], c.map fun c => (c.1, surface3d c.2)⟩))
      (weighted_ite (d := ⟨reg.1, [reg.2.1, reg.2.2.1, reg.2.2.2.1, reg.2.2.2.2.1, reg.2.2.2.2.2.1, reg.2.2.2.2.2.2.1, reg.2.2.2.2.2.2.2.1, reg.2.2.2.2.2.2.2.2], rows, [w.1, w.2.1, w.2.2], c.map fun c => (c.1, surface3d c.2)⟩)) (fun _ => rfl) (fun e => ?_) (fun f => ?_)
    · show _ = if e < GeoKind.hex8.nedge then _ else none
      rw [edgeMap_get]
      rfl
    · show _ = if f < GeoKind.hex8.nface then _ else none
      rw [faceMap_get]
      rfl


/-! ## All regions -/

theorem unmappable_congr {nrow ndim : Nat} {at_ : Nat → Nat → ℝ} {nd dk cs es fs es' fs'} {mk mk' : Int} {b b' : Block} {target : GeoKind}
    (h : HasSettings inv nrow ndim at_ mk nd dk cs es fs b) (h' : HasSettings inv nrow ndim at_ mk' nd dk cs es' fs' b')
    (hu : Block.Unmappable nrow ndim at_ b target) : Block.Unmappable nrow ndim at_ b' target := by
  have hn : b'.ndim = b.ndim := by rw [(C41_partition h.reached).1, (C41_partition h'.reached).1]
  have h1 : b'.ndiv = b.ndiv := by rw [h.ndiv_eq, h'.ndiv_eq]
  have h2 : b'.deltaKsi = b.deltaKsi := by rw [h.delta_eq, h'.delta_eq]
  have h3 : ∀ s, constraintOf b' s = constraintOf b s := fun s => by rw [h.constraints, h'.constraints]
  have hnd : ∀ a, ndivAt b' a = ndivAt b a := fun a => by unfold ndivAt; rw [h1, hn]
  have hdel : ∀ a i, del b' a i = del b a i := fun a i => by unfold del; rw [h2]
  have hleft : ∀ a i, left b' a i = left b a i := fun a i => by unfold left; simp only [hdel]
  obtain ⟨-, ξ, s, S, ⟨i, j, k, m, hg, hm, rfl⟩, hF, hdist⟩ := hu
  have hp : nodePos b' target i j k m = nodePos b target i j k m := by unfold nodePos; simp only [hn, hleft, hdel]
  refine ⟨h'.ring, _, s, S, ⟨i, j, k, m, by simpa only [InGrid, hnd] using hg, hm, hp.symm⟩, ?_, hdist⟩
  have ha : ∀ s S, Active b' (nodePos b target i j k m) s S ↔ Active b (nodePos b target i j k m) s S := fun s S => by unfold Active; rw [hn, h3]
  exact ⟨(ha s S).2 hF.1, hF.2.1, fun s' hs' S' hS' => hF.2.2 s' hs' S' ((ha s' S').1 hS')⟩

theorem region_fine {ndim : Nat} {d : Region} {E F} {b : Block} (h : IsRegionBlock inv ndim d E F b) (ha : d.Accepted ndim) (hl : d.weights.length = ndim)
    (hw : d.Weighted → ∀ w ∈ d.weights, WeightsOk w) : NotTooFine b := by
  have hn : b.ndim = ndim := (C41_partition h.reached).1
  intro a haa i hi
  rw [hn] at haa
  have h1 := h.ndiv_eq
  have h2 := h.delta_eq
  unfold ndivAt at hi
  unfold del
  by_cases hW : d.Weighted
  · rw [if_pos hW] at h1 h2
    rw [h1] at hi
    rw [h2]
    have hlen : a < d.weights.length := by omega
    have hm := List.getElem_mem hlen
    rw [if_pos (by omega), List.getD_eq_getElem _ 0 (by simpa using hlen), List.getElem_map] at hi
    rw [List.getD_eq_getElem _ [] (by simpa using hlen), List.getElem_map]
    exact fine_weights (ha.weights hW _ hm) (hw hW _ hm) hi
  · rw [if_neg hW] at h1 h2
    rw [h1, if_pos (by omega), List.getD_eq_getElem _ 0 (by simpa using haa), List.getElem_replicate] at hi
    rw [h2, List.getD_eq_getElem _ [] (by simpa using haa), List.getElem_replicate]
    have : at' (equalDivisions 2) i = 1 := by
      unfold equalDivisions at'
      rw [List.getD_eq_getElem _ 0 (by simpa using hi), List.getElem_replicate]; norm_num
    rw [this]; norm_num

theorem mapM_err {α β : Type} (f : α → Res β) (l : List α) (h : ∀ a ∈ l, (∃ b, f a = .ok b) ∨ ∃ e, f a = .err e) (hex : ∃ a ∈ l, ∃ e, f a = .err e) :
    ∃ e, l.mapM f = .err e := by
  induction l with
  | nil => obtain ⟨a, ha, -⟩ := hex; cases ha
  | cons x l ih =>
    rw [List.mapM_cons]
    rcases h x (by simp) with ⟨b, hb⟩ | ⟨e, he⟩
    · rw [hb, Res.bind_ok]
      obtain ⟨e, he⟩ := ih (fun a ha => h a (by simp [ha])) (by
        obtain ⟨a, ha, e, he⟩ := hex
        rcases List.mem_cons.1 ha with rfl | ha
        · rw [hb] at he; cases he
        · exact ⟨a, ha, e, he⟩)
      rw [he]
      exact ⟨e, rfl⟩
    · rw [he]; exact ⟨e, rfl⟩

theorem meshes_of {ndim n : Nat} {region : Nat → Option Region} {mk : Nat → Res Block} {E F} {target : GeoKind} (ho : o.Valid)
    (hgood : ∀ i d, region i = some d → d.Accepted ndim → ∃ b, mk i = .ok b ∧ IsRegionBlock inv ndim d E F b)
    (hbad : ∀ i d, region i = some d → ¬ d.Accepted ndim → ∃ e, mk i = .err e)
    (hlen : ∀ i d, region i = some d → d.weights.length = ndim) (hall : AllGiven n region) (renumber : Bool) :
    (¬ AllUsable inv ndim n region target → ∃ e, ((List.range n).mapM (fun i => mk i >>= fun b => cut o target i b) >>= fun ms => joinAll o renumber ms) = .err e) ∧
    (AllUsable inv ndim n region target → ∃ ms : List (Mesh ℝ), (List.range n).mapM (fun i => mk i >>= fun b => cut o target i b) = .ok ms ∧ ms.length = n ∧
      ∀ (i : Nat) (A : Mesh ℝ), ms[i]? = some A → ∃ d, region i = some d ∧ IsRegionMesh inv ndim d E F target A) := by
  have one : ∀ i < n, ∀ d, region i = some d → (d.Weighted → ∀ w ∈ d.weights, WeightsOk w) →
      (((target.classOf = if ndim = 2 then .qua else .hex) ∧ d.Accepted ndim ∧ ¬ d.Unmappable inv ndim target) →
        ∃ A, (mk i >>= fun b => cut o target i b) = .ok A ∧ IsRegionMesh inv ndim d E F target A) ∧
      (¬ ((target.classOf = if ndim = 2 then .qua else .hex) ∧ d.Accepted ndim ∧ ¬ d.Unmappable inv ndim target) →
        ∃ e, (mk i >>= fun b => cut o target i b) = .err e) := by
    intro i hi d hd hw
    by_cases ha : d.Accepted ndim
    swap
    · obtain ⟨e, he⟩ := hbad i d hd ha
      exact ⟨fun hh => absurd hh.2.1 ha, fun _ => ⟨e, by rw [he]; rfl⟩⟩
    obtain ⟨b, hb, hB⟩ := hgood i d hd ha
    rw [hb, Res.bind_ok]
    by_cases ht : target.classOf = if ndim = 2 then .qua else .hex
    swap
    · exact ⟨fun hh => absurd hh.1 ht, fun _ => ring_target hB.reached ht⟩
    have hT : TargetOk b target := by unfold TargetOk; rw [(C41_partition hB.reached).1]; exact ht
    have hf := region_fine hB ha (hlen i d hd) hw
    obtain ⟨c1, c2⟩ := C55_subdivide hB.reached hf hT (ho.grid i) (ho.constrained i)
    have hU : d.Unmappable inv ndim target ↔ Block.Unmappable (2 ^ ndim) ndim d.at_ b target :=
      ⟨fun ⟨E', F', b', h1, h2⟩ => unmappable_congr h1 hB h2, fun h => ⟨E, F, b, hB, h⟩⟩
    constructor
    · rintro ⟨-, -, hu⟩
      obtain ⟨A, e1, e2⟩ := c2 (fun h => hu (hU.2 h))
      exact ⟨A, e1, b, hB, e2, C57_marked hB.reached hf hT (ho.grid i) (ho.constrained i) e1⟩
    · intro hh
      by_cases hu : d.Unmappable inv ndim target
      · exact c1 (hU.1 hu)
      · exact absurd ⟨ht, ha, hu⟩ hh
  constructor
  · intro hn
    by_cases hall2 : ∀ i < n, ∃ A, (mk i >>= fun b => cut o target i b) = .ok A
    · choose g hg using fun i : Fin n => hall2 i i.2
      have hlt : ¬ 2 ≤ n := by
        intro h2
        refine hn ⟨h2, ?_, fun i hi d hd => ?_⟩
        · by_contra ht
          obtain ⟨d, hd, hw⟩ := hall 0 (by omega)
          obtain ⟨e, he⟩ := (one 0 (by omega) d hd hw).2 (fun hh => ht hh.1)
          obtain ⟨A, hA⟩ := hall2 0 (by omega)
          rw [he] at hA; cases hA
        · obtain ⟨d', hd', hw⟩ := hall i hi
          rw [hd] at hd'; cases hd'
          by_contra hc
          obtain ⟨e, he⟩ := (one i hi d hd hw).2 (fun hh => hc hh.2)
          obtain ⟨A, hA⟩ := hall2 i hi
          rw [he] at hA; cases hA
      have : ∃ ms, (List.range n).mapM (fun i => mk i >>= fun b => cut o target i b) = .ok ms ∧ ms.length = n := by
        refine ⟨(List.range n).map fun i => if h : i < n then g ⟨i, h⟩ else ⟨0, [], [], [], []⟩, Res.mapM_eq_ok_of _ _ _ (fun i hi => ?_), by simp⟩
        rw [List.mem_range] at hi
        rw [dif_pos hi]
        exact hg ⟨i, hi⟩
      obtain ⟨ms, e1, e2⟩ := this
      rw [e1, Res.bind_ok]
      unfold joinAll
      match ms, e2 with
      | [], _ => exact ⟨_, rfl⟩
      | [A], _ => exact ⟨_, rfl⟩
      | A :: B :: r, e2 => exact absurd (by simp at e2; omega) hlt
    · push Not at hall2
      obtain ⟨i, hi, hno⟩ := hall2
      obtain ⟨e, he⟩ := mapM_err (fun i => mk i >>= fun b => cut o target i b) (List.range n) (fun i hi => by
        rw [List.mem_range] at hi
        obtain ⟨d, hd, hw⟩ := hall i hi
        by_cases hc : ((target.classOf = if ndim = 2 then .qua else .hex) ∧ d.Accepted ndim ∧ ¬ d.Unmappable inv ndim target)
        · obtain ⟨A, hA, -⟩ := (one i hi d hd hw).1 hc
          exact .inl ⟨A, hA⟩
        · exact .inr ((one i hi d hd hw).2 hc)) ⟨i, List.mem_range.2 hi, by
          obtain ⟨d, hd, hw⟩ := hall i hi
          refine (one i hi d hd hw).2 (fun hc => ?_)
          obtain ⟨A, hA, -⟩ := (one i hi d hd hw).1 hc
          exact hno A hA⟩
      rw [he]
      exact ⟨e, rfl⟩
  · rintro ⟨-, ht, hu⟩
    choose dd hdd hww using fun i : Fin n => hall i i.2
    choose g hg using fun i : Fin n => (one i i.2 (dd i) (hdd i) (hww i)).1 ⟨ht, hu i i.2 (dd i) (hdd i)⟩
    refine ⟨(List.range n).map fun i => if h : i < n then g ⟨i, h⟩ else ⟨0, [], [], [], []⟩, Res.mapM_eq_ok_of _ _ _ (fun i hi => ?_), by simp, fun i A hA => ?_⟩
    · rw [List.mem_range] at hi
      rw [dif_pos hi]
      exact (hg ⟨i, hi⟩).1
    · rw [List.getElem?_map, Option.map_eq_some_iff] at hA
      obtain ⟨i', hi', rfl⟩ := hA
      obtain ⟨hlt, rfl⟩ := List.getElem?_eq_some_iff.1 hi'
      rw [List.length_range] at hlt
      simp only [List.getElem_range, hlt, dif_pos]
      exact ⟨dd ⟨i, hlt⟩, hdd ⟨i, hlt⟩, (hg ⟨i, hlt⟩).2⟩

theorem reordered_of {M M' : Mesh ℝ} (hM : ValidMesh M) (h : finish true M = .ok M') : Reordered M M' := by
  have hc : Props.Mesh.GoodCoords M := hM.coords
  have hg : Props.Mesh.GoodCells M := hM.inRange
  unfold finish at h
  rw [if_pos rfl] at h
  have hmap : ∃ map, renumberPoints M map = (M', .ok ()) := by
    unfold renumberMesh at h
    simp only at h
    split at h
    · rename_i m u hr
      cases h
      split at hr
      · rename_i map _
        exact ⟨map, by rw [hr]⟩
      · cases hr
      · cases hr
    · cases h
    · cases h
  obtain ⟨map, hmap⟩ := hmap
  rcases Props.Mesh.renumberPoints_spec M hc hg map with ⟨hp, m1, h1, R⟩ | ⟨-, m1, e, h1⟩
  swap
  · rw [hmap] at h1; cases h1
  rw [hmap] at h1
  cases h1
  have hl : map.length = M.points.length := by simpa using hp.length_eq
  have hget : ∀ (p : Nat) pt, M.points[p]? = some pt → coordsOf M' (map.getD p 0) = coordsOf M p := by
    intro p pt hpt
    obtain ⟨new, e1, e2⟩ := R.points p pt hpt
    unfold coordsOf
    rw [List.getD_eq_getElem?_getD, e1, Option.getD_some, e2, hpt]
    rfl
  refine ⟨?_, R.ndim, ?_, (Props.Mesh.C06_points M M' hc hg map hmap).2.1, R.markedEdges, R.markedFaces⟩
  · unfold geomCells
    rw [R.cells, List.map_map]
    refine List.map_congr_left (fun c hcc => ?_)
    simp only [Function.comp, List.map_map, Prod.mk.injEq, true_and]
    refine List.map_congr_left (fun p hpp => ?_)
    exact hget p _ (List.getElem?_eq_getElem (hM.inRange c hcc p hpp))
  · let F : Nat → List ℝ × Int := fun q => ((M'.points[q]?).map fun p => (p.coords, p.marker)).getD ([], 0)
    have e1 : M'.points.map (fun p => (p.coords, p.marker)) = (List.range M.points.length).map F := by
      refine List.ext_getElem? (fun i => ?_)
      rw [List.getElem?_map, List.getElem?_map]
      by_cases hi : i < M.points.length
      · have hi' : i < M'.points.length := by rw [R.npoint]; exact hi
        rw [List.getElem?_range hi, List.getElem?_eq_getElem hi']
        simp [F, hi']
      · rw [List.getElem?_eq_none (by rw [R.npoint]; omega), List.getElem?_eq_none (by simpa using hi)]
        rfl
    have e2 : M.points.map (fun p => (p.coords, p.marker)) = map.map F := by
      refine List.ext_getElem? (fun i => ?_)
      rw [List.getElem?_map, List.getElem?_map]
      by_cases hi : i < M.points.length
      · obtain ⟨new, f1, f2⟩ := R.points i _ (List.getElem?_eq_getElem hi)
        rw [f1, List.getElem?_eq_getElem hi]
        simp [F, f2]
      · rw [List.getElem?_eq_none (by omega), List.getElem?_eq_none (by omega)]
        rfl
    rw [e1, e2]
    exact (hp.map F).symm

/-- **C66 (2D).** All data being there, there is an error if there are fewer than two regions, a region is not usable or the cells are not quadrilaterals.
Otherwise each region gives a mesh (the subdivision of its block), and the result is nothing but these meshes put together, if they can be.
With renumbering, the points are in another order; the lists of marked edges are not changed, however. -/
theorem C66_blocks_2d (hinv : InverseSpec inv) (hnp : ∀ n a, inv n a ≠ .panic) (hall : ∀ n a, detN n a ≠ 0 → ∃ r, inv n a = .ok r) (ho : o.Valid)
    (blocks : Blocks2d) (target : GeoKind) (hg : AllGiven blocks.regions.length (region2d blocks)) :
    (¬ AllUsable inv 2 blocks.regions.length (region2d blocks) target → ∀ renumber, ∃ e, fromBlocks2d inv o blocks target renumber = .err e) ∧
    (AllUsable inv 2 blocks.regions.length (region2d blocks) target → ∃ ms : List (Mesh ℝ), ms.length = blocks.regions.length ∧
      (∀ (i : Nat) (A : Mesh ℝ), ms[i]? = some A → ∃ d, region2d blocks i = some d ∧ IsRegionMesh inv 2 d blocks.markedEdges [] target A) ∧
      (CanAssemble 2 ms → ∃ M, fromBlocks2d inv o blocks target false = .ok M ∧ IsAssembly ms M ∧
        ∀ M', fromBlocks2d inv o blocks target true = .ok M' → Reordered M M')) := by
  have key := fun renumber => meshes_of (o := o) (inv := inv) (ndim := 2) (n := blocks.regions.length) (region := region2d blocks) (mk := makeBlock2d inv blocks)
    (E := blocks.markedEdges) (F := []) (target := target) ho
    (fun i d hd => ((C66_region_2d hinv hnp hall blocks i).2 d hd).1) (fun i d hd => ((C66_region_2d hinv hnp hall blocks i).2 d hd).2)
    (fun i d hd => by
      unfold region2d at hd
      simp only [Option.bind_eq_bind, Option.bind_eq_some_iff, Option.some.injEq] at hd
      obtain ⟨reg, h1, rows, h2, w, h3, c, h4, rfl⟩ := hd
      rfl) hg renumber
  refine ⟨fun hn renumber => (key renumber).1 hn, fun hu => ?_⟩
  obtain ⟨ms, e1, e2, e3⟩ := (key false).2 hu
  refine ⟨ms, e2, e3, fun hc => ?_⟩
  obtain ⟨M, m1, m2, m3⟩ := C65_join_meshes o.join ho.join hc
  have eq : ∀ renumber, fromBlocks2d inv o blocks target renumber = finish renumber M := by
    intro renumber
    unfold fromBlocks2d
    rw [e1, Res.bind_ok]
    unfold joinAll
    rw [m1, Res.bind_ok]
  refine ⟨M, eq false, m2, fun M' hM' => reordered_of m2.proper.valid (by rw [← hM', eq])⟩

/-- **C66 (3D).** The same for hexahedra; the marked edges and the marked faces are not renumbered. -/
theorem C66_blocks_3d (hinv : InverseSpec inv) (hnp : ∀ n a, inv n a ≠ .panic) (hall : ∀ n a, detN n a ≠ 0 → ∃ r, inv n a = .ok r) (ho : o.Valid)
    (blocks : Blocks3d) (target : GeoKind) (hg : AllGiven blocks.regions.length (region3d blocks)) :
    (¬ AllUsable inv 3 blocks.regions.length (region3d blocks) target → ∀ renumber, ∃ e, fromBlocks3d inv o blocks target renumber = .err e) ∧
    (AllUsable inv 3 blocks.regions.length (region3d blocks) target → ∃ ms : List (Mesh ℝ), ms.length = blocks.regions.length ∧
      (∀ (i : Nat) (A : Mesh ℝ), ms[i]? = some A → ∃ d, region3d blocks i = some d ∧ IsRegionMesh inv 3 d blocks.markedEdges blocks.markedFaces target A) ∧
      (CanAssemble 3 ms → ∃ M, fromBlocks3d inv o blocks target false = .ok M ∧ IsAssembly ms M ∧
        ∀ M', fromBlocks3d inv o blocks target true = .ok M' → Reordered M M')) := by
  have key := fun renumber => meshes_of (o := o) (inv := inv) (ndim := 3) (n := blocks.regions.length) (region := region3d blocks) (mk := makeBlock3d inv blocks)
    (E := blocks.markedEdges) (F := blocks.markedFaces) (target := target) ho
    (fun i d hd => ((C66_region_3d hinv hnp hall blocks i).2 d hd).1) (fun i d hd => ((C66_region_3d hinv hnp hall blocks i).2 d hd).2)
    (fun i d hd => by
      unfold region3d at hd
      simp only [Option.bind_eq_bind, Option.bind_eq_some_iff, Option.some.injEq] at hd
      obtain ⟨reg, h1, rows, h2, w, h3, c, h4, rfl⟩ := hd
      rfl) hg renumber
  refine ⟨fun hn renumber => (key renumber).1 hn, fun hu => ?_⟩
  obtain ⟨ms, e1, e2, e3⟩ := (key false).2 hu
  refine ⟨ms, e2, e3, fun hc => ?_⟩
  obtain ⟨M, m1, m2, m3⟩ := C65_join_meshes o.join ho.join hc
  have eq : ∀ renumber, fromBlocks3d inv o blocks target renumber = finish renumber M := by
    intro renumber
    unfold fromBlocks3d
    rw [e1, Res.bind_ok]
    unfold joinAll
    rw [m1, Res.bind_ok]
  refine ⟨M, eq false, m2, fun M' hM' => reordered_of m2.proper.valid (by rw [← hM', eq])⟩

theorem mapM_none {n i : Nat} (hi : i < n) {f : Nat → Res (Mesh ℝ)} (h : ∀ A, f i ≠ .ok A) (g : List (Mesh ℝ) → Res (Mesh ℝ)) (M : Mesh ℝ) :
    ((List.range n).mapM f >>= g) ≠ .ok M := by
  intro hM
  obtain ⟨ms, h1, -⟩ := Res.bind_eq_ok.1 hM
  rw [Res.mapM_ok_iff] at h1
  obtain ⟨hl, h2⟩ := List.forall₂_iff_get.1 h1
  have := h2 i (by simpa using hi) (by rw [← hl]; simpa using hi)
  exact h _ (by simpa using this)

/-- **C66 (missing data).** If the data of a region is missing, no mesh is made. -/
theorem C66_missing (blocks2 : Blocks2d) (blocks3 : Blocks3d) (target : GeoKind) (renumber : Bool) (hinv : InverseSpec inv) (hnp : ∀ n a, inv n a ≠ .panic)
    (hall : ∀ n a, detN n a ≠ 0 → ∃ r, inv n a = .ok r) :
    (∀ i < blocks2.regions.length, region2d blocks2 i = none → ∀ M, fromBlocks2d inv o blocks2 target renumber ≠ .ok M) ∧
    (∀ i < blocks3.regions.length, region3d blocks3 i = none → ∀ M, fromBlocks3d inv o blocks3 target renumber ≠ .ok M) := by
  constructor
  · intro i hi hn M
    refine mapM_none hi (fun A hA => ?_) _ M
    obtain ⟨b, hb, -⟩ := Res.bind_eq_ok.1 hA
    exact (C66_region_2d hinv hnp hall blocks2 i).1 hn b hb
  · intro i hi hn M
    refine mapM_none hi (fun A hA => ?_) _ M
    obtain ⟨b, hb, -⟩ := Res.bind_eq_ok.1 hA
    exact (C66_region_3d hinv hnp hall blocks3 i).1 hn b hb

/-- **C66 (regions are proper meshes).** The mesh of a region has the dimension of space, and it is proper if no two points are at the same place. -/
theorem C66_proper {ndim : Nat} {d : Region} {E F} {target : GeoKind} {A : Mesh ℝ} (ht : target.classOf = if ndim = 2 then .qua else .hex)
    (h : IsRegionMesh inv ndim d E F target A)
    (hdist : ∀ p < A.points.length, ∀ q < A.points.length, coordsOf A p = coordsOf A q → p = q) : Proper A ∧ A.ndim = ndim := by
  obtain ⟨b, hb, hM, hk⟩ := h
  have hn : b.ndim = ndim := (C41_partition hb.reached).1
  have hd : ndim = 2 ∨ ndim = 3 := by rw [← hn]; exact hb.reached.wf.dims
  have hq : IsQuaHex target := by
    split at ht
    · exact .inl ht
    · exact .inr ht
  have hed : ∀ ε < target.nedge, edgeNode target ε 0 < target.nnode ∧ edgeNode target ε 1 < target.nnode := by
    revert hq; clear * -; intro hq
    cases target <;> first | exact absurd hq (by unfold IsQuaHex; decide) | decide +kernel
  have hfd : ∀ φ < target.nface, ∀ t < 4, faceNode target φ t < target.nnode := by
    revert hq; clear * -; intro hq
    cases target <;> first | exact absurd hq (by unfold IsQuaHex; decide) | decide +kernel
  refine ⟨⟨C55_valid hM, by rw [hM.ndim, hn]; exact hd, hdist, ?_, ?_, hk.edgesOnce, ?_, hk.facesOnce⟩, by rw [hM.ndim, hn]⟩
  · intro p hp
    obtain ⟨i, j, k, m, hg, hm, rfl⟩ := C55_used hM hp
    obtain ⟨c, h1, -, -, -, h5⟩ := hM.cells i j k hg
    refine ⟨c, List.mem_of_getElem? h1, ?_⟩
    unfold ptAt
    rw [h1, Option.map_some, Option.getD_some, List.getD_eq_getElem _ 0 (by omega)]
    exact List.getElem_mem _
  · intro mk p q hm
    obtain ⟨e, i, j, k, ε, -, hg, hε, -, -, hpq⟩ := (hk.edges mk p q).1 hm
    obtain ⟨l0, l1⟩ := hed ε hε
    have n0 := (hM.node i j k _ hg l0).1
    have n1 := (hM.node i j k _ hg l1).1
    have := (sort2_eq_iff _ _ _).1 hpq.symm
    refine ⟨this.1, ?_⟩
    rcases this.2 with h | h <;> cases h <;> assumption
  · intro mk p q r s hm
    obtain ⟨-, f, i, j, k, φ, -, hg, hφ, -, hkey⟩ := (hk.faces mk _).1 hm
    have n : ∀ t < 4, ptAt b A i j k (faceNode target φ t) < A.points.length := fun t ht => (hM.node i j k _ hg (hfd φ hφ t ht)).1
    have e := sort4_toList (ptAt b A i j k (faceNode target φ 0)) (ptAt b A i j k (faceNode target φ 1)) (ptAt b A i j k (faceNode target φ 2)) (ptAt b A i j k (faceNode target φ 3))
    rw [← hkey] at e
    have e' : [p, q, r, s] = _ := e
    constructor
    · rw [e']; exact List.pairwise_insertionSort _ _
    · have : s ∈ [p, q, r, s] := by simp
      rw [e', List.mem_insertionSort] at this
      simp only [List.mem_cons, List.not_mem_nil, or_false] at this
      rcases this with rfl | rfl | rfl | rfl <;> apply n <;> omega

/-- **C66 (coordinates).** The mesh of a region without a constraint: a grid with the lines in proportion to the weights, mapped to the region
bilinearly (trilinearly); its cells fit together, have the marker of the region and are numbered along the first direction first. -/
theorem C66_grid {ndim : Nat} {d : Region} {E F} {target : GeoKind} {A : Mesh ℝ} (ht : target.classOf = if ndim = 2 then .qua else .hex)
    (h : IsRegionMesh inv ndim d E F target A) (ha : d.Accepted ndim) (hl : d.weights.length = ndim) (hw : d.Weighted → ∀ w ∈ d.weights, WeightsOk w)
    (hno : d.constraint = none) :
    IsPatch ndim target (Box (d.divs ndim)) d.ticks (d.place ndim) (fun _ _ _ => d.marker) (rowMajor (d.divs ndim)) A := by
  obtain ⟨b, hb, hM, -⟩ := h
  have hn : b.ndim = ndim := (C41_partition hb.reached).1
  have hf := region_fine hb ha hl hw
  have hT : TargetOk b target := by unfold TargetOk; rw [hn]; exact ht
  have hnone : ∀ s, constraintOf b s = none := fun s => by rw [hb.constraints, hno]; rfl
  have hP := patch_of_subdivision hb.reached hf hT hM (place := d.place ndim) (by
    intro i j k m hg hm
    rw [hM.coords i j k m hg hm]
    have e := mapped_unconstrained hb.reached hf hT hnone ⟨i, j, k, m, hg, hm, rfl⟩
    rw [hb.ring, if_neg (by simp)] at e
    unfold finalCoords
    rw [if_neg (by rw [hasConstraints_false hb.reached hnone]; simp), e]
    unfold Region.place
    rw [List.map_map]
    congr 1
    conv_lhs => rw [← List.map_id (nodePos b target i j k m)]
    apply List.map_congr_left
    intro x _
    simp only [Function.comp, id]
    ring)
  have e0 : ndivAt b = d.divs ndim := by
    funext a
    unfold ndivAt Region.divs
    rw [hn, hb.ndiv_eq]
    by_cases haa : a < ndim
    · rw [if_pos haa, if_pos haa]
      split
      · rw [List.getD_eq_getElem _ 0 (by simp; omega), List.getD_eq_getElem _ [] (by omega), List.getElem_map]
      · rw [List.getD_eq_getElem _ 0 (by simpa using haa), List.getElem_replicate]
    · rw [if_neg haa, if_neg haa]
  rw [e0, hn, hb.marker_eq] at hP
  refine hP.congr ?_ (fun _ _ _ _ _ _ => rfl)
  intro i j k hB a haa
  have hd : ndim = 2 ∨ ndim = 3 := by rw [← hn]; exact hb.reached.wf.dims
  have hlt : pick i j k a < d.divs ndim a := pick_lt hB (by omega)
  have key : ∀ t ≤ d.divs ndim a, (left b a t + 1) / 2 = d.ticks a t := by
    intro t htt
    unfold Region.divs at htt
    rw [if_pos haa] at htt
    unfold Region.ticks
    by_cases hW : d.Weighted
    · rw [if_pos hW] at htt ⊢
      exact left_weights (by rw [hb.delta_eq, if_pos hW, List.getD_eq_getElem _ [] (by simp; omega), List.getElem_map, List.getD_eq_getElem _ [] (by omega)]) t
    · rw [if_neg hW] at htt ⊢
      have e2 : divsOf (List.replicate ndim 2) a = 2 := by unfold divsOf; rw [List.getD_eq_getElem _ 1 (by simpa using haa), List.getElem_replicate]
      have := left_even (v := List.replicate ndim 2) (b := b) (a := a) (i := t) (by rw [hb.delta_eq, if_neg hW, List.map_replicate]) (by simpa using haa)
        (by rw [e2]; exact htt) (by rw [e2]; omega)
      rw [e2] at this
      exact this
  exact ⟨key _ hlt.le, key _ hlt⟩

end
end Gemlab.Structured
