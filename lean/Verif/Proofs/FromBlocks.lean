import Verif.Spec.Blocks
import Verif.Props.Rings

/-! # Blocks given by the user -/
namespace Gemlab.Structured
noncomputable section
open Classical
open Gemlab.Mesh Gemlab.Shapes Gemlab.Block Gemlab.Spec

variable {inv : MatInverse} {o : GenOrders} {nrow ndim : Nat} {at_ : Nat → Nat → ℝ} {marker : Int} {ndiv : List Nat} {dk : List (List ℝ)} {cons : Nat → Option Surface}
  {em fm : Nat → Option Int} {b : Block}

/-! ### Maps of markers -/

theorem sort2_eq_sort2 (a b p q : Nat) : sort2 a b = sort2 p q ↔ (a = p ∧ b = q) ∨ (a = q ∧ b = p) := by
  unfold sort2; split <;> split <;> simp only [Prod.mk.injEq] <;> omega

theorem sort4_eq_sort4 (a b c d p q r s : Nat) : sort4 a b c d = sort4 p q r s ↔ [a, b, c, d].Perm [p, q, r, s] := by
  constructor
  · intro h
    have h1 := ((sort4_eq_iff a b c d _).1 rfl).2
    have h2 := ((sort4_eq_iff p q r s _).1 rfl).2
    rw [h] at h1
    exact h1.symm.trans h2
  · intro h
    rw [sort4_eq_iff]
    have h2 := (sort4_eq_iff p q r s _).1 rfl
    exact ⟨h2.1, h2.2.trans h.symm⟩

theorem edgeMap_get (marked : List (Int × Nat × Nat)) (p q : Nat) : (edgeMap marked).get (sort2 p q) = edgeMark marked p q := by
  induction marked using List.reverseRecOn with
  | nil => rfl
  | append_singleton l e ih =>
    unfold edgeMap at ih ⊢
    rw [List.foldl_append, List.foldl_cons, List.foldl_nil, HMap.get_insert, ih]
    unfold edgeMark
    rw [List.filter_append, List.filter_cons, List.filter_nil]
    by_cases h : (e.2.1 = p ∧ e.2.2 = q) ∨ (e.2.1 = q ∧ e.2.2 = p)
    · rw [if_pos ((sort2_eq_sort2 ..).2 h).symm]; simp [h]
    · rw [if_neg (fun he => h ((sort2_eq_sort2 ..).1 he.symm))]; simp [h]

theorem faceMap_get (marked : List (Int × Nat × Nat × Nat × Nat)) (p q r s : Nat) : (faceMap marked).get (sort4 p q r s) = faceMark marked [p, q, r, s] := by
  induction marked using List.reverseRecOn with
  | nil => rfl
  | append_singleton l f ih =>
    unfold faceMap at ih ⊢
    rw [List.foldl_append, List.foldl_cons, List.foldl_nil, HMap.get_insert, ih]
    unfold faceMark
    rw [List.filter_append, List.filter_cons, List.filter_nil]
    by_cases h : [f.2.1, f.2.2.1, f.2.2.2.1, f.2.2.2.2].Perm [p, q, r, s]
    · rw [if_pos ((sort4_eq_sort4 ..).2 h).symm]; simp [h]
    · rw [if_neg (fun he => h ((sort4_eq_sort4 ..).1 he.symm))]; simp [h]

theorem get_of_length_zero {κ α : Type} [DecidableEq κ] {h : HMap κ α} (hl : ¬ h.length > 0) (k : κ) : h.get k = none := by
  have : h = [] := List.eq_nil_of_length_eq_zero (by omega)
  rw [this]; rfl

/-! ### Settings -/

theorem settings_new {b : Block} (h : Block.new inv nrow ndim at_ = .ok b) :
    HasSettings inv nrow ndim at_ 1 (List.replicate ndim 2) (List.replicate ndim (equalDivisions 2)) (fun _ => none) (fun _ => none) (fun _ => none) b := by
  obtain ⟨h1, h2, -, h4, h5, h6, h7, -⟩ := C54_initial h
  obtain ⟨-, -, -, -, n1, n2, -⟩ := new_ok h
  refine ⟨.new h, h1, n1, ?_, h4, h5, h6, h7⟩
  rw [n2]
  unfold equalDivisions
  norm_num

theorem settings_marker (h : HasSettings inv nrow ndim at_ marker ndiv dk cons em fm b) (v : Int) :
    HasSettings inv nrow ndim at_ v ndiv dk cons em fm (b.setMarker v) :=
  ⟨.marker v h.reached, rfl, h.ndiv_eq, h.delta_eq, h.constraints, h.edgeMarks, h.faceMarks, h.ring⟩

theorem settings_weights2 (h : HasSettings inv nrow 2 at_ marker ndiv dk cons em fm b) {wx wy : List ℝ} (h1 : wx ≠ []) (h2 : wy ≠ []) :
    (1 ≤ wx.sum ∧ 1 ≤ wy.sum → ∃ b', applied (b.setDivWeights2d wx wy) = .ok b' ∧
      HasSettings inv nrow 2 at_ marker [wx.length, wy.length] [proportional wx, proportional wy] cons em fm b') ∧
    (¬ (1 ≤ wx.sum ∧ 1 ≤ wy.sum) → ∃ e, applied (b.setDivWeights2d wx wy) = .err e) := by
  obtain ⟨c1, c2⟩ := C41_weights_2d h.reached wx wy
  constructor
  · rintro ⟨h3, h4⟩
    have e := c1 ⟨rfl, h1, h2, h3, h4⟩
    refine ⟨_, applied_ok e, ?_⟩
    have hr := Reached.weights2d wx wy h.reached
    rw [e] at hr
    exact ⟨hr, h.marker_eq, rfl, rfl, h.constraints, h.edgeMarks, h.faceMarks, h.ring⟩
  · intro hn
    obtain ⟨e, he⟩ := c2 (fun hh => hn ⟨hh.2.2.2.1, hh.2.2.2.2⟩)
    exact ⟨e, applied_err he⟩

theorem settings_weights3 (h : HasSettings inv nrow 3 at_ marker ndiv dk cons em fm b) {wx wy wz : List ℝ} (h1 : wx ≠ []) (h2 : wy ≠ []) (h0 : wz ≠ []) :
    (1 ≤ wx.sum ∧ 1 ≤ wy.sum ∧ 1 ≤ wz.sum → ∃ b', applied (b.setDivWeights3d wx wy wz) = .ok b' ∧
      HasSettings inv nrow 3 at_ marker [wx.length, wy.length, wz.length] [proportional wx, proportional wy, proportional wz] cons em fm b') ∧
    (¬ (1 ≤ wx.sum ∧ 1 ≤ wy.sum ∧ 1 ≤ wz.sum) → ∃ e, applied (b.setDivWeights3d wx wy wz) = .err e) := by
  obtain ⟨c1, c2⟩ := C41_weights_3d h.reached wx wy wz
  constructor
  · rintro ⟨h3, h4, h5⟩
    have e := c1 ⟨rfl, h1, h2, h0, h3, h4, h5⟩
    refine ⟨_, applied_ok e, ?_⟩
    have hr := Reached.weights3d wx wy wz h.reached
    rw [e] at hr
    exact ⟨hr, h.marker_eq, rfl, rfl, h.constraints, h.edgeMarks, h.faceMarks, h.ring⟩
  · intro hn
    obtain ⟨e, he⟩ := c2 (fun hh => hn ⟨hh.2.2.2.2.1, hh.2.2.2.2.2.1, hh.2.2.2.2.2.2⟩)
    exact ⟨e, applied_err he⟩

theorem settings_edgeConstraint (h : HasSettings inv nrow 2 at_ marker ndiv dk cons em fm b) (s : Nat) (v : Constraint2d) :
    (s < 4 → ∃ b', applied (b.setEdgeConstraint s (some v)) = .ok b' ∧
      HasSettings inv nrow 2 at_ marker ndiv dk (fun s' => if s' = s then some (surface2d v) else cons s') em fm b') ∧
    (¬ s < 4 → ∃ e, applied (b.setEdgeConstraint s (some v)) = .err e) := by
  obtain ⟨c1, c2⟩ := C42_set_edge_constraint h.reached s (some v)
  constructor
  · intro hs
    obtain ⟨e1, e2⟩ := c1 ⟨rfl, hs⟩
    refine ⟨(b.setEdgeConstraint s (some v)).1, ?_, .edgeConstraint s (some v) h.reached, ?_, ?_, ?_, (fun s' => by rw [e2 s', h.constraints]; rfl), ?_, ?_, ?_⟩
    · unfold applied; rw [e1]
    all_goals try (unfold setEdgeConstraint; split <;> [skip; split])
    all_goals first | exact h.marker_eq | exact h.ndiv_eq | exact h.delta_eq | exact h.edgeMarks | exact h.faceMarks | exact h.ring
  · intro hs
    obtain ⟨e, he⟩ := c2 (fun hh => hs hh.2)
    exact ⟨e, applied_err he⟩

theorem settings_faceConstraint (h : HasSettings inv nrow 3 at_ marker ndiv dk cons em fm b) (s : Nat) (v : Constraint3d) :
    (s < 6 → ∃ b', applied (b.setFaceConstraint s (some v)) = .ok b' ∧
      HasSettings inv nrow 3 at_ marker ndiv dk (fun s' => if s' = s then some (surface3d v) else cons s') em fm b') ∧
    (¬ s < 6 → ∃ e, applied (b.setFaceConstraint s (some v)) = .err e) := by
  obtain ⟨c1, c2⟩ := C42_set_face_constraint h.reached s (some v)
  constructor
  · intro hs
    obtain ⟨e1, e2⟩ := c1 ⟨rfl, hs⟩
    refine ⟨(b.setFaceConstraint s (some v)).1, ?_, .faceConstraint s (some v) h.reached, ?_, ?_, ?_, (fun s' => by rw [e2 s', h.constraints]; rfl), ?_, ?_, ?_⟩
    · unfold applied; rw [e1]
    all_goals try (unfold setFaceConstraint; split <;> [skip; split])
    all_goals first | exact h.marker_eq | exact h.ndiv_eq | exact h.delta_eq | exact h.edgeMarks | exact h.faceMarks | exact h.ring
  · intro hs
    obtain ⟨e, he⟩ := c2 (fun hh => hs hh.2)
    exact ⟨e, applied_err he⟩

theorem settings_edgeMarker (h : HasSettings inv nrow ndim at_ marker ndiv dk cons em fm b) {e : Nat} (he : e < if ndim = 2 then 4 else 12) (v : Int) :
    ∃ b', applied (b.setEdgeMarker e v) = .ok b' ∧ HasSettings inv nrow ndim at_ marker ndiv dk cons (fun e' => if e' = e then some v else em e') fm b' := by
  obtain ⟨e1, e2, e3⟩ := (C57_set_edge_marker h.reached e v).1 he
  refine ⟨(b.setEdgeMarker e v).1, by unfold applied; rw [e1], .edgeMarker e v h.reached, ?_, ?_, ?_, ?_, ?_, ?_, ?_⟩
  · rw [e2]; exact h.marker_eq
  · rw [e2]; exact h.ndiv_eq
  · rw [e2]; exact h.delta_eq
  · rw [e2]; exact h.constraints
  · intro e'; rw [e3, h.edgeMarks]
  · rw [e2]; exact h.faceMarks
  · rw [e2]; exact h.ring

theorem settings_faceMarker (h : HasSettings inv nrow 3 at_ marker ndiv dk cons em fm b) {f : Nat} (hf : f < 6) (v : Int) :
    ∃ b', applied (b.setFaceMarker f v) = .ok b' ∧ HasSettings inv nrow 3 at_ marker ndiv dk cons em (fun e' => if e' = f then some v else fm e') b' := by
  obtain ⟨e1, e2, e3⟩ := (C57_set_face_marker h.reached f v).1 ⟨rfl, hf⟩
  refine ⟨(b.setFaceMarker f v).1, by unfold applied; rw [e1], .faceMarker f v h.reached, ?_, ?_, ?_, ?_, ?_, ?_, ?_⟩
  · rw [e2]; exact h.marker_eq
  · rw [e2]; exact h.ndiv_eq
  · rw [e2]; exact h.delta_eq
  · rw [e2]; exact h.constraints
  · rw [e2]; exact h.edgeMarks
  · intro e'; rw [e3, h.faceMarks]
  · rw [e2]; exact h.ring

theorem HasSettings.congr {cons' : Nat → Option Surface} {em' fm' : Nat → Option Int} (h : HasSettings inv nrow ndim at_ marker ndiv dk cons em fm b)
    (h1 : ∀ s, cons s = cons' s) (h2 : ∀ e, em e = em' e) (h3 : ∀ f, fm f = fm' f) : HasSettings inv nrow ndim at_ marker ndiv dk cons' em' fm' b :=
  ⟨h.reached, h.marker_eq, h.ndiv_eq, h.delta_eq, fun s => (h.constraints s).trans (h1 s), fun e => (h.edgeMarks e).trans (h2 e),
    fun f => (h.faceMarks f).trans (h3 f), h.ring⟩

theorem settings_markedEdges (h : HasSettings inv nrow ndim at_ marker ndiv dk cons (fun _ => none) fm b) {kind : GeoKind} (hk : kind.nedge ≤ if ndim = 2 then 4 else 12)
    (marks : HMap EdgeKey Int) (pp : List Nat) :
    ∃ b', setMarkedEdges kind marks pp b = .ok b' ∧ HasSettings inv nrow ndim at_ marker ndiv dk cons
      (fun e => if e < kind.nedge then marks.get (sort2 (pp.getD (edgeNode kind e 0) 0) (pp.getD (edgeNode kind e 1) 0)) else none) fm b' := by
  unfold setMarkedEdges
  by_cases hm : marks.length > 0
  · rw [if_pos hm]
    have key : ∀ n ≤ kind.nedge, ∃ b', (List.range n).foldlM (fun b e =>
        match marks.get (sort2 (pp.getD (edgeNode kind e 0) 0) (pp.getD (edgeNode kind e 1) 0)) with
        | some marker => applied (b.setEdgeMarker e marker)
        | none => .ok b) b = .ok b' ∧ HasSettings inv nrow ndim at_ marker ndiv dk cons
        (fun e => if e < n then marks.get (sort2 (pp.getD (edgeNode kind e 0) 0) (pp.getD (edgeNode kind e 1) 0)) else none) fm b' := by
      intro n
      induction n with
      | zero => intro _; exact ⟨b, rfl, h.congr (fun _ => rfl) (fun e => by simp) (fun _ => rfl)⟩
      | succ n ih =>
        intro hn
        obtain ⟨b1, e1, s1⟩ := ih (by omega)
        rw [List.range_succ, List.foldlM_append, e1]
        simp only [Res.bind_ok, List.foldlM_cons, List.foldlM_nil]
        cases hg : marks.get (sort2 (pp.getD (edgeNode kind n 0) 0) (pp.getD (edgeNode kind n 1) 0)) with
        | none =>
          refine ⟨b1, rfl, s1.congr (fun _ => rfl) (fun e => ?_) (fun _ => rfl)⟩
          by_cases he : e = n
          · subst he; rw [if_neg (by omega), if_pos (by omega), hg]
          · by_cases hl : e < n
            · rw [if_pos hl, if_pos (by omega)]
            · rw [if_neg hl, if_neg (by omega)]
        | some v =>
          obtain ⟨b2, e2, s2⟩ := settings_edgeMarker s1 (e := n) (by omega) v
          refine ⟨b2, by simp only [e2]; rfl, s2.congr (fun _ => rfl) (fun e => ?_) (fun _ => rfl)⟩
          by_cases he : e = n
          · subst he; rw [if_pos rfl, if_pos (by omega), hg]
          · rw [if_neg he]
            by_cases hl : e < n
            · rw [if_pos hl, if_pos (by omega)]
            · rw [if_neg hl, if_neg (by omega)]
    exact key _ le_rfl
  · rw [if_neg hm]
    exact ⟨b, rfl, h.congr (fun _ => rfl) (fun e => by rw [get_of_length_zero hm]; simp) (fun _ => rfl)⟩

theorem settings_markedFaces (h : HasSettings inv nrow 3 at_ marker ndiv dk cons em (fun _ => none) b) (marks : HMap FaceKey Int) (pp : List Nat) :
    ∃ b', setMarkedFaces marks pp b = .ok b' ∧ HasSettings inv nrow 3 at_ marker ndiv dk cons em
      (fun f => if f < 6 then marks.get (sort4 (pp.getD (faceNode .hex8 f 0) 0) (pp.getD (faceNode .hex8 f 1) 0) (pp.getD (faceNode .hex8 f 2) 0)
        (pp.getD (faceNode .hex8 f 3) 0)) else none) b' := by
  unfold setMarkedFaces
  by_cases hm : marks.length > 0
  · rw [if_pos hm]
    have key : ∀ n ≤ 6, ∃ b', (List.range n).foldlM (fun b f =>
        match marks.get (sort4 (pp.getD (faceNode .hex8 f 0) 0) (pp.getD (faceNode .hex8 f 1) 0) (pp.getD (faceNode .hex8 f 2) 0)
          (pp.getD (faceNode .hex8 f 3) 0)) with
        | some marker => applied (b.setFaceMarker f marker)
        | none => .ok b) b = .ok b' ∧ HasSettings inv nrow 3 at_ marker ndiv dk cons em
        (fun f => if f < n then marks.get (sort4 (pp.getD (faceNode .hex8 f 0) 0) (pp.getD (faceNode .hex8 f 1) 0) (pp.getD (faceNode .hex8 f 2) 0)
          (pp.getD (faceNode .hex8 f 3) 0)) else none) b' := by
      intro n
      induction n with
      | zero => intro _; exact ⟨b, rfl, h.congr (fun _ => rfl) (fun _ => rfl) (fun e => by simp)⟩
      | succ n ih =>
        intro hn
        obtain ⟨b1, e1, s1⟩ := ih (by omega)
        rw [List.range_succ, List.foldlM_append, e1]
        simp only [Res.bind_ok, List.foldlM_cons, List.foldlM_nil]
        cases hg : marks.get (sort4 (pp.getD (faceNode .hex8 n 0) 0) (pp.getD (faceNode .hex8 n 1) 0) (pp.getD (faceNode .hex8 n 2) 0)
          (pp.getD (faceNode .hex8 n 3) 0)) with
        | none =>
          refine ⟨b1, rfl, s1.congr (fun _ => rfl) (fun _ => rfl) (fun e => ?_)⟩
          by_cases he : e = n
          · subst he; rw [if_neg (by omega), if_pos (by omega), hg]
          · by_cases hl : e < n
            · rw [if_pos hl, if_pos (by omega)]
            · rw [if_neg hl, if_neg (by omega)]
        | some v =>
          obtain ⟨b2, e2, s2⟩ := settings_faceMarker s1 (f := n) (by omega) v
          refine ⟨b2, by simp only [e2]; rfl, s2.congr (fun _ => rfl) (fun _ => rfl) (fun e => ?_)⟩
          by_cases he : e = n
          · subst he; rw [if_pos rfl, if_pos (by omega), hg]
          · rw [if_neg he]
            by_cases hl : e < n
            · rw [if_pos hl, if_pos (by omega)]
            · rw [if_neg hl, if_neg (by omega)]
    exact key _ le_rfl
  · rw [if_neg hm]
    exact ⟨b, rfl, h.congr (fun _ => rfl) (fun _ => rfl) (fun e => by rw [get_of_length_zero hm]; simp)⟩

/-! ### One region -/

/-- Indexing a list of points. -/
theorem rows_of {α β : Type} {points : List α} {f : α → β} {pp : List Nat} {rows : List β} (h : pp.mapM (fun p => (points[p]?).map f) = some rows) :
    (pp.mapM fun p => do let c ← Res.idx points p; pure (f c) : Res (List β)) = .ok rows ∧ rows.length = pp.length := by
  induction pp generalizing rows with
  | nil => simp at h; subst h; exact ⟨rfl, rfl⟩
  | cons p pp ih =>
    rw [List.mapM_cons] at h
    cases hp : points[p]? with
    | none => rw [hp] at h; simp at h
    | some c =>
      rw [hp] at h
      cases hr : pp.mapM (fun p => (points[p]?).map f) with
      | none => rw [hr] at h; simp at h
      | some rs =>
        rw [hr] at h
        simp at h
        subst h
        obtain ⟨h1, h2⟩ := ih hr
        rw [List.mapM_cons, h1, (Res.idx_eq_ok ..).2 hp]
        exact ⟨rfl, by simp [h2]⟩

theorem rows_none {α β : Type} {points : List α} {f : α → β} {pp : List Nat} (h : pp.mapM (fun p => (points[p]?).map f) = none) :
    (pp.mapM fun p => do let c ← Res.idx points p; pure (f c) : Res (List β)) = .panic := by
  induction pp with
  | nil => simp at h
  | cons p pp ih =>
    rw [List.mapM_cons] at h
    rw [List.mapM_cons]
    cases hp : points[p]? with
    | none => rw [show Res.idx points p = .panic by unfold Res.idx; rw [hp]]; rfl
    | some c =>
      rw [(Res.idx_eq_ok ..).2 hp]
      rw [hp] at h
      cases hr : pp.mapM (fun p => (points[p]?).map f) with
      | none => rw [ih hr]; rfl
      | some rs => rw [hr] at h; simp at h

end
end Gemlab.Structured
