import Verif.Proofs.Block3

/-! # Blocks: constraints, and finding or creating the point of a node -/
namespace Gemlab

namespace Res

/-- Success with a property, or an error with a reason (and never a panic). -/
def Or {α : Type} (Bad : Prop) (P : α → Prop) (r : Res α) : Prop := (∃ s, r = .ok s ∧ P s) ∨ ((∃ e, r = .err e) ∧ Bad)

theorem Or.bind {α β : Type} {Bad : Prop} {P : α → Prop} {Q : β → Prop} {r : Res α} {f : α → Res β} (h : Or Bad P r)
    (hf : ∀ s, P s → Or Bad Q (f s)) : Or Bad Q (r >>= f) := by
  rcases h with ⟨s, rfl, hp⟩ | ⟨⟨e, rfl⟩, hb⟩
  · exact hf s hp
  · exact .inr ⟨⟨e, rfl⟩, hb⟩

theorem Or.imp {α : Type} {Bad : Prop} {P Q : α → Prop} {r : Res α} (h : Or Bad P r) (hf : ∀ s, P s → Q s) : Or Bad Q r := by
  rcases h with ⟨s, rfl, hp⟩ | h
  · exact .inl ⟨s, rfl, hf s hp⟩
  · exact .inr h

theorem Or.ok {α : Type} {Bad : Prop} {P : α → Prop} {s : α} (h : P s) : Or Bad P (.ok s) := .inl ⟨s, rfl, h⟩

theorem foldlM_range_or {σ : Type} {Bad : Prop} (f : σ → Nat → Res σ) (n : Nat) (s : σ) (P : Nat → σ → Prop) (h0 : P 0 s)
    (hstep : ∀ i s, i < n → P i s → Or Bad (P (i + 1)) (f s i)) : Or Bad (P n) ((List.range n).foldlM f s) := by
  induction n with
  | zero => exact .inl ⟨s, rfl, h0⟩
  | succ n ih =>
    have h1 := ih (fun i s hi hp => hstep i s (by omega) hp)
    rw [List.range_succ, List.foldlM_append]
    refine h1.bind (fun s1 p1 => ?_)
    rw [List.foldlM_cons]
    exact (hstep n s1 (by omega) p1).bind (fun s2 p2 => .ok p2)

end Res

namespace Block
noncomputable section
open Classical
open Gemlab.Mesh Gemlab.Shapes Gemlab.Spec

/-! ## Constraints -/

theorem moveTo_cases (msg : String) (dx dy r : ℝ) :
    (Real.sqrt (dx * dx + dy * dy) ≤ 1 / 10 ^ 8 ∧ moveTo msg dx dy r = .err msg) ∨
    (1 / 10 ^ 8 < Real.sqrt (dx * dx + dy * dy) ∧ Real.sqrt (dx * dx + dy * dy) ≠ r ∧ moveTo msg dx dy r =
      .ok (some ((r - Real.sqrt (dx * dx + dy * dy)) * dx / Real.sqrt (dx * dx + dy * dy), (r - Real.sqrt (dx * dx + dy * dy)) * dy / Real.sqrt (dx * dx + dy * dy)))) ∨
    (1 / 10 ^ 8 < Real.sqrt (dx * dx + dy * dy) ∧ Real.sqrt (dx * dx + dy * dy) = r ∧ moveTo msg dx dy r = .ok none) := by
  unfold moveTo
  dsimp only
  rw [abs_of_nonneg (Real.sqrt_nonneg _)]
  by_cases h : Real.sqrt (dx * dx + dy * dy) ≤ 1 / 10 ^ 8
  · exact .inl ⟨h, if_pos h⟩
  · right
    rw [if_neg h]
    by_cases hr : Real.sqrt (dx * dx + dy * dy) = r
    · right
      refine ⟨not_le.1 h, hr, if_neg ?_⟩
      rw [hr]; simp
    · left
      refine ⟨not_le.1 h, hr, if_pos ?_⟩
      rw [gt_iff_lt, abs_pos]
      intro h'
      exact hr (by linarith)

theorem applyConstraint2d_noPanic (x : List ℝ) (c : Constraint2d) (hx : x.length = 2) :
    (∃ e, applyConstraint2d x c = .err e) ∨ (∃ x', applyConstraint2d x c = .ok (x', true) ∧ x'.length = 2) ∨ applyConstraint2d x c = .ok (x, false) := by
  obtain ⟨xc, yc, r⟩ := c
  unfold applyConstraint2d
  rcases moveTo_cases "cannot apply constraint because a point is at the center of the circle" (at' x 0 - xc) (at' x 1 - yc) r with
    ⟨-, h⟩ | ⟨-, -, h⟩ | ⟨-, -, h⟩ <;> dsimp only <;> rw [h]
  · exact .inl ⟨_, rfl⟩
  · exact .inr (.inl ⟨_, rfl, rfl⟩)
  · exact .inr (.inr rfl)

theorem applyConstraint3d_noPanic (x : List ℝ) (c : Constraint3d) (hx : x.length = 3) :
    (∃ e, applyConstraint3d x c = .err e) ∨ (∃ x', applyConstraint3d x c = .ok (x', true) ∧ x'.length = 3) ∨ applyConstraint3d x c = .ok (x, false) := by
  cases c with
  | cylinderX xc yc r =>
    unfold applyConstraint3d
    rcases moveTo_cases "cannot apply constraint because a point is at the center of the cylinder-x" (at' x 1 - xc) (at' x 2 - yc) r with
      ⟨-, h⟩ | ⟨-, -, h⟩ | ⟨-, -, h⟩ <;> dsimp only <;> rw [h]
    · exact .inl ⟨_, rfl⟩
    · exact .inr (.inl ⟨_, rfl, rfl⟩)
    · exact .inr (.inr rfl)
  | cylinderY xc yc r =>
    unfold applyConstraint3d
    rcases moveTo_cases "cannot apply constraint because a point is at the center of the cylinder-y" (at' x 0 - xc) (at' x 2 - yc) r with
      ⟨-, h⟩ | ⟨-, -, h⟩ | ⟨-, -, h⟩ <;> dsimp only <;> rw [h]
    · exact .inl ⟨_, rfl⟩
    · exact .inr (.inl ⟨_, rfl, rfl⟩)
    · exact .inr (.inr rfl)
  | cylinderZ xc yc r =>
    unfold applyConstraint3d
    rcases moveTo_cases "cannot apply constraint because a point is at the center of the cylinder-z" (at' x 0 - xc) (at' x 1 - yc) r with
      ⟨-, h⟩ | ⟨-, -, h⟩ | ⟨-, -, h⟩ <;> dsimp only <;> rw [h]
    · exact .inl ⟨_, rfl⟩
    · exact .inr (.inl ⟨_, rfl, rfl⟩)
    · exact .inr (.inr rfl)

theorem applySide_cases {b : Block} (hd : b.ndim = 2 ∨ b.ndim = 3) (s : Nat) (x : List ℝ) (hx : x.length = b.ndim) :
    (∃ e, applySide b s x = .err e) ∨ (∃ x', applySide b s x = .ok (x', true) ∧ x'.length = b.ndim) ∨ applySide b s x = .ok (x, false) := by
  unfold applySide
  rcases hd with hd | hd
  · rw [if_pos hd]
    cases b.edgeConstraints.get s with
    | none => exact .inr (.inr rfl)
    | some c => rw [hd] at hx ⊢; exact applyConstraint2d_noPanic x c hx
  · rw [if_neg (by omega)]
    cases b.faceConstraints.get s with
    | none => exact .inr (.inr rfl)
    | some c => rw [hd] at hx ⊢; exact applyConstraint3d_noPanic x c hx

/-- The test "the point is on the side". -/
def Near (t : Nat × Nat × ℝ) (ksi : List ℝ) : Prop := |t.2.2 - at' ksi t.2.1| < 1 / 10 ^ 13

/-- What the sequence of tests does. -/
theorem handleLoop_cases {b : Block} (hd : b.ndim = 2 ∨ b.ndim = 3) (ksi : List ℝ) (L : List (Nat × Nat × ℝ)) (x : List ℝ) (hx : x.length = b.ndim) :
    (∃ pre t post x', L = pre ++ t :: post ∧ Near t ksi ∧ applySide b t.1 x = .ok (x', true) ∧ x'.length = b.ndim ∧
      (∀ u ∈ pre, Near u ksi → applySide b u.1 x = .ok (x, false)) ∧ handleLoop b ksi L x = .ok (x', some t.1)) ∨
    ((∀ u ∈ L, Near u ksi → applySide b u.1 x = .ok (x, false)) ∧ handleLoop b ksi L x = .ok (x, none)) ∨
    (∃ pre t post e, L = pre ++ t :: post ∧ Near t ksi ∧ applySide b t.1 x = .err e ∧
      (∀ u ∈ pre, Near u ksi → applySide b u.1 x = .ok (x, false)) ∧ handleLoop b ksi L x = .err e) := by
  induction L with
  | nil => exact .inr (.inl ⟨by simp, rfl⟩)
  | cons s L ih =>
    have hskip : (Near s ksi → applySide b s.1 x = .ok (x, false)) → handleLoop b ksi (s :: L) x = handleLoop b ksi L x →
      (∃ pre t post x', s :: L = pre ++ t :: post ∧ Near t ksi ∧ applySide b t.1 x = .ok (x', true) ∧ x'.length = b.ndim ∧
        (∀ u ∈ pre, Near u ksi → applySide b u.1 x = .ok (x, false)) ∧ handleLoop b ksi (s :: L) x = .ok (x', some t.1)) ∨
      ((∀ u ∈ s :: L, Near u ksi → applySide b u.1 x = .ok (x, false)) ∧ handleLoop b ksi (s :: L) x = .ok (x, none)) ∨
      (∃ pre t post e, s :: L = pre ++ t :: post ∧ Near t ksi ∧ applySide b t.1 x = .err e ∧
        (∀ u ∈ pre, Near u ksi → applySide b u.1 x = .ok (x, false)) ∧ handleLoop b ksi (s :: L) x = .err e) := by
      intro h1 h2
      rw [h2]
      rcases ih with ⟨pre, t, post, x', g1, g2, g3, g4, g5, g6⟩ | ⟨g1, g2⟩ | ⟨pre, t, post, e, g1, g2, g3, g4, g5⟩
      · refine .inl ⟨s :: pre, t, post, x', by rw [g1]; rfl, g2, g3, g4, ?_, g6⟩
        intro u hu hn
        rcases List.mem_cons.1 hu with rfl | hu
        · exact h1 hn
        · exact g5 u hu hn
      · refine .inr (.inl ⟨?_, g2⟩)
        intro u hu hn
        rcases List.mem_cons.1 hu with rfl | hu
        · exact h1 hn
        · exact g1 u hu hn
      · refine .inr (.inr ⟨s :: pre, t, post, e, by rw [g1]; rfl, g2, g3, ?_, g5⟩)
        intro u hu hn
        rcases List.mem_cons.1 hu with rfl | hu
        · exact h1 hn
        · exact g4 u hu hn
    by_cases hn : Near s ksi
    · have hun : handleLoop b ksi (s :: L) x = (applySide b s.1 x >>= fun r => if r.2 then .ok (r.1, some s.1) else handleLoop b ksi L r.1) := by
        conv_lhs => unfold handleLoop
        exact if_pos hn
      rcases applySide_cases hd s.1 x hx with ⟨e, he⟩ | ⟨x', he, hl⟩ | he
      · refine .inr (.inr ⟨[], s, L, e, rfl, hn, he, by simp, ?_⟩)
        rw [hun, he]; rfl
      · refine .inl ⟨[], s, L, x', rfl, hn, he, hl, by simp, ?_⟩
        rw [hun, he]; rfl
      · apply hskip (fun _ => he)
        rw [hun, he]; rfl
    · apply hskip (fun h => absurd h hn)
      conv_lhs => unfold handleLoop
      exact if_neg hn

/-- `realCoords` returns `ndim` coordinates, or an error; never a panic. -/
theorem realCoords_cases {nrow ndim : Nat} {at_ : Nat → Nat → ℝ} {b : Block} (hw : WF nrow ndim at_ b) (ksi : List ℝ) :
    (∃ x s, realCoords b ksi = .ok (x, s) ∧ x.length = b.ndim ∧ ∀ t, s = some t → ∃ u ∈ sides b.ndim, u.1 = t ∧ Near u ksi) ∨ ∃ e, realCoords b ksi = .err e := by
  unfold realCoords
  by_cases hr : b.transformIntoRing
  · left
    rw [if_pos hr]
    refine ⟨_, _, rfl, ?_, by simp⟩
    unfold mapCoordsCylindrical
    rcases hw.dims with h | h <;> simp [h]
  · rw [if_neg hr]
    have hp := Scratchpad.calcCoords_ok hw.padOk (at' ksi)
    rw [hw.padNdim] at hp
    rw [hp, Res.bind_ok]
    dsimp only
    by_cases hh : hasConstraints b = true
    · rw [if_pos hh]
      unfold handleConstraints
      rcases handleLoop_cases hw.dims ksi (sides b.ndim) ((List.range b.ndim).map (Shapes.calcCoords b.pad.kind b.pad.X (at' ksi))) (by simp) with
        ⟨pre, t, post, x', g1, g2, g3, g4, g5, g6⟩ | ⟨g1, g2⟩ | ⟨pre, t, post, e, g1, g2, g3, g4, g5⟩
      · refine .inl ⟨x', some t.1, g6, g4, ?_⟩
        intro t' ht'
        exact ⟨t, by rw [g1]; simp, Option.some.inj ht', g2⟩
      · exact .inl ⟨_, none, g2, by simp, by simp⟩
      · exact .inr ⟨e, g5⟩
    · rw [if_neg hh]
      exact .inl ⟨_, none, rfl, by simp, by simp⟩

theorem sides_spec {ndim : Nat} (hd : ndim = 2 ∨ ndim = 3) (u : Nat × Nat × ℝ) (hu : u ∈ sides ndim) :
    u.2.1 = sideDir ndim u.1 ∧ u.2.2 = sideVal ndim u.1 ∧ u.2.1 < ndim ∧ u.1 < 2 * ndim ∧ (u.2.2 = -1 ∨ u.2.2 = 1) := by
  rcases hd with rfl | rfl
  · simp only [sides, if_true, List.mem_cons, List.not_mem_nil, or_false] at hu
    rcases hu with rfl | rfl | rfl | rfl <;> simp [sideDir, sideVal]
  · simp only [sides, List.mem_cons, List.not_mem_nil, or_false] at hu
    rw [if_neg (by decide)] at hu
    simp only [List.mem_cons, List.not_mem_nil, or_false] at hu
    rcases hu with rfl | rfl | rfl | rfl | rfl | rfl <;> simp [sideDir, sideVal]

theorem sides_mem {ndim s : Nat} (hd : ndim = 2 ∨ ndim = 3) (hs : s < 2 * ndim) : (s, sideDir ndim s, sideVal ndim s) ∈ sides ndim := by
  rcases hd with rfl | rfl
  · have : s = 0 ∨ s = 1 ∨ s = 2 ∨ s = 3 := by omega
    rcases this with rfl | rfl | rfl | rfl <;> simp [sides, sideDir, sideVal]
  · have : s = 0 ∨ s = 1 ∨ s = 2 ∨ s = 3 ∨ s = 4 ∨ s = 5 := by omega
    rcases this with rfl | rfl | rfl | rfl | rfl | rfl <;> simp [sides, sideDir, sideVal]

variable {nrow ndim : Nat} {at_ : Nat → Nat → ℝ} {b : Block} {target : GeoKind}

/-- For nodes, the test is exact. -/
theorem near_iff (hc : Ctx b target) {ξ : List ℝ} (hn : IsNode b target ξ) {u : Nat × Nat × ℝ} (hu : u ∈ sides b.ndim) :
    Near u ξ ↔ OnSide b.ndim u.1 ξ := by
  obtain ⟨h1, h2, h3, -, h5⟩ := sides_spec hc.dims u hu
  unfold Near OnSide at'
  rw [← h1, ← h2]
  constructor
  · intro h
    obtain ⟨g1, g2⟩ := onSide_or_far hc hn h3
    rcases h5 with h5 | h5 <;> rw [h5] at h ⊢
    · rcases g1 with g | g
      · exact g
      · exfalso; norm_num at g h; linarith
    · rcases g2 with g | g
      · exact g
      · exfalso; norm_num at g h; linarith
  · intro h
    rw [h]; norm_num

theorem movedBy_onSide (hw : WF nrow ndim at_ b) (hc : Ctx b target) {ξ : List ℝ} (hn : IsNode b target ξ) {s : Nat} (h : movedBy b ξ = some s) :
    OnSide b.ndim s ξ ∧ s < 2 * b.ndim := by
  unfold movedBy at h
  rcases realCoords_cases hw ξ with ⟨x, s', h1, -, h2⟩ | ⟨e, h1⟩
  · rw [h1] at h
    dsimp only at h
    obtain ⟨u, hu, rfl, hnear⟩ := h2 s h
    exact ⟨(near_iff hc hn hu).1 hnear, (sides_spec hc.dims u hu).2.2.2.1⟩
  · rw [h1] at h
    cases h

theorem length_mapped (hw : WF nrow ndim at_ b) {ξ : List ℝ} (h : ∃ r, realCoords b ξ = .ok r) : (mapped b ξ).length = b.ndim := by
  obtain ⟨r, hr⟩ := h
  unfold mapped
  rcases realCoords_cases hw ξ with ⟨x, s', h1, h2, -⟩ | ⟨e, h1⟩
  · rw [h1]; exact h2
  · rw [h1] at hr; cases hr

/-! ## The points -/

/-- The insertions into the search grid: point ids are sequential. -/
def histOf (H : List (List ℝ)) : List (Nat × List ℝ) := H.zipIdx.map fun e => (e.2, e.1)

theorem histOf_concat (H : List (List ℝ)) (x : List ℝ) : histOf (H ++ [x]) = histOf H ++ [(H.length, x)] := by
  unfold histOf
  rw [List.zipIdx_append, List.map_append]
  simp

theorem mem_histOf {H : List (List ℝ)} {p : Nat} {x : List ℝ} : (p, x) ∈ histOf H ↔ H[p]? = some x := by
  unfold histOf
  rw [List.mem_map]
  constructor
  · rintro ⟨⟨x', p'⟩, h, he⟩
    cases he
    exact List.mem_zipIdx_iff_getElem?.1 h
  · intro h
    exact ⟨(x, p), List.mem_zipIdx_iff_getElem?.2 h, rfl⟩

theorem histOf_ids (H : List (List ℝ)) : (histOf H).map (·.1) = List.range H.length := by
  unfold histOf
  rw [List.map_map]
  have : ((fun x : Nat × List ℝ => x.1) ∘ fun e : List ℝ × Nat => (e.2, e.1)) = Prod.snd := rfl
  rw [this, List.zipIdx_map_snd, List.range_eq_range']

/-- The state of `subdivide` with the points at the positions `H`. -/
structure Base (b : Block) (target : GeoKind) (H : List (List ℝ)) (st : State) : Prop where
  grid : Gemlab.Reached (List.replicate b.ndim (-1)) (List.replicate b.ndim 1) none none none st.grid (histOf H)
  nodup : H.Nodup
  nodes : ∀ ξ ∈ H, IsNode b target ξ
  len : st.mesh.points.length = H.length
  ids : ∀ (p : Nat) pt, st.mesh.points[p]? = some pt → pt.id = p ∧ pt.marker = 0 ∧ pt.coords.length = b.ndim
  good : ∀ ξ ∈ H, ∃ r, realCoords b ξ = .ok r
  cwf : HMap.WF st.constrained
  constr : ∀ (p s : Nat), st.constrained.get p = some s ↔ ∃ ξ, H[p]? = some ξ ∧ movedBy b ξ = some s
  ndim : st.mesh.ndim = b.ndim

variable {iterG : List (Nat × List ℝ) → List (Nat × List ℝ)} {H : List (List ℝ)} {st : State}

theorem inside (hc : Ctx b target) {g : GridSearch} {hist : List (Nat × List ℝ)} (hg : Gemlab.Reached (List.replicate b.ndim (-1)) (List.replicate b.ndim 1) none none none g hist)
    {ξ : List ℝ} (hn : IsNode b target ξ) : GridSearch.isOutside g ξ = .ok false := by
  obtain ⟨h1, h2⟩ := hn.bounds hc
  refine C16_covers hg ξ (by rw [h1]; simp) (fun a ha => ?_)
  rw [List.length_replicate] at ha
  have e1 : (List.replicate b.ndim (-1 : ℝ)).getD a 0 = -1 := by simp [List.getD_eq_getElem?_getD, ha]
  have e2 : (List.replicate b.ndim (1 : ℝ)).getD a 0 = 1 := by simp [List.getD_eq_getElem?_getD, ha]
  rw [e1, e2, Option.getD_none]
  obtain ⟨h3, h4⟩ := h2 a ha
  constructor <;> linarith

/-- The search finds exactly the point at this position. -/
theorem search_node (hc : Ctx b target) (hI : IterOrder iterG) (hB : Base b target H st) {ξ : List ℝ} (hn : IsNode b target ξ) :
    (∃ p : Nat, GridSearch.search iterG st.grid ξ = .ok (some p) ∧ H[p]? = some ξ) ∨ (GridSearch.search iterG st.grid ξ = .ok none ∧ ξ ∉ H) := by
  have hl : ξ.length = (List.replicate b.ndim (-1 : ℝ)).length := by rw [(hn.bounds hc).1]; simp
  have hin := inside hc hB.grid hn
  have hnd : ((histOf H).map (·.1)).Nodup := by rw [histOf_ids]; exact List.nodup_range
  obtain ⟨r, hr, hr2⟩ := (C13_search_sound hB.grid hI ξ).1 ⟨hl, hin⟩
  cases r with
  | none =>
    right
    refine ⟨hr, fun hmem => ?_⟩
    obtain ⟨p, hp⟩ := List.mem_iff_getElem?.1 hmem
    obtain ⟨a, ha, hlt⟩ := (C13_distinct_ids hB.grid hI hnd ξ hl hin).1 hr (p, ξ) (mem_histOf.2 hp)
    simp at hlt
    linarith
  | some p =>
    left
    obtain ⟨x, hx, hd⟩ := hr2 p rfl
    rw [mem_histOf] at hx
    rw [List.length_replicate, Option.getD_none] at hd
    have := eq_of_near hc (hB.nodes x (List.mem_of_getElem? hx)) hn hd
    subst this
    exact ⟨p, hr, hx⟩

/-- Some node of the subdivision cannot be mapped (a constrained point is at the center). -/
def BadNode (b : Block) (target : GeoKind) : Prop := ∃ ξ, IsNode b target ξ ∧ ∃ e, realCoords b ξ = .err e

/-- Effect of the search or creation of a point. -/
theorem addNode_spec (hw : WF nrow ndim at_ b) (hc : Ctx b target) (hI : IterOrder iterG) (hB : Base b target H st) {ξ : List ℝ} (hn : IsNode b target ξ) :
    Res.Or (BadNode b target) (fun (r : Nat × State) => ∃ H' : List (List ℝ), H'[r.1]? = some ξ ∧ Base b target H' r.2 ∧
      ((H' = H ∧ r.2 = st) ∨ (H' = H ++ [ξ] ∧ r.1 = H.length ∧
        r.2.mesh = { st.mesh with points := st.mesh.points ++ [⟨H.length, 0, mapped b ξ⟩] }))) (addNode iterG b st ξ) := by
  unfold addNode
  rcases search_node hc hI hB hn with ⟨p, hp, hH⟩ | ⟨hp, hH⟩
  · rw [hp, Res.bind_ok]
    exact .ok ⟨H, hH, hB, .inl ⟨rfl, rfl⟩⟩
  · rw [hp, Res.bind_ok]
    dsimp only
    have hl : ξ.length = (List.replicate b.ndim (-1 : ℝ)).length := by rw [(hn.bounds hc).1]; simp
    obtain ⟨g', hg'⟩ := (C16_insert_ok_iff hB.grid st.mesh.points.length ξ).1 ⟨hl, inside hc hB.grid hn⟩
    rw [hg', Res.bind_ok]
    rcases realCoords_cases hw ξ with ⟨x, s, h1, h2, -⟩ | ⟨e, h1⟩
    · rw [h1, Res.bind_ok]
      have hm : mapped b ξ = x := by unfold mapped; rw [h1]
      have hmv : movedBy b ξ = s := by unfold movedBy; rw [h1]
      refine .ok ⟨H ++ [ξ], ?_, ?_, .inr ⟨rfl, hB.len, ?_⟩⟩
      · dsimp only
        rw [hB.len, List.getElem?_concat_length]
      · constructor
        · rw [histOf_concat, ← hB.len]
          exact Gemlab.Reached.insert hB.grid hg'
        · rw [List.nodup_append]
          exact ⟨hB.nodup, List.nodup_singleton _, by intro a ha c hc'; rw [List.mem_singleton] at hc'; subst hc'; intro h; subst h; exact hH ha⟩
        · intro η hη
          rcases List.mem_append.1 hη with h | h
          · exact hB.nodes η h
          · rw [List.mem_singleton] at h; subst h; exact hn
        · dsimp only
          rw [List.length_append, List.length_append, hB.len]; rfl
        · intro p pt hp'
          dsimp only at hp'
          rw [List.getElem?_append] at hp'
          split at hp'
          · exact hB.ids p pt hp'
          · rename_i hge
            rw [List.getElem?_singleton] at hp'
            split at hp'
            · cases hp'
              dsimp only
              exact ⟨by omega, rfl, h2⟩
            · cases hp'
        · intro η hη
          rcases List.mem_append.1 hη with h | h
          · exact hB.good η h
          · rw [List.mem_singleton] at h; subst h; exact ⟨_, h1⟩
        · dsimp only
          cases s with
          | none => exact hB.cwf
          | some s => exact HMap.wf_insert _ _ _ hB.cwf
        · intro p s'
          have hold : (∃ η, (H ++ [ξ])[p]? = some η ∧ movedBy b η = some s') ↔ if p = H.length then s = some s' else ∃ η, H[p]? = some η ∧ movedBy b η = some s' := by
            split
            · rename_i hpe
              subst hpe
              rw [List.getElem?_concat_length]
              constructor
              · rintro ⟨η, h, h'⟩
                cases h
                rw [← hmv]; exact h'
              · intro h
                exact ⟨ξ, rfl, by rw [hmv]; exact h⟩
            · rename_i hpe
              by_cases hlt : p < H.length
              · rw [List.getElem?_append_left hlt]
              · rw [List.getElem?_eq_none (by simp; omega), List.getElem?_eq_none (by omega)]
          rw [hold]
          dsimp only
          cases s with
          | none =>
            dsimp only
            rw [hB.constr]
            split
            · rename_i hpe
              subst hpe
              rw [List.getElem?_eq_none le_rfl]
              simp
            · rfl
          | some s =>
            dsimp only
            rw [HMap.get_insert, hB.len]
            split
            · simp
            · exact hB.constr p s'
        · exact hB.ndim
      · dsimp only
        rw [hm, hB.len]
    · rw [h1]
      exact .inr ⟨⟨e, rfl⟩, ξ, hn, e, h1⟩

end
end Block
end Gemlab
