import Verif.Spec.Disks
import Verif.Props.FromBlocks

/-! # Meshes of blocks with sides on circles -/
namespace Gemlab.Structured
noncomputable section
open Classical
open Gemlab.Mesh Gemlab.Shapes Gemlab.Block Gemlab.Spec

variable {inv : MatInverse} {o : GenOrders} {ndim : Nat} {P Q : Piece} {target : GeoKind} {b : Block} {A B : Mesh ℝ}

/-- The position is in the reference square (cube). -/
def InBox (ndim : Nat) (ξ : List ℝ) : Prop := ∀ a < ndim, -1 ≤ ξ.getD a 0 ∧ ξ.getD a 0 ≤ 1

/-- The geometry of a block is right: it can be made, and its arcs (on one side or two opposite vertical sides) begin and end on their circles. -/
structure Good (ndim : Nat) (P : Piece) : Prop where
  shape : AcceptedShape P.nodes.length ndim
  jac : 0 < detN ndim (centreJacobian P.nodes.length ndim P.at_)
  arcs : ∀ q ∈ P.arcs, q.1 < 2 * ndim ∧ 0 < q.2 ∧ sideDir ndim q.1 < 2
  opposite : ∀ q ∈ P.arcs, ∀ q' ∈ P.arcs, sideDir ndim q.1 = sideDir ndim q'.1 ∧ (q.1 = q'.1 → q = q')
  clear : ∀ q ∈ P.arcs, ∀ ξ, InBox ndim ξ → OnSide ndim q.1 ξ → 1 / 10 ^ 8 < (around q.2).dist (isoMap P.nodes.length ndim P.at_ ξ)
  ends : ∀ q ∈ P.arcs, ∀ ξ, InBox ndim ξ → OnSide ndim q.1 ξ → ∀ s < 2 * ndim, sideDir ndim s < 2 → sideDir ndim s ≠ sideDir ndim q.1 → OnSide ndim s ξ →
    (around q.2).dist (isoMap P.nodes.length ndim P.at_ ξ) = q.2

/-- The numbers of divisions are right. -/
def Counted (ndim : Nat) (P : Piece) : Prop := P.ndiv.length = ndim ∧ ∀ n ∈ P.ndiv, 1 ≤ n ∧ CountOk n

/-- The block of a piece. -/
def IsPieceBlock (inv : MatInverse) (ndim : Nat) (P : Piece) (b : Block) : Prop :=
  HasSettings inv P.nodes.length ndim P.at_ 1 P.ndiv (P.ndiv.map equalDivisions) P.constraint (fun _ => none) (fun _ => none) b

theorem Good.dims (h : Good ndim P) : ndim = 2 ∨ ndim = 3 := by
  rcases h.shape with ⟨h, -⟩ | ⟨h, -⟩
  · exact .inl h
  · exact .inr h

/-! ### Positions -/

theorem node_inBox (hb : Block.Reached inv P.nodes.length ndim P.at_ b) (hf : NotTooFine b) (ht : TargetOk b target) {ξ : List ℝ} (h : IsNode b target ξ) : InBox ndim ξ := by
  obtain ⟨i, j, k, m, hg, hm, rfl⟩ := h
  have hc := hb.ctx hf ht
  intro a ha
  have hn := (C41_partition hb).1
  have ha' : a < b.ndim := by omega
  rw [getD_nodePos ha']
  have hp := hg.pick ha' hc.dims
  have hr := hc.rok hm ha'
  constructor
  · rcases pos_low (hc.dir _ ha') hp hr with ⟨-, -, h1⟩ | h1
    · rw [h1]
    · norm_num at h1; linarith
  · rcases pos_high (hc.dir _ ha') hp hr with ⟨-, -, h1⟩ | h1
    · rw [h1]
    · norm_num at h1; linarith

/-! ### Constraints -/

theorem arc_of (hP : Good ndim P) (hb : IsPieceBlock inv ndim P b) {s : Nat} {S : Surface} : constraintOf b s = some S ↔ ∃ q ∈ P.arcs, q.1 = s ∧ S = around q.2 := by
  rw [hb.constraints]
  unfold Piece.constraint
  rw [Option.map_eq_some_iff]
  constructor
  · rintro ⟨q, h1, rfl⟩
    exact ⟨q, List.mem_of_find?_eq_some h1, by simpa using List.find?_some h1, rfl⟩
  · rintro ⟨q, h1, h2, rfl⟩
    cases hf : P.arcs.find? (fun q => q.1 = s) with
    | none =>
      rw [List.find?_eq_none] at hf
      exact absurd h2 (by simpa using hf q h1)
    | some q' =>
      have h3 : q'.1 = s := by simpa using List.find?_some hf
      have := (hP.opposite q' (List.mem_of_find?_eq_some hf) q h1).2 (by rw [h3, h2])
      exact ⟨q', rfl, by rw [this]⟩

theorem side_unique {ndim s s' : Nat} (hd : ndim = 2 ∨ ndim = 3) (h : s < 2 * ndim) (h' : s' < 2 * ndim) {ξ : List ℝ} (h1 : OnSide ndim s ξ) (h2 : OnSide ndim s' ξ)
    (hdir : sideDir ndim s = sideDir ndim s') : s = s' := by
  unfold OnSide at h1 h2
  rw [hdir, h2] at h1
  clear h2
  rcases hd with rfl | rfl
  · have e1 : s = 0 ∨ s = 1 ∨ s = 2 ∨ s = 3 := by omega
    have e2 : s' = 0 ∨ s' = 1 ∨ s' = 2 ∨ s' = 3 := by omega
    rcases e1 with rfl | rfl | rfl | rfl <;> rcases e2 with rfl | rfl | rfl | rfl <;> first | rfl | (exfalso; revert hdir; decide) | (exfalso; revert h1; norm_num [sideVal])
  · have e1 : s = 0 ∨ s = 1 ∨ s = 2 ∨ s = 3 ∨ s = 4 ∨ s = 5 := by omega
    have e2 : s' = 0 ∨ s' = 1 ∨ s' = 2 ∨ s' = 3 ∨ s' = 4 ∨ s' = 5 := by omega
    rcases e1 with rfl | rfl | rfl | rfl | rfl | rfl <;> rcases e2 with rfl | rfl | rfl | rfl | rfl | rfl <;>
      first | rfl | (exfalso; revert hdir; decide) | (exfalso; revert h1; norm_num [sideVal])

/-- The arc where a position is. -/
theorem arc_find (hP : Good ndim P) {ξ : List ℝ} {q : Nat × ℝ} (hq : q ∈ P.arcs) (hon : OnSide ndim q.1 ξ) :
    (P.arcs.find? fun q => OnSide ndim q.1 ξ) = some q := by
  cases hf : P.arcs.find? (fun q => OnSide ndim q.1 ξ) with
  | none =>
    rw [List.find?_eq_none] at hf
    exact absurd hon (by simpa using hf q hq)
  | some q' =>
    have h3 : OnSide ndim q'.1 ξ := by simpa using List.find?_some hf
    have hm := List.mem_of_find?_eq_some hf
    obtain ⟨o1, o2⟩ := hP.opposite q' hm q hq
    rw [o2 (side_unique hP.dims (hP.arcs _ hm).1 (hP.arcs _ hq).1 h3 hon o1)]

theorem project_id {R : ℝ} {x : List ℝ} (h : (around R).dist x = R) (hR : 0 < R) : (around R).project x = x := by
  unfold Surface.project
  rw [h]
  refine List.ext_getElem (by simp) (fun a h1 h2 => ?_)
  have hd : x.getD a 0 = x[a] := List.getD_eq_getElem _ 0 h2
  rw [List.getElem_map, List.getElem_range]
  show (if a = 0 then 0 + R / R * (x.getD 0 0 - 0) else if a = 1 then 0 + R / R * (x.getD 1 0 - 0) else x.getD a 0) = x[a]
  rw [div_self hR.ne', ← hd]
  split
  · rename_i h; subst h; ring
  · split
    · rename_i h; subst h; ring
    · rfl

/-- Where a node of the subdivision is mapped to. -/
theorem mapped_place (hP : Good ndim P) (hb : IsPieceBlock inv ndim P b) (hf : NotTooFine b) (ht : TargetOk b target) {ξ : List ℝ} (hn : IsNode b target ξ) :
    mapped b ξ = P.place ndim (ξ.map fun x => (x + 1) / 2) ∧
    ∀ s, movedBy b ξ = some s → ∃ q ∈ P.arcs, q.1 = s ∧ OnSide ndim s ξ ∧ (around q.2).dist (isoMap P.nodes.length ndim P.at_ ξ) ≠ q.2 := by
  have hbox := node_inBox hb.reached hf ht hn
  have hnd : b.ndim = ndim := (C41_partition hb.reached).1
  obtain ⟨h1, h2⟩ := C42_mapped hb.reached hf ht hb.ring hn
  have hid : (ξ.map fun x => (x + 1) / 2).map (fun x => 2 * x - 1) = ξ := by
    rw [List.map_map]
    conv_rhs => rw [← List.map_id ξ]
    apply List.map_congr_left
    intro x _
    simp only [Function.comp, id]
    ring
  unfold Piece.place
  simp only [hid]
  by_cases hall : ∀ s S, Active b ξ s S → ¬ S.Off (isoMap P.nodes.length ndim P.at_ ξ)
  · rw [(h1 hall).1, (h1 hall).2]
    refine ⟨?_, fun s hs => by cases hs⟩
    cases hfd : P.arcs.find? (fun q => OnSide ndim q.1 ξ) with
    | none => rfl
    | some q =>
      have hm := List.mem_of_find?_eq_some hfd
      have hon : OnSide ndim q.1 ξ := by simpa using List.find?_some hfd
      obtain ⟨a1, a2, a3⟩ := hP.arcs q hm
      have := hall q.1 (around q.2) ⟨by rw [hnd]; exact a1, by rw [hnd]; exact hon, (arc_of hP hb).2 ⟨q, hm, rfl, rfl⟩⟩
      unfold Surface.Off at this
      push Not at this
      exact (project_id this.2 a2).symm
  · push Not at hall
    obtain ⟨s, S, hA, hO⟩ := hall
    obtain ⟨q, hm, rfl, rfl⟩ := (arc_of hP hb).1 hA.2.2
    have hon : OnSide ndim q.1 ξ := by rw [← hnd]; exact hA.2.1
    have hF : FirstOff b ξ (isoMap P.nodes.length ndim P.at_ ξ) q.1 (around q.2) := by
      refine ⟨hA, hO, fun s' hs' S' hA' => ?_⟩
      exfalso
      obtain ⟨q', hm', rfl, rfl⟩ := (arc_of hP hb).1 hA'.2.2
      have hon' : OnSide ndim q'.1 ξ := by rw [← hnd]; exact hA'.2.1
      have := side_unique hP.dims (hP.arcs _ hm').1 (hP.arcs _ hm).1 hon' hon (hP.opposite _ hm' _ hm).1
      omega
    have hd := hP.clear q hm ξ hbox hon
    obtain ⟨e1, e2⟩ := (h2 _ _ hF).1 hd
    rw [e1, e2, arc_find hP hm hon]
    refine ⟨rfl, fun s hs => ?_⟩
    cases hs
    refine ⟨q, hm, rfl, hon, ?_⟩
    rcases hO with h | h
    · exact absurd hd (not_lt.2 h)
    · exact h

theorem not_unmappable (hP : Good ndim P) (hb : IsPieceBlock inv ndim P b) (hf : NotTooFine b) (ht : TargetOk b target) :
    ¬ Block.Unmappable P.nodes.length ndim P.at_ b target := by
  rintro ⟨-, ξ, s, S, hn, hF, hd⟩
  have hnd : b.ndim = ndim := (C41_partition hb.reached).1
  obtain ⟨q, hm, rfl, rfl⟩ := (arc_of hP hb).1 hF.1.2.2
  exact absurd (hP.clear q hm ξ (node_inBox hb.reached hf ht hn) (by rw [← hnd]; exact hF.1.2.1)) (not_lt.2 hd)

/-- The nodes at the corners of the cells and those on the vertical sides of the block are at their places. -/
theorem coords_place (hP : Good ndim P) (hb : IsPieceBlock inv ndim P b) (hf : NotTooFine b) (ht : TargetOk b target) (hM : IsSubdivision b target A)
    {i j k m : Nat} (hg : InGrid b i j k) (hm : m < target.nnode)
    (hc : target.edgeNnode ≤ 2 ∨ freeDirs target m = [] ∨ ∃ s < 2 * ndim, sideDir ndim s < 2 ∧ OnSide ndim s (nodePos b target i j k m)) :
    coordsOf A (ptAt b A i j k m) = P.place ndim ((nodePos b target i j k m).map fun x => (x + 1) / 2) := by
  have hctx := hb.reached.ctx hf ht
  have hnd : b.ndim = ndim := (C41_partition hb.reached).1
  have hnode : IsNode b target (nodePos b target i j k m) := ⟨i, j, k, m, hg, hm, rfl⟩
  have hmap := (mapped_place hP hb hf ht hnode).1
  rw [hM.coords i j k m hg hm]
  by_cases hfix : hasConstraints b ∧ target.edgeNnode > 2
  swap
  · unfold finalCoords
    rw [if_neg hfix, hmap]
  rcases hc with hc | hc | ⟨s, hs, hs2, hon⟩
  · exact absurd hfix.2 (by omega)
  · rw [finalCoords_fix hfix (by rw [hc]; simp)]
    unfold edgeCoords
    rw [hc]
    exact hmap
  have hsb : s < 2 * b.ndim := by omega
  have hsd : sideDir b.ndim s < b.ndim := (sides_spec hctx.dims _ (sides_mem hctx.dims hsb)).2.2.1
  have hon' : OnSide b.ndim s (nodePos b target i j k m) := by rw [hnd]; exact hon
  have hrr : rr target m (sideDir b.ndim s) = 0 ∨ rr target m (sideDir b.ndim s) = 1 := by
    have hv := (sides_spec hctx.dims _ (sides_mem hctx.dims hsb)).2.2.2.2
    dsimp only at hv
    unfold OnSide at hon'
    rw [getD_nodePos hsd] at hon'
    rcases hv with hv | hv
    · rw [hv] at hon'
      rcases pos_low (hctx.dir _ hsd) (hg.pick hsd hctx.dims) (hctx.rok hm hsd) with ⟨-, h, -⟩ | h
      · exact .inl h
      · rw [hon'] at h; norm_num at h
    · rw [hv] at hon'
      rcases pos_high (hctx.dir _ hsd) (hg.pick hsd hctx.dims) (hctx.rok hm hsd) with ⟨-, h, -⟩ | h
      · exact .inr h
      · rw [hon'] at h; norm_num at h
  have hnf : sideDir b.ndim s ∉ freeDirs target m := by
    intro hmem
    obtain ⟨-, a, b⟩ := mem_freeDirs.1 hmem
    rcases hrr with h | h
    · exact a h
    · exact b h
  have hle : (freeDirs target m).length ≤ 1 := by
    by_contra hgt
    obtain ⟨h2, he⟩ := free_all target hctx.qh m hm (by omega)
    apply hnf
    rw [he]
    rw [hctx.ndim] at h2
    have : sideDir b.ndim s = 0 ∨ sideDir b.ndim s = 1 := by omega
    rcases this with h | h <;> simp [h]
  rw [finalCoords_fix hfix hle]
  unfold edgeCoords
  match hfd : freeDirs target m with
  | [] => exact hmap
  | d :: l =>
    dsimp only
    rw [if_neg]
    · exact hmap
    · have hdm : d ∈ freeDirs target m := by rw [hfd]; simp
      have hdl := mem_freeDirs.1 hdm
      have hds : sideDir b.ndim s ≠ d := fun h => hnf (h ▸ hdm)
      rintro ⟨s', hmv, hdir⟩
      have key : ∀ v, (v = (0 : ℝ) ∨ v = 1) → IsNode b target (endPos b target i j k m d v) → movedBy b (endPos b target i j k m d v) ≠ some s' := by
        intro v _ hnode' hmv'
        obtain ⟨q, hq, rfl, hon2, hne⟩ := (mapped_place hP hb hf ht hnode').2 s' hmv'
        apply hne
        refine hP.ends q hq _ (node_inBox hb.reached hf ht hnode') hon2 s hs hs2 (by rw [← hnd, hdir]; exact hds) ?_
        unfold OnSide at hon ⊢
        rw [← hon, ← hnd]
        unfold endPos nodePos
        rw [getD_map_range hsd, getD_map_range hsd, if_neg hds]
      obtain ⟨ek, hek⟩ : ∃ ek, target.edgeKind = some ek := by
        have := hctx.qh
        clear * - this
        cases target <;> first | exact absurd this (by unfold IsQuaHex; decide) | exact ⟨_, rfl⟩
      obtain ⟨e, he, idx, hidx, h2, hedge⟩ := edge_of_mid target hctx.qh m hm (by rw [hfd] at hle ⊢; simp at hle ⊢; exact hle)
      have hd : d = edgeDir target e := by
        have := (edge_mids target ek hctx.qh hek e he idx hidx h2).2.1
        rw [← hedge, hfd] at this
        exact (List.cons.inj this).1
      obtain ⟨-, c1, c2, -⟩ := edge_corners target hctx.qh e he
      have hends := ends_of_mid (b := b) (i := i) (j := j) (k := k) hctx hek he hidx h2
      rw [← hedge, ← hd] at hends
      have n0 : IsNode b target (endPos b target i j k m d 0) ∧ IsNode b target (endPos b target i j k m d 1) := by
        rcases hends with ⟨-, e1, e2⟩ | ⟨-, e1, e2⟩ <;> rw [e1, e2]
        · exact ⟨⟨i, j, k, _, hg, c1, rfl⟩, ⟨i, j, k, _, hg, c2, rfl⟩⟩
        · exact ⟨⟨i, j, k, _, hg, c2, rfl⟩, ⟨i, j, k, _, hg, c1, rfl⟩⟩
      rcases hmv with h | h
      · exact key 0 (.inl rfl) n0.1 h
      · exact key 1 (.inr rfl) n0.2 h

/-! ### Making the meshes -/

theorem settings_ndiv {nrow : Nat} {at_ : Nat → Nat → ℝ} {marker : Int} {nd dk cs es fs} (h : HasSettings inv nrow ndim at_ marker nd dk cs es fs b) (v : List Nat) :
    ((v.length = ndim ∧ ∀ n ∈ v, 1 ≤ n) → ∃ b', applied (b.setNdiv v) = .ok b' ∧ HasSettings inv nrow ndim at_ marker v (v.map equalDivisions) cs es fs b') ∧
    (¬ (v.length = ndim ∧ ∀ n ∈ v, 1 ≤ n) → ∃ e, applied (b.setNdiv v) = .err e) := by
  obtain ⟨c1, c2, -⟩ := C41_set_ndiv h.reached v
  constructor
  · intro hv
    have e := c1 hv
    have hr := Reached.ndiv v h.reached
    rw [e] at hr
    exact ⟨_, applied_ok e, hr, h.marker_eq, rfl, rfl, h.constraints, h.edgeMarks, h.faceMarks, h.ring⟩
  · intro hv
    obtain ⟨e, he⟩ := c2 hv
    exact ⟨e, by unfold applied; rw [he]⟩

theorem piece_new (hinv : InverseSpec inv) (hnp : ∀ n a, inv n a ≠ .panic) (hall : ∀ n a, detN n a ≠ 0 → ∃ r, inv n a = .ok r) (hP : Good ndim P) :
    ∃ b, blockOf inv ndim P.nodes = .ok b ∧ HasSettings inv P.nodes.length ndim P.at_ 1 (List.replicate ndim 2) (List.replicate ndim (equalDivisions 2))
      (fun _ => none) (fun _ => none) (fun _ => none) b := by
  obtain ⟨b, hb⟩ := (C54_new (nrow := P.nodes.length) (ndim := ndim) (at_ := P.at_) hinv hnp hall).1 ⟨hP.shape, hP.jac⟩
  exact ⟨b, hb, settings_new hb⟩

theorem divsOf_counted (hc : Counted ndim P) : ∀ a < ndim, 1 ≤ divsOf P.ndiv a ∧ CountOk (divsOf P.ndiv a) := by
  intro a ha
  have : divsOf P.ndiv a = P.ndiv[a]'(by rw [hc.1]; exact ha) := List.getD_eq_getElem _ 1 _
  rw [this]
  exact hc.2 _ (List.getElem_mem _)

theorem piece_fine (hb : IsPieceBlock inv ndim P b) (hc : Counted ndim P) : NotTooFine b := by
  have hnd : b.ndim = ndim := (C41_partition hb.reached).1
  exact fine_even hb.delta_eq hb.ndiv_eq (by rw [hc.1, hnd]) (by rw [hnd]; exact divsOf_counted hc)

theorem piece_cut (ho : o.Valid) (hP : Good ndim P) (hc : Counted ndim P) (hb : IsPieceBlock inv ndim P b) (ht : target.classOf = if ndim = 2 then .qua else .hex) (i : Nat) :
    ∃ A, cut o target i b = .ok A ∧ IsPieceMesh inv ndim P target A := by
  have hnd : b.ndim = ndim := (C41_partition hb.reached).1
  have hT : TargetOk b target := by unfold TargetOk; rw [hnd]; exact ht
  have hf := piece_fine hb hc
  obtain ⟨A, e1, e2⟩ := (C55_subdivide hb.reached hf hT (ho.grid i) (ho.constrained i)).2 (not_unmappable hP hb hf hT)
  have hm := C57_marked hb.reached hf hT (ho.grid i) (ho.constrained i) e1
  refine ⟨A, e1, ⟨b, hb, e2⟩, ?_, ?_⟩
  · rw [List.eq_nil_iff_forall_not_mem]
    rintro ⟨mk, p, q⟩ hmem
    obtain ⟨e, i, j, k, ε, he, -⟩ := (hm.edges mk p q).1 hmem
    rw [hb.edgeMarks e] at he; cases he
  · rw [List.eq_nil_iff_forall_not_mem]
    rintro ⟨mk, key⟩ hmem
    obtain ⟨-, f, i, j, k, φ, hf, -⟩ := (hm.faces mk key).1 hmem
    rw [hb.faceMarks f] at hf; cases hf

theorem piece_kind (hb : IsPieceBlock inv ndim P b) (ht : ¬ target.classOf = if ndim = 2 then .qua else .hex) (i : Nat) : ∃ e, cut o target i b = .err e :=
  C55_wrong_kind hb.reached (by unfold TargetOk; rw [(C41_partition hb.reached).1]; exact ht)

theorem made_of {pieces : List Piece} {ms : List (Mesh ℝ)} (ho : o.Valid) (hl : ms.length = pieces.length)
    (hms : ∀ (i : Nat) (P : Piece) (A : Mesh ℝ), pieces[i]? = some P → ms[i]? = some A → IsPieceMesh inv ndim P target A)
    {run : Bool → Res (Mesh ℝ)} (hrun : ∀ renumber, run renumber = joinAll o renumber ms) : MadeOf inv ndim pieces target run := by
  refine ⟨ms, hl, hms, fun hc => ?_⟩
  obtain ⟨M, m1, m2, m3⟩ := C65_join_meshes o.join ho.join hc
  have eq : ∀ renumber, run renumber = finish renumber M := by
    intro renumber
    rw [hrun]
    unfold joinAll
    rw [m1, Res.bind_ok]
  exact ⟨M, eq false, m2, fun M' hM' => reordered_of m2.proper.valid (by rw [← hM', eq])⟩

/-! ### The mesh as a patch -/

theorem unit_pos (hc : Counted ndim P) (hb : IsPieceBlock inv ndim P b) {i j k m : Nat} (hg : InGrid b i j k) :
    (nodePos b target i j k m).map (fun x => (x + 1) / 2) = P.pos ndim target i j k m := by
  have hnd : b.ndim = ndim := (C41_partition hb.reached).1
  rw [← tickPos_left]
  unfold Piece.pos
  rw [hnd]
  refine tickPos_congr (fun a ha => ?_)
  have ha3 : a < 3 := by rcases hb.reached.wf.dims with hx | hx <;> omega
  have hlt := pick_lt ((box_iff i j k).2 hg) ha3
  rw [ndivAt_even hb.ndiv_eq (by rw [hc.1, hnd])] at hlt
  have hp := (divsOf_counted hc a ha).1
  exact ⟨left_even hb.delta_eq (by rw [hc.1]; exact ha) (by omega) hp, left_even hb.delta_eq (by rw [hc.1]; exact ha) (by omega) hp⟩

theorem map_two {ξ : List ℝ} : (ξ.map fun x => (x + 1) / 2).map (fun x => 2 * x - 1) = ξ := by
  rw [List.map_map]
  conv_rhs => rw [← List.map_id ξ]
  apply List.map_congr_left
  intro x _
  simp only [Function.comp, id]
  ring

theorem piece_patch (hP : Good ndim P) (hc : Counted ndim P) (ht : target.classOf = if ndim = 2 then .qua else .hex) (h : IsPieceMesh inv ndim P target A) :
    ∃ place, IsPatch ndim target (Box P.divs) (fun a => evenTicks (P.divs a)) place (fun _ _ _ => 1) (rowMajor P.divs) A ∧
      ∀ i j k m, Box P.divs i j k → m < target.nnode →
        (target.edgeNnode ≤ 2 ∨ freeDirs target m = [] ∨ ∃ s < 2 * ndim, sideDir ndim s < 2 ∧ AtSide ndim s (P.pos ndim target i j k m)) →
        place (P.pos ndim target i j k m) = P.place ndim (P.pos ndim target i j k m) := by
  obtain ⟨⟨b, hb, hM⟩, -, -⟩ := h
  have hb : IsPieceBlock inv ndim P b := hb
  have hnd : b.ndim = ndim := (C41_partition hb.reached).1
  have hT : TargetOk b target := by unfold TargetOk; rw [hnd]; exact ht
  have hf := piece_fine hb hc
  have hdiv : ndivAt b = P.divs := by funext a; exact ndivAt_even hb.ndiv_eq (by rw [hc.1, hnd]) a
  let place : List ℝ → List ℝ := fun p => if hp : ∃ i j k m, InGrid b i j k ∧ m < target.nnode ∧ p = (nodePos b target i j k m).map (fun x => (x + 1) / 2) then
    coordsOf A (ptAt b A hp.choose hp.choose_spec.choose hp.choose_spec.choose_spec.choose hp.choose_spec.choose_spec.choose_spec.choose) else []
  have hplace : ∀ i j k m, InGrid b i j k → m < target.nnode → coordsOf A (ptAt b A i j k m) = place ((nodePos b target i j k m).map fun x => (x + 1) / 2) := by
    intro i j k m hg hm
    have hp : ∃ i' j' k' m', InGrid b i' j' k' ∧ m' < target.nnode ∧ (nodePos b target i j k m).map (fun x => (x + 1) / 2) = (nodePos b target i' j' k' m').map (fun x => (x + 1) / 2) :=
      ⟨i, j, k, m, hg, hm, rfl⟩
    simp only [place]
    rw [dif_pos hp]
    obtain ⟨s1, s2, s3⟩ := hp.choose_spec.choose_spec.choose_spec.choose_spec
    have e := map_half_inj.1 s3
    rw [(hM.node _ _ _ _ hg hm).2, (hM.node _ _ _ _ s1 s2).2, ← e]
  have hpatch := patch_of_subdivision hb.reached hf hT hM hplace
  rw [hdiv, hnd, hb.marker_eq] at hpatch
  refine ⟨place, hpatch.congr ?_ (fun _ _ _ _ _ _ => rfl), ?_⟩
  · intro i j k hB a ha
    have ha3 : a < 3 := by rcases hb.reached.wf.dims with hx | hx <;> omega
    have hlt := pick_lt hB ha3
    have hp := (divsOf_counted hc a ha).1
    exact ⟨left_even hb.delta_eq (by rw [hc.1]; exact ha) hlt.le hp, left_even hb.delta_eq (by rw [hc.1]; exact ha) hlt hp⟩
  · intro i j k m hB hm hcase
    have hg : InGrid b i j k := by rw [← box_iff, hdiv]; exact hB
    rw [← unit_pos hc hb hg, ← hplace i j k m hg hm]
    refine coords_place hP hb hf hT hM hg hm ?_
    rcases hcase with h | h | ⟨s, h1, h2, h3⟩
    · exact .inl h
    · exact .inr (.inl h)
    · refine .inr (.inr ⟨s, h1, h2, ?_⟩)
      unfold AtSide at h3
      rw [← unit_pos hc hb hg, map_two] at h3
      exact h3

end
end Gemlab.Structured
