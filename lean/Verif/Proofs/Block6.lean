import Verif.Proofs.Block5

/-! # Blocks: middle and interior nodes of cells of blocks with constraints -/
namespace Gemlab.Block
noncomputable section
open Classical
open Gemlab.Mesh Gemlab.Shapes Gemlab.Spec

variable {nrow ndim : Nat} {at_ : Nat → Nat → ℝ} {b : Block} {target : GeoKind}

/-- `padNew` succeeds in a space of enough dimensions. -/
theorem padNew_ok {n : Nat} {k : GeoKind} (hn : n = 2 ∨ n = 3) (hk : k.ndim ≤ n) : ∃ pad, Scratchpad.new n k = .ok pad := by
  unfold Scratchpad.new
  rw [if_neg (by omega), if_neg (by omega)]
  exact ⟨_, rfl⟩

/-- The value on the straight line between two points. -/
def lineVal (m : Mesh ℝ) (p0 p1 : Nat) (s : ℝ) : List ℝ :=
  (List.range m.ndim).map fun c => (1 - s) / 2 * (coordsOf m p0).getD c 0 + (1 + s) / 2 * (coordsOf m p1).getD c 0

/-- What `straighten` does to a mesh. -/
theorem straighten_spec {ek : GeoKind} {pts : List Nat} {e : Nat} {m : Mesh ℝ} (hd : m.ndim = 2 ∨ m.ndim = 3) (hf : Full m)
    (hr : ∀ idx < target.edgeNnode, pts.getD (edgeNode target e idx) 0 < m.points.length) (hen : 2 < target.edgeNnode)
    (hinj : ∀ idx < target.edgeNnode, ∀ idx' < target.edgeNnode, pts.getD (edgeNode target e idx) 0 = pts.getD (edgeNode target e idx') 0 → idx = idx') :
    ∃ m', straighten m.ndim target ek pts e m = .ok m' ∧ Like m m' ∧
      (∀ idx < target.edgeNnode, 2 ≤ idx → coordsOf m' (pts.getD (edgeNode target e idx) 0) =
        lineVal m (pts.getD (edgeNode target e 0) 0) (pts.getD (edgeNode target e 1) 0) (refCoord ek idx 0)) ∧
      (∀ q, (∀ idx < target.edgeNnode, 2 ≤ idx → q ≠ pts.getD (edgeNode target e idx) 0) → coordsOf m' q = coordsOf m q) := by
  unfold straighten
  obtain ⟨pad, hpad⟩ := padNew_ok (k := .lin2) hd (by rcases hd with h | h <;> rw [h] <;> decide)
  obtain ⟨hk, hs⟩ := padNew_eq hpad
  rw [hpad, Res.bind_ok]
  obtain ⟨pad', hset, hold⟩ := C53_set_pad m pad [pts.getD (edgeNode target e 0) 0, pts.getD (edgeNode target e 1) 0] hf hs (by omega)
    (by rw [hk]; rfl) (by
      intro p hp
      simp only [List.mem_cons, List.not_mem_nil, or_false] at hp
      rcases hp with rfl | rfl
      · exact hr 0 (by omega)
      · exact hr 1 (by omega))
  rw [hset, Res.bind_ok]
  have hcalc : ∀ ξ, pad'.calcCoords m.ndim ξ = .ok (Shapes.calcCoords .lin2 pad'.X ξ, pad'.calcInterp ξ) := by
    intro ξ
    have := Scratchpad.calcCoords_ok hold.ok ξ
    rw [hold.space, hold.kind, hk] at this
    exact this
  have hval : ∀ idx, (List.range m.ndim).map (Shapes.calcCoords .lin2 pad'.X (refCoord ek idx)) =
      lineVal m (pts.getD (edgeNode target e 0) 0) (pts.getD (edgeNode target e 1) 0) (refCoord ek idx 0) := by
    intro idx
    unfold lineVal
    apply List.map_congr_left
    intro c hc
    rw [List.mem_range] at hc
    unfold Shapes.calcCoords
    rw [show GeoKind.lin2.nnode = 2 from rfl, Finset.sum_range_succ, Finset.sum_range_succ, Finset.sum_range_zero]
    obtain ⟨l0, l1⟩ := lin2_interp (refCoord ek idx)
    have c0 := hold.coords 0 c (by rw [hk]; decide) hc
    have c1 := hold.coords 1 c (by rw [hk]; decide) hc
    rw [l0, l1, c0, c1]
    simp
    ring
  obtain ⟨m', h1, h2, h3, h4⟩ := Res.foldlM_list (fun (m' : Mesh ℝ) idx => do
      let r ← pad'.calcCoords m.ndim (refCoord ek idx)
      setCoords m' (pts.getD (edgeNode target e idx) 0) r.1) (List.range' 2 (target.edgeNnode - 2)) m
    (fun pre m' => Like m m' ∧ (∀ idx ∈ pre, coordsOf m' (pts.getD (edgeNode target e idx) 0) =
        lineVal m (pts.getD (edgeNode target e 0) 0) (pts.getD (edgeNode target e 1) 0) (refCoord ek idx 0)) ∧
      (∀ q, (∀ idx < target.edgeNnode, 2 ≤ idx → q ≠ pts.getD (edgeNode target e idx) 0) → coordsOf m' q = coordsOf m q))
    ⟨Like.refl m, by simp, fun _ _ => rfl⟩ (by
      intro pre idx m' hidx hsuf ⟨q1, q2, q3⟩
      rw [List.mem_range'_1] at hidx
      rw [hcalc, Res.bind_ok]
      dsimp only
      obtain ⟨m2, s1, s2, s3⟩ := setCoords_spec (m := m') (p := pts.getD (edgeNode target e idx) 0) (Shapes.calcCoords .lin2 pad'.X (refCoord ek idx))
        (by rw [q1.len]; exact hr idx (by omega))
      refine ⟨m2, s1, q1.trans s2, ?_, ?_⟩
      · intro idx' hidx'
        rw [s3]
        rcases List.mem_append.1 hidx' with h | h
        · split
          · rename_i heq
            have hin : idx' ∈ List.range' 2 (target.edgeNnode - 2) := by
              obtain ⟨suf, hsuf⟩ := hsuf
              rw [hsuf]; simp [h]
            rw [List.mem_range'_1] at hin
            have := hinj idx' (by omega) idx (by omega) heq
            rw [this, q1.ndim]
            exact hval idx
          · exact q2 idx' h
        · rw [List.mem_singleton] at h
          subst h
          rw [if_pos rfl, q1.ndim]
          exact hval _
      · intro q hq
        rw [s3, if_neg (hq idx (by omega) (by omega))]
        exact q3 q hq)
  refine ⟨m', h1, h2, ?_, h4⟩
  intro idx hidx h2i
  exact h3 idx (List.mem_range'_1.2 ⟨h2i, by omega⟩)

/-! ## The edges of a cell -/

/-- The points of a cell. -/
structure CellAt (b : Block) (target : GeoKind) (i j k : Nat) (H : List (List ℝ)) (pts : List Nat) : Prop where
  grid : InGrid b i j k
  at_ : ∀ m < target.nnode, H[pts.getD m 0]? = some (nodePos b target i j k m)

variable {i j k : Nat} {H : List (List ℝ)} {pts : List Nat}

theorem CellAt.inj (hc : Ctx b target) (h : CellAt b target i j k H pts) {m m' : Nat} (hm : m < target.nnode) (hm' : m' < target.nnode)
    (he : pts.getD m 0 = pts.getD m' 0) : m = m' := by
  have h1 := h.at_ m hm
  rw [he, h.at_ m' hm'] at h1
  exact (nodePos_inj hc h.grid hm' hm (Option.some.inj h1)).symm

theorem endPos_rr (m d : Nat) (v : ℝ) {a : Nat} (ha : a < b.ndim) : (endPos b target i j k m d v).getD a 0 = pos b a (pick i j k a) (if a = d then v else rr target m a) := by
  unfold endPos
  rw [getD_map_range ha]
  rfl

theorem rr_eq_of_ref {m m' a : Nat} (h : refCoordQ target m a = refCoordQ target m' a) : rr target m a = rr target m' a := by
  unfold rr refCoord; rw [h]

/-- The ends of the edge of a middle node are the corners of the edge. -/
theorem ends_of_mid (hc : Ctx b target) {ek : GeoKind} (hek : target.edgeKind = some ek) {e idx : Nat} (he : e < target.nedge) (hidx : idx < target.edgeNnode)
    (h2 : 2 ≤ idx) :
    (rr target (edgeNode target e idx) (edgeDir target e) = (1 + refCoord ek idx 0) / 2 ∧
      endPos b target i j k (edgeNode target e idx) (edgeDir target e) 0 = nodePos b target i j k (edgeNode target e 0) ∧
      endPos b target i j k (edgeNode target e idx) (edgeDir target e) 1 = nodePos b target i j k (edgeNode target e 1)) ∨
    (rr target (edgeNode target e idx) (edgeDir target e) = (1 - refCoord ek idx 0) / 2 ∧
      endPos b target i j k (edgeNode target e idx) (edgeDir target e) 0 = nodePos b target i j k (edgeNode target e 1) ∧
      endPos b target i j k (edgeNode target e idx) (edgeDir target e) 1 = nodePos b target i j k (edgeNode target e 0)) := by
  obtain ⟨c1, c2, c3, c4, c5, c6, c7⟩ := edge_corners target hc.qh e he
  obtain ⟨m1, m2, m3⟩ := edge_mids target ek hc.qh hek e he idx hidx h2
  have hother : ∀ a < b.ndim, a ≠ edgeDir target e → rr target (edgeNode target e idx) a = rr target (edgeNode target e 0) a := by
    intro a ha hne
    apply rr_eq_of_ref
    rw [m3 a (hc.ndim ▸ ha), ← c6 a (hc.ndim ▸ ha) hne]
    ring
  have hother' : ∀ a < b.ndim, a ≠ edgeDir target e → rr target (edgeNode target e idx) a = rr target (edgeNode target e 1) a := by
    intro a ha hne
    rw [hother a ha hne]
    exact rr_eq_of_ref (c6 a (hc.ndim ▸ ha) hne)
  have hend : ∀ (v : ℝ) (n : Nat), (∀ a < b.ndim, a ≠ edgeDir target e → rr target (edgeNode target e idx) a = rr target n a) → rr target n (edgeDir target e) = v →
      endPos b target i j k (edgeNode target e idx) (edgeDir target e) v = nodePos b target i j k n := by
    intro v n h1 h2
    apply ext_getD (by rw [length_nodePos]; simp [endPos])
    intro a ha
    have ha' : a < b.ndim := by simpa [endPos] using ha
    rw [endPos_rr _ _ _ ha', getD_nodePos ha']
    by_cases had : a = edgeDir target e
    · rw [if_pos had, had, h2]
    · rw [if_neg had, h1 a ha' had]
  have hd := m3 (edgeDir target e) c1
  rcases c7 with ⟨d1, d2⟩ | ⟨d1, d2⟩
  · left
    refine ⟨?_, hend 0 _ hother (by unfold rr refCoord; rw [d1]; norm_num), hend 1 _ hother' (by unfold rr refCoord; rw [d2]; norm_num)⟩
    unfold rr refCoord
    rw [hd, d1, d2]
    push_cast
    ring
  · right
    refine ⟨?_, hend 0 _ hother' (by unfold rr refCoord; rw [d2]; norm_num), hend 1 _ hother (by unfold rr refCoord; rw [d1]; norm_num)⟩
    unfold rr refCoord
    rw [hd, d1, d2]
    push_cast
    ring

/-- An end of the edge was moved by a side orthogonal to the edge. -/
def EdgePulled (b : Block) (target : GeoKind) (i j k e : Nat) : Prop :=
  ∃ s, (movedBy b (nodePos b target i j k (edgeNode target e 0)) = some s ∨ movedBy b (nodePos b target i j k (edgeNode target e 1)) = some s) ∧
    sideDir b.ndim s = edgeDir target e

theorem edgeCoords_mid (hc : Ctx b target) {ek : GeoKind} (hek : target.edgeKind = some ek) {e idx : Nat} (he : e < target.nedge) (hidx : idx < target.edgeNnode)
    (h2 : 2 ≤ idx) : edgeCoords b target i j k (edgeNode target e idx) =
      if EdgePulled b target i j k e then (List.range b.ndim).map fun c =>
        (1 - refCoord ek idx 0) / 2 * (mapped b (nodePos b target i j k (edgeNode target e 0))).getD c 0 +
        (1 + refCoord ek idx 0) / 2 * (mapped b (nodePos b target i j k (edgeNode target e 1))).getD c 0
      else mapped b (nodePos b target i j k (edgeNode target e idx)) := by
  obtain ⟨m1, m2, m3⟩ := edge_mids target ek hc.qh hek e he idx hidx h2
  unfold edgeCoords
  rw [m2]
  dsimp only
  have hp : Pulled b (endPos b target i j k (edgeNode target e idx) (edgeDir target e) 0) (endPos b target i j k (edgeNode target e idx) (edgeDir target e) 1)
      (edgeDir target e) ↔ EdgePulled b target i j k e := by
    unfold Pulled EdgePulled
    rcases ends_of_mid (b := b) (i := i) (j := j) (k := k) hc hek he hidx h2 with ⟨-, e1, e2⟩ | ⟨-, e1, e2⟩
    · rw [e1, e2]
    · rw [e1, e2]
      constructor <;> rintro ⟨s, h, h'⟩ <;> exact ⟨s, h.symm, h'⟩
  by_cases hpul : EdgePulled b target i j k e
  · rw [if_pos (hp.2 hpul), if_pos hpul]
    apply List.map_congr_left
    intro c _
    rcases ends_of_mid (b := b) (i := i) (j := j) (k := k) hc hek he hidx h2 with ⟨r, e1, e2⟩ | ⟨r, e1, e2⟩
    · unfold rr at r
      rw [e1, e2, r]; ring
    · unfold rr at r
      rw [e1, e2, r]; ring
  · rw [if_neg (fun h => hpul (hp.1 h)), if_neg hpul]

variable {nrow' : Nat}

/-- The condition of the code for straightening an edge. -/
def Cond (b : Block) (target : GeoKind) (pts : List Nat) (ps : Nat × Nat) (e : Nat) : Prop :=
  edgeOnSide b.ndim e ps.2 = false ∧ (List.range target.edgeNnode).any (fun idx => pts.getD (edgeNode target e idx) 0 == ps.1) = true

theorem edgeNode_lt (hc : Ctx b target) {ek : GeoKind} (hek : target.edgeKind = some ek) {e idx : Nat} (he : e < target.nedge) (hidx : idx < target.edgeNnode) :
    edgeNode target e idx < target.nnode := by
  obtain ⟨c1, c2, c3, -⟩ := edge_corners target hc.qh e he
  by_cases h0 : idx = 0
  · rw [h0]; exact c2
  by_cases h1 : idx = 1
  · rw [h1]; exact c3
  exact (edge_mids target ek hc.qh hek e he idx hidx (by omega)).1

theorem cond_pulled (hw : WF nrow ndim at_ b) (hc : Ctx b target) {ek : GeoKind} (hek : target.edgeKind = some ek) (hcell : CellAt b target i j k H pts)
    {st : State} (hB : Base b target H st) {e : Nat} (he : e < target.nedge) {ps : Nat × Nat} (hps : st.constrained.get ps.1 = some ps.2)
    (h : Cond b target pts ps e) : EdgePulled b target i j k e := by
  obtain ⟨h1, h2⟩ := h
  rw [List.any_eq_true] at h2
  obtain ⟨idx, hidx, hp⟩ := h2
  rw [List.mem_range] at hidx
  rw [beq_iff_eq] at hp
  obtain ⟨ξ, hξ, hmv⟩ := (hB.constr ps.1 ps.2).1 hps
  have hn := edgeNode_lt hc hek he hidx
  rw [← hp, hcell.at_ _ hn] at hξ
  cases hξ
  have hnode : IsNode b target (nodePos b target i j k (edgeNode target e idx)) := ⟨i, j, k, _, hcell.grid, hn, rfl⟩
  obtain ⟨hon, hlt⟩ := movedBy_onSide hw hc hnode hmv
  have hcor := edge_corners target hc.qh e he
  have hsd : sideDir b.ndim ps.2 < b.ndim := by
    have := sides_spec hc.dims _ (sides_mem hc.dims hlt)
    exact this.2.2.1
  -- the side is orthogonal to the edge
  have hrr : rr target (edgeNode target e idx) (sideDir b.ndim ps.2) = (1 + sideVal b.ndim ps.2) / 2 := by
    have hv := (sides_spec hc.dims _ (sides_mem hc.dims hlt)).2.2.2.2
    dsimp only at hv
    unfold OnSide at hon
    rw [getD_nodePos hsd] at hon
    have hp1 := hcell.grid.pick hsd hc.dims
    have hp2 := hc.rok hn hsd
    rcases hv with hv | hv <;> rw [hv] at hon ⊢
    · rcases pos_low (hc.dir _ hsd) hp1 hp2 with ⟨-, g, -⟩ | g
      · rw [g]; norm_num
      · exfalso; rw [hon] at g; norm_num at g
    · rcases pos_high (hc.dir _ hsd) hp1 hp2 with ⟨-, g, -⟩ | g
      · rw [g]; norm_num
      · exfalso; rw [hon] at g; norm_num at g
  have hdir : sideDir b.ndim ps.2 = edgeDir target e := by
    by_contra hne
    have hes := (edge_sides target hc.qh e he ps.2 (by rw [hc.ndim]; exact hlt)).2
    rw [hc.ndim] at hes
    have : refCoordQ target (edgeNode target e 0) (sideDir b.ndim ps.2) = sideValQ b.ndim ps.2 := by
      have e1 : refCoordQ target (edgeNode target e idx) (sideDir b.ndim ps.2) = refCoordQ target (edgeNode target e 0) (sideDir b.ndim ps.2) := by
        by_cases h0 : idx = 0
        · rw [h0]
        by_cases h1 : idx = 1
        · rw [h1]; exact (hcor.2.2.2.2.2.1 _ (by rw [hc.ndim]; exact hsd) hne).symm
        rw [(edge_mids target ek hc.qh hek e he idx hidx (by omega)).2.2 _ (by rw [hc.ndim]; exact hsd),
          ← hcor.2.2.2.2.2.1 _ (by rw [hc.ndim]; exact hsd) hne]
        ring
      rw [← e1]
      unfold rr refCoord at hrr
      rw [sideVal_cast] at hrr
      have : (refCoordQ target (edgeNode target e idx) (sideDir b.ndim ps.2) : ℝ) = (sideValQ b.ndim ps.2 : ℝ) := by linarith
      exact_mod_cast this
    rw [hes ⟨hne, this⟩] at h1
    cases h1
  refine ⟨ps.2, ?_, hdir⟩
  have hend : idx = 0 ∨ idx = 1 := by
    by_contra hne
    rw [not_or] at hne
    have hfree : edgeDir target e ∈ freeDirs target (edgeNode target e idx) := by
      rw [(edge_mids target ek hc.qh hek e he idx hidx (by omega)).2.1]; simp
    rw [mem_freeDirs, ← hdir, hrr] at hfree
    have hv := (sides_spec hc.dims _ (sides_mem hc.dims hlt)).2.2.2.2
    dsimp only at hv
    rcases hv with hv | hv <;> rw [hv] at hfree
    · exact hfree.2.1 (by norm_num)
    · exact hfree.2.2 (by norm_num)
  rcases hend with rfl | rfl
  · exact .inl hmv
  · exact .inr hmv

theorem pulled_cond (hw : WF nrow ndim at_ b) (hc : Ctx b target) (hcell : CellAt b target i j k H pts)
    {st : State} (hB : Base b target H st) {e : Nat} (he : e < target.nedge) (hen : 2 < target.edgeNnode) (h : EdgePulled b target i j k e) :
    ∃ ps : Nat × Nat, st.constrained.get ps.1 = some ps.2 ∧ Cond b target pts ps e := by
  obtain ⟨s, h, hdir⟩ := h
  have hcor := edge_corners target hc.qh e he
  have key : ∀ idx, idx < 2 → edgeNode target e idx < target.nnode → movedBy b (nodePos b target i j k (edgeNode target e idx)) = some s →
      ∃ ps : Nat × Nat, st.constrained.get ps.1 = some ps.2 ∧ Cond b target pts ps e := by
    intro idx hidx hn hmv
    refine ⟨(pts.getD (edgeNode target e idx) 0, s), ?_, ?_, ?_⟩
    · rw [hB.constr]
      exact ⟨_, hcell.at_ _ hn, hmv⟩
    · dsimp only
      have hnode : IsNode b target (nodePos b target i j k (edgeNode target e idx)) := ⟨i, j, k, _, hcell.grid, hn, rfl⟩
      obtain ⟨-, hlt⟩ := movedBy_onSide hw hc hnode hmv
      have hes := (edge_sides target hc.qh e he s (by rw [hc.ndim]; exact hlt)).1
      rw [hc.ndim] at hes
      rw [Bool.eq_false_iff]
      intro hh
      exact (hes hh).1 hdir
    · rw [List.any_eq_true]
      exact ⟨idx, List.mem_range.2 (by omega), by simp⟩
  rcases h with h | h
  · exact key 0 (by omega) hcor.2.1 h
  · exact key 1 (by omega) hcor.2.2.1 h

/-! ## The loops -/

/-- All middle nodes of an edge have their final coordinates. -/
def EdgeSet (b : Block) (target : GeoKind) (i j k : Nat) (pts : List Nat) (m : Mesh ℝ) (e : Nat) : Prop :=
  ∀ idx < target.edgeNnode, 2 ≤ idx → coordsOf m (pts.getD (edgeNode target e idx) 0) = edgeCoords b target i j k (edgeNode target e idx)

/-- During the loop: unchanged, or a middle node with its final coordinates. -/
def Partial (b : Block) (target : GeoKind) (i j k : Nat) (pts : List Nat) (m0 m : Mesh ℝ) : Prop :=
  Like m0 m ∧ ∀ q, coordsOf m q = coordsOf m0 q ∨
    ∃ n < target.nnode, (freeDirs target n).length = 1 ∧ q = pts.getD n 0 ∧ coordsOf m q = edgeCoords b target i j k n

theorem step_spec (hc : Ctx b target) {ek : GeoKind} (hek : target.edgeKind = some ek) (hcell : CellAt b target i j k H pts)
    {st : State} (hB : Base b target H st) (hen : 2 < target.edgeNnode)
    (hcorner : ∀ n < target.nnode, freeDirs target n = [] → coordsOf st.mesh (pts.getD n 0) = mapped b (nodePos b target i j k n))
    {m : Mesh ℝ} (hm : Partial b target i j k pts st.mesh m) {e : Nat} (he : e < target.nedge) (hpul : EdgePulled b target i j k e) :
    ∃ m', straighten b.ndim target ek pts e m = .ok m' ∧ Partial b target i j k pts st.mesh m' ∧ EdgeSet b target i j k pts m' e ∧
      ∀ e' < target.nedge, EdgeSet b target i j k pts m e' → EdgeSet b target i j k pts m' e' := by
  have hnd : m.ndim = b.ndim := hm.1.ndim.trans hB.ndim
  have hlt : ∀ n < target.nnode, pts.getD n 0 < m.points.length := by
    intro n hn
    rw [hm.1.len, hB.len]
    exact (List.getElem?_eq_some_iff.1 (hcell.at_ n hn)).1
  obtain ⟨m', s1, s2, s3, s4⟩ := straighten_spec (target := target) (ek := ek) (pts := pts) (e := e) (m := m) (by rw [hnd]; exact hc.dims) (hm.1.full hB.full)
    (fun idx hidx => hlt _ (edgeNode_lt hc hek he hidx)) hen (by
      intro idx hidx idx' hidx' heq
      have h1 := hcell.inj hc (edgeNode_lt hc hek he hidx) (edgeNode_lt hc hek he hidx') heq
      have : ∀ e < target.nedge, ∀ idx < target.edgeNnode, ∀ idx' < target.edgeNnode, edgeNode target e idx = edgeNode target e idx' → idx = idx' := by
        have hq := hc.qh
        clear * - hq
        cases target <;> first | exact absurd hq (by unfold IsQuaHex; decide) | decide +kernel
      exact this e he idx hidx idx' hidx' h1)
  rw [hnd] at s1
  have hcorner' : ∀ n < target.nnode, freeDirs target n = [] → coordsOf m (pts.getD n 0) = mapped b (nodePos b target i j k n) := by
    intro n hn hf
    rcases hm.2 (pts.getD n 0) with h | ⟨n', hn', hf', hq, -⟩
    · rw [h]; exact hcorner n hn hf
    · exfalso
      have := hcell.inj hc hn hn' hq
      subst this
      rw [hf] at hf'
      cases hf'
  have hcor := edge_corners target hc.qh e he
  have hline : ∀ idx < target.edgeNnode, 2 ≤ idx → coordsOf m' (pts.getD (edgeNode target e idx) 0) = edgeCoords b target i j k (edgeNode target e idx) := by
    intro idx hidx h2
    rw [s3 idx hidx h2, edgeCoords_mid hc hek he hidx h2, if_pos hpul]
    unfold lineVal
    rw [hnd, hcorner' _ hcor.2.1 hcor.2.2.2.1, hcorner' _ hcor.2.2.1 hcor.2.2.2.2.1]
  refine ⟨m', s1, ⟨hm.1.trans s2, ?_⟩, hline, ?_⟩
  · intro q
    by_cases hq : ∃ idx, idx < target.edgeNnode ∧ 2 ≤ idx ∧ q = pts.getD (edgeNode target e idx) 0
    · obtain ⟨idx, hidx, h2, rfl⟩ := hq
      right
      refine ⟨_, edgeNode_lt hc hek he hidx, ?_, rfl, hline idx hidx h2⟩
      rw [(edge_mids target ek hc.qh hek e he idx hidx h2).2.1]; rfl
    · rw [s4 q (fun idx hidx h2 h => hq ⟨idx, hidx, h2, h⟩)]
      exact hm.2 q
  · intro e' he' hset idx hidx h2
    by_cases hq : ∃ idx', idx' < target.edgeNnode ∧ 2 ≤ idx' ∧ pts.getD (edgeNode target e' idx) 0 = pts.getD (edgeNode target e idx') 0
    · obtain ⟨idx', hidx', h2', heq⟩ := hq
      have := hcell.inj hc (edgeNode_lt hc hek he' hidx) (edgeNode_lt hc hek he hidx') heq
      rw [this]
      exact hline idx' hidx' h2'
    · rw [s4 _ (fun idx' hidx' h2' h => hq ⟨idx', hidx', h2', h⟩)]
      exact hset idx hidx h2

theorem fixEdges_spec (hw : WF nrow ndim at_ b) (hc : Ctx b target) {iterC : List (Nat × Nat) → List (Nat × Nat)} (hIC : IterOrder iterC)
    {ek : GeoKind} (hek : target.edgeKind = some ek) (hcell : CellAt b target i j k H pts)
    {st : State} (hB : Base b target H st) (hen : 2 < target.edgeNnode)
    (hcorner : ∀ n < target.nnode, freeDirs target n = [] → coordsOf st.mesh (pts.getD n 0) = mapped b (nodePos b target i j k n)) :
    ∃ m', fixEdges iterC b.ndim target ek pts st.constrained st.mesh = .ok m' ∧ Partial b target i j k pts st.mesh m' ∧
      ∀ e < target.nedge, EdgePulled b target i j k e → EdgeSet b target i j k pts m' e := by
  unfold fixEdges
  obtain ⟨m', h1, h2, h3⟩ := Res.foldlM_list (fun (m : Mesh ℝ) (ps : Nat × Nat) =>
    (List.range target.nedge).foldlM (fun (m : Mesh ℝ) e =>
      if edgeOnSide b.ndim e ps.2 then .ok m
      else if (List.range target.edgeNnode).any (fun idx => pts.getD (edgeNode target e idx) 0 == ps.1) then
        straighten b.ndim target ek pts e m
      else .ok m) m) (iterC st.constrained) st.mesh
    (fun pre m => Partial b target i j k pts st.mesh m ∧ ∀ ps ∈ pre, ∀ e < target.nedge, Cond b target pts ps e → EdgeSet b target i j k pts m e)
    ⟨⟨Like.refl _, fun _ => .inl rfl⟩, by simp⟩ (by
      intro pre ps m hps _ ⟨q1, q2⟩
      rw [hIC.mem] at hps
      have hget : st.constrained.get ps.1 = some ps.2 := HMap.get_of_mem hB.cwf hps
      obtain ⟨m', g1, g2, g3, g4⟩ := Res.foldlM_range (fun (m : Mesh ℝ) e =>
        if edgeOnSide b.ndim e ps.2 then .ok m
        else if (List.range target.edgeNnode).any (fun idx => pts.getD (edgeNode target e idx) 0 == ps.1) then
          straighten b.ndim target ek pts e m
        else .ok m) target.nedge m
        (fun n m' => Partial b target i j k pts st.mesh m' ∧ (∀ e < target.nedge, EdgeSet b target i j k pts m e → EdgeSet b target i j k pts m' e) ∧
          ∀ e < n, Cond b target pts ps e → EdgeSet b target i j k pts m' e)
        ⟨q1, fun _ _ h => h, by omega⟩ (by
          intro e m' he ⟨r1, r2, r3⟩
          by_cases hcond : Cond b target pts ps e
          · rw [if_neg (by rw [hcond.1]; simp), if_pos hcond.2]
            obtain ⟨m2, t1, t2, t3, t4⟩ := step_spec hc hek hcell hB hen hcorner r1 he (cond_pulled hw hc hek hcell hB he hget hcond)
            refine ⟨m2, t1, t2, fun e' he' h => t4 e' he' (r2 e' he' h), ?_⟩
            intro e' he' hcond'
            by_cases hee : e' = e
            · rw [hee]; exact t3
            · exact t4 e' (by omega) (r3 e' (by omega) hcond')
          · have : (if edgeOnSide b.ndim e ps.2 = true then Res.ok m'
                else if (List.range target.edgeNnode).any (fun idx => pts.getD (edgeNode target e idx) 0 == ps.1) = true then
                  straighten b.ndim target ek pts e m' else Res.ok m') = Res.ok m' := by
              by_cases hs : edgeOnSide b.ndim e ps.2 = true
              · rw [if_pos hs]
              · rw [if_neg hs, if_neg (fun h => hcond ⟨by simpa using hs, h⟩)]
            refine ⟨m', this, r1, r2, ?_⟩
            intro e' he' hcond'
            by_cases hee : e' = e
            · rw [hee] at hcond'; exact absurd hcond' hcond
            · exact r3 e' (by omega) hcond')
      refine ⟨m', g1, g2, ?_⟩
      intro ps' hps' e he hcond
      rcases List.mem_append.1 hps' with h | h
      · exact g3 e he (q2 ps' h e he hcond)
      · rw [List.mem_singleton] at h
        subst h
        exact g4 e he hcond)
  refine ⟨m', h1, h2, ?_⟩
  intro e he hpul
  obtain ⟨ps, hps, hcond⟩ := pulled_cond hw hc hcell hB he hen hpul
  exact h3 ps (hIC.mem.2 (HMap.mem_of_get hps)) e he hcond

end
end Gemlab.Block
