import Verif.Proofs.Convert2d3
import Verif.Props.MeshPad

/-!
# The three stages of the treatment of a cell
-/
namespace Gemlab.Mesh.Conv
noncomputable section
open Gemlab.Shapes Gemlab.Spec

variable {m : Mesh ℝ} {k t : GeoKind}

/-- The cells before `c` are complete, the cells after `c` have not been touched. -/
structure Prog (m : Mesh ℝ) (t : GeoKind) (c : Nat) (D : List Cell) : Prop where
  done : ∀ c' < c, ∀ n < t.nnode, ptOf D c' n ≠ usizeMax
  fresh : ∀ c' < m.cells.length, c < c' → ∀ n < t.nnode, ptOf D c' n = usizeMax

theorem Prog.set {c n q : Nat} {D D' : List Cell} (h : Prog m t c D) (hA : Assigned D D' c n q) : Prog m t c D' where
  done := by
    intro c' hc' n' hn'
    rw [hA.pt, if_neg (by omega)]
    exact h.done c' hc' n' hn'
  fresh := by
    intro c' hc' h1 n' hn'
    rw [hA.pt, if_neg (by omega)]
    exact h.fresh c' hc' h1 n' hn'

/-- The identifiers and markers of the cells do not change. -/
def SameData (D D' : List Cell) : Prop := ∀ (c' : Nat), (D'[c']?).map (fun x => (x.id, x.marker)) = (D[c']?).map (fun x => (x.id, x.marker))

theorem markerOf_eq {p : Nat} {src : Point ℝ} (h : m.points[p]? = some src) : markerOf m p = src.marker := by
  unfold markerOf; rw [h]; rfl

theorem coordsOf_eq {p : Nat} {src : Point ℝ} (h : m.points[p]? = some src) : coordsOf m p = src.coords := by
  unfold coordsOf; rw [h]; rfl

/-- Stage 1: the corners. -/
theorem corners_ok (U : Uniform m k t) {cell : Cell} {c : Nat} (hcell : m.cells[c]? = some cell) {s : ConvState} (hb : m.cells.length * t.nnode < usizeMax)
    (B : Base m t s.points s.cells s.corners) (W : Conforming m k → Conf m k t s.points s.cells) (hlen : s.points.length ≤ c * t.nnode)
    (hP : Prog m t c s.cells) (hf : ∀ n < t.nnode, ptOf s.cells c n = usizeMax) :
    ∃ s', (List.range t.nedge).foldlM (cornerStep m cell c) s = .ok s' ∧ Base m t s'.points s'.cells s'.corners ∧
      (Conforming m k → Conf m k t s'.points s'.cells) ∧ s'.points.length ≤ c * t.nnode + t.nedge ∧ Prog m t c s'.cells ∧
      (∀ n < t.nnode, ptOf s'.cells c n ≠ usizeMax ↔ n < t.nedge) ∧ SameData s.cells s'.cells ∧ s'.markers = s.markers ∧ s'.pad = s.pad := by
  have hc : c < m.cells.length := by
    by_contra hc; rw [List.getElem?_eq_none (by omega)] at hcell; simp at hcell
  obtain ⟨cell', e1, e2, e3, e4⟩ := U.cell hc
  rw [hcell, Option.some.injEq] at e1; subst e1
  have hkk := nedge_le k U.k2
  have htt := nedge_le t U.t2
  have hn := U.nedge
  obtain ⟨s', h1, h2⟩ := Res.foldlM_range (cornerStep m cell c) t.nedge s (fun j s' => Base m t s'.points s'.cells s'.corners ∧
      (Conforming m k → Conf m k t s'.points s'.cells) ∧ s'.points.length ≤ c * t.nnode + j ∧ Prog m t c s'.cells ∧
      (∀ n < t.nnode, ptOf s'.cells c n ≠ usizeMax ↔ n < j) ∧ SameData s.cells s'.cells ∧ s'.markers = s.markers ∧ s'.pad = s.pad)
    ⟨B, W, by omega, hP, fun n hn => by simp [hf n hn], fun _ => rfl, rfl, rfl⟩ (by
      intro j s1 hj ⟨B, W, hlen, hP, hS, hD, hmk, hpad⟩
      have hjk : j < k.nnode := by omega
      have hjt : j < t.nnode := by omega
      have hun : ptOf s1.cells c j = usizeMax := by
        by_contra h; have := (hS j hjt).1 h; omega
      have hlt : s1.points.length < usizeMax := by
        have : (c + 1) * t.nnode ≤ m.cells.length * t.nnode := Nat.mul_le_mul_right _ hc
        rw [Nat.add_mul] at this
        omega
      obtain ⟨hpt, hrange⟩ := e4 j hjk
      have hsrc : m.points[nodeOf m c j]? = some m.points[nodeOf m c j] := List.getElem?_eq_getElem hrange
      have hS' : ∀ (q : Nat) (D' : List Cell), q ≠ usizeMax → Assigned s1.cells D' c j q → ∀ n < t.nnode, ptOf D' c n ≠ usizeMax ↔ n < j + 1 := by
        intro q D' hq hA n hn'
        rw [hA.pt]
        by_cases h : n = j
        · subst h; simp [hq]
        · rw [if_neg (by omega), hS n hn']; omega
      unfold cornerStep
      rw [Res.idx_eq_ok.2 hpt, Res.bind_ok]
      cases hH : s1.corners.get (nodeOf m c j) with
      | some q =>
        dsimp only
        obtain ⟨D', d1, d2, d3⟩ := B.shape.set hc hjt q
        rw [d1, Res.bind_ok]
        obtain ⟨c'', hc'', n'', hn'', g1, g2, g3⟩ := B.hsome _ _ hH
        refine ⟨_, rfl, B.corner d2 d3 hlt hH hun, ?_, by dsimp only; omega, hP.set d3, hS' q D' (g1 ▸ g2) d3, fun c' => (d3.data c').trans (hD c'), hmk, hpad⟩
        intro C
        refine (W C).copy U C d3 hc hjt hc'' (by omega) g1 (g1 ▸ g2) ?_ ?_ ?_
        · rw [U.place_corner hj, U.place_corner hn'', g3]
        · by_contra hlt'
          exact g2 (hP.fresh c'' hc'' (by omega) n'' (by omega))
        · intro _
          unfold nodeMarker
          rw [if_pos hj, if_pos hn'', g3]
      | none =>
        dsimp only
        rw [Res.idx_eq_ok.2 hsrc, Res.bind_ok]
        obtain ⟨D', d1, d2, d3⟩ := B.shape.set hc hjt s1.points.length
        rw [d1, Res.bind_ok]
        have hcl : (m.points[nodeOf m c j]).coords.length = 2 := by rw [U.valid.coords _ (List.getElem_mem hrange), U.ndim]
        refine ⟨_, rfl, B.newCorner d2 d3 hc hj hlt hH hun _ hsrc hcl, ?_, by simp only [List.length_append, List.length_singleton]; omega,
          hP.set d3, hS' _ D' (by omega) d3, fun c' => (d3.data c').trans (hD c'), hmk, hpad⟩
        intro C
        refine (W C).new B hlt d3 hc hjt hun _ _ ?_ ?_ ?_
        · intro i _
          rw [U.iso_corner hj, coordsOf_eq hsrc]
        · intro _
          unfold nodeMarker
          rw [if_pos hj, markerOf_eq hsrc]
        · intro c' hc' n' hn' hu hpl
          rcases U.node_cases hn' with a | ⟨e, i, a1, a2, a3, rfl⟩ | ⟨a1, a2⟩
          · rw [U.place_corner a, U.place_corner hj] at hpl
            injection hpl with hpl
            have := B.hcorner c' hc' n' a hu
            rw [hpl, hH] at this
            simp at this
          · rw [U.place_corner hj, U.place_edge a1 a2 a3] at hpl
            split at hpl <;> exact absurd hpl (by simp)
          · rw [U.place_corner hj, U.place_inside a1 a2] at hpl; exact absurd hpl (by simp))
  exact ⟨s', h1, h2⟩

/-- Stage 2: the points of the edges shared with cells already converted. -/
theorem neighbors_ok (U : Uniform m k t) {c : Nat} (hc : c < m.cells.length) {P : List (Point ℝ)} {D : List Cell} {H : HMap Nat Nat}
    (B : Base m t P D H) (W : Conforming m k → Conf m k t P D) (hP : Prog m t c D) (hcor : ∀ n < t.nedge, ptOf D c n ≠ usizeMax)
    (nbs : List (Nat × Nat × Nat)) (hnb : ∀ e c' e', (e, c', e') ∈ nbs → c' ≠ c ∧ ∃ key, HasEdge m key c e ∧ HasEdge m key c' e') :
    ∃ D', nbs.foldlM (neighborStep t c) D = .ok D' ∧ Base m t P D' H ∧ (Conforming m k → Conf m k t P D') ∧ Prog m t c D' ∧
      (∀ n < t.nedge, ptOf D' c n ≠ usizeMax) ∧ SameData D D' ∧
      (∀ e c' e', (e, c', e') ∈ nbs → c' < c → ∀ i < t.edgeNnode, 2 ≤ i → ptOf D' c (edgeNodeInward t e i) ≠ usizeMax) := by
  have htt := nedge_le t U.t2
  obtain ⟨_, _, _, hrev⟩ := edgePos_facts t U.t2
  obtain ⟨D', h1, h2⟩ := Res.foldlM_list (neighborStep t c) nbs D (fun pre D' => Base m t P D' H ∧ (Conforming m k → Conf m k t P D') ∧ Prog m t c D' ∧
      (∀ n < t.nnode, ptOf D c n ≠ usizeMax → ptOf D' c n ≠ usizeMax) ∧ SameData D D' ∧
      (∀ e c' e', (e, c', e') ∈ pre → c' < c → ∀ i < t.edgeNnode, 2 ≤ i → ptOf D' c (edgeNodeInward t e i) ≠ usizeMax))
    ⟨B, W, hP, fun _ _ h => h, fun _ => rfl, by simp⟩ (by
      rintro pre ⟨e, c', e'⟩ D1 hmem _ ⟨B, W, hP, hmono, hD, hpost⟩
      obtain ⟨hcc, key, k1, k2⟩ := hnb e c' e' hmem
      obtain ⟨_, he, _⟩ := U.of_hasEdge k1
      obtain ⟨hc', he', _⟩ := U.of_hasEdge k2
      unfold neighborStep
      dsimp only
      simp only [if_pos he', Res.pure_eq, Res.bind_ok]
      obtain ⟨D', h1, h2⟩ := Res.foldlM_list (fun (cells : List Cell) i => do
          let p ← getNode cells c' (edgeNode t e' i)
          if p ≠ usizeMax then setNode cells c (edgeNodeInward t e i) p else .ok cells) (List.range' 2 (t.edgeNnode - 2)) D1
        (fun pre2 D' => Base m t P D' H ∧ (Conforming m k → Conf m k t P D') ∧ Prog m t c D' ∧
          (∀ n < t.nnode, ptOf D1 c n ≠ usizeMax → ptOf D' c n ≠ usizeMax) ∧ SameData D1 D' ∧
          (c' < c → ∀ i ∈ pre2, ptOf D' c (edgeNodeInward t e i) ≠ usizeMax))
        ⟨B, W, hP, fun _ _ h => h, fun _ => rfl, by simp⟩ (by
          intro pre2 i D2 hi _ ⟨B, W, hP, hmono, hD, hpost⟩
          have hi2 : 2 ≤ i ∧ i < t.edgeNnode := by rw [List.mem_range'_1] at hi; omega
          obtain ⟨j, hj, hij, hj2⟩ := hrev i hi2.2
          have hj2 := hj2 hi2.1
          have hlt' := edgeNode_lt t e' he' i hi2.2
          have hltj := edgeNode_lt t e he j hj
          have hnd := (edgeOfNode_edge t U.t2 e he j hj hj2).2
          have hin := inward_eq t U.t2 e i j he hi2.2 hj hij
          rw [B.shape.get hc' hlt', Res.bind_ok, hin]
          by_cases hu : ptOf D2 c' (edgeNode t e' i) ≠ usizeMax
          · rw [if_pos hu]
            obtain ⟨D', d1, d2, d3⟩ := B.shape.set hc hltj (ptOf D2 c' (edgeNode t e' i))
            have hcl : c' < c := by
              by_contra hge; exact hu (hP.fresh c' hc' (by omega) _ hlt')
            have hm : ∀ n < t.nnode, ptOf D2 c n ≠ usizeMax → ptOf D' c n ≠ usizeMax := by
              intro n _ h
              rw [d3.pt]
              split
              · exact hu
              · exact h
            refine ⟨D', d1, B.copy d2 d3 hnd (B.small c' hc' _ hlt' hu), ?_, hP.set d3, fun n hn h => hm n hn (hmono n hn h),
              fun x => (d3.data x).trans (hD x), ?_⟩
            · intro C
              have hpl := U.place_opposite C (t := t) (Ne.symm hcc) hj hi2.2 hj2 hi2.1 k1 k2 (by linarith)
              refine (W C).copy U C d3 hc hltj hc' hlt' rfl hu hpl (by omega) ?_
              intro hF
              exact absurd hpl.symm (hF c' hcl _ hlt')
            · intro _ i' hi'
              rw [List.mem_append, List.mem_singleton] at hi'
              rcases hi' with hi' | rfl
              · have hlt2 : edgeNodeInward t e i' < t.nnode := by
                  by_cases hr : i' < t.edgeNnode
                  · obtain ⟨j', hj', hij', _⟩ := hrev i' hr
                    rw [inward_eq t U.t2 e i' j' he hr hj' hij']
                    exact edgeNode_lt t e he j' hj'
                  · have hz : edgeNodeInward t e i' = 0 := by
                      unfold edgeNodeInward
                      have hl : ∀ r ∈ t.edgeNodeIdsInward, r.length = t.edgeNnode := fun r hr => ((Props.Shapes.C30_tables_well_formed t).2.1.2 r hr).1
                      cases hg : t.edgeNodeIdsInward[e]? with
                      | none => simp [List.getD_eq_getElem?_getD, hg]
                      | some r =>
                        have := hl r (List.mem_of_getElem? hg)
                        simp only [List.getD_eq_getElem?_getD, hg, Option.getD_some]
                        rw [List.getElem?_eq_none (by omega)]; rfl
                    rw [hz]; omega
                exact hm _ hlt2 (hpost hcl i' hi')
              · rw [hin, d3.pt, if_pos ⟨rfl, rfl⟩]; exact hu
          · rw [if_neg hu]
            refine ⟨D2, rfl, B, W, hP, hmono, hD, ?_⟩
            intro hcl
            exact absurd (hP.done c' hcl _ hlt') hu)
      obtain ⟨B, W, hP, hmono2, hD2, hpost2⟩ := h2
      refine ⟨D', h1, B, W, hP, fun n hn h => hmono2 n hn (hmono n hn h), fun x => (hD2 x).trans (hD x), ?_⟩
      intro e1 c1 e1' hmem1 hcl i hi h2i
      rw [List.mem_append, List.mem_singleton] at hmem1
      rcases hmem1 with hmem1 | heq
      · have hlt2 : edgeNodeInward t e1 i < t.nnode := by
          obtain ⟨j, hj, hij, _⟩ := hrev i hi
          by_cases he1 : e1 < t.nedge
          · rw [inward_eq t U.t2 e1 i j he1 hi hj hij]
            exact edgeNode_lt t e1 he1 j hj
          · unfold edgeNodeInward
            rw [show t.edgeNodeIdsInward.getD e1 [] = [] by
              rw [List.getD_eq_getElem?_getD, List.getElem?_eq_none (by rw [(Props.Shapes.C30_tables_well_formed t).2.1.1]; omega)]; rfl]
            simp; omega
        exact hmono2 _ hlt2 (hpost e1 c1 e1' hmem1 hcl i hi h2i)
      · obtain ⟨rfl, rfl, rfl⟩ : e1 = e ∧ c1 = c' ∧ e1' = e' := by simpa using heq
        exact hpost2 hcl i (by rw [List.mem_range'_1]; omega))
  obtain ⟨B, W, hP, hmono, hD, hpost⟩ := h2
  exact ⟨D', h1, B, W, hP, fun n hn => hmono n (by omega) (hcor n hn), hD, hpost⟩

/-- Marker of the middle of an edge of the given mesh. -/
def edgeMk (m : Mesh ℝ) (k : GeoKind) (c e : Nat) : Int :=
  if 2 < k.edgeNnode then markerOf m (nodeOf m c (edgeNode k e (k.edgeNnode - 1))) else 0

/-- Stage 3: the remaining nodes. -/
theorem new_ok (U : Uniform m k t) {c : Nat} (hc : c < m.cells.length) {cell : Cell} (hcell : m.cells[c]? = some cell) (hb : m.cells.length * t.nnode < usizeMax) {s : ConvState}
    (B : Base m t s.points s.cells s.corners) (W : Conforming m k → Conf m k t s.points s.cells) (hP : Prog m t c s.cells)
    (hlen : s.points.length ≤ c * t.nnode + t.nedge) (hcor : ∀ n < t.nedge, ptOf s.cells c n ≠ usizeMax)
    (hnb : ∀ e c' e' key, HasEdge m key c e → HasEdge m key c' e' → c' < c → ∀ i < t.edgeNnode, 2 ≤ i → ptOf s.cells c (edgeNodeInward t e i) ≠ usizeMax)
    (hmk : ∀ (e : Nat), e < t.nedge → s.markers[e]? = some (edgeMk m k c e)) (hpad : HoldsCell m k cell.points s.pad) :
    ∃ s', (List.range' t.nedge (t.nnode - t.nedge)).foldlM (newStep m t c) s = .ok s' ∧ Base m t s'.points s'.cells s'.corners ∧
      (Conforming m k → Conf m k t s'.points s'.cells) ∧ s'.points.length ≤ (c + 1) * t.nnode ∧ Prog m t c s'.cells ∧
      (∀ n < t.nnode, ptOf s'.cells c n ≠ usizeMax) ∧ SameData s.cells s'.cells ∧ s'.markers = s.markers ∧ s'.pad.kind = k ∧ s'.pad.spaceNdim = 2 := by
  have htt := nedge_le t U.t2
  have hne := U.nedge
  obtain ⟨_, _, _, hrev⟩ := edgePos_facts t U.t2
  obtain ⟨s', h1, h2⟩ := Res.foldlM_list (newStep m t c) (List.range' t.nedge (t.nnode - t.nedge)) s (fun pre s' => Base m t s'.points s'.cells s'.corners ∧
      (Conforming m k → Conf m k t s'.points s'.cells) ∧ s'.points.length ≤ c * t.nnode + t.nedge + pre.length ∧ Prog m t c s'.cells ∧
      (∀ n < t.nnode, ptOf s.cells c n ≠ usizeMax → ptOf s'.cells c n ≠ usizeMax) ∧ (∀ n ∈ pre, ptOf s'.cells c n ≠ usizeMax) ∧
      SameData s.cells s'.cells ∧ s'.markers = s.markers ∧ HoldsCell m k cell.points s'.pad)
    ⟨B, W, by simpa using hlen, hP, fun _ _ h => h, by simp, fun _ => rfl, rfl, hpad⟩ (by
      rintro pre n s1 hmem ⟨suf, hsuf⟩ ⟨B, W, hlen, hP, hmono, hpre, hD, hmk1, hpad⟩
      have hnl : t.nedge ≤ n ∧ n < t.nnode := by rw [List.mem_range'_1] at hmem; omega
      have hpl : pre.length < t.nnode - t.nedge := by
        have := congrArg List.length hsuf
        simp at this; omega
      have hlt : s1.points.length < usizeMax := by
        have : (c + 1) * t.nnode ≤ m.cells.length * t.nnode := Nat.mul_le_mul_right _ hc
        rw [Nat.add_mul] at this
        omega
      unfold newStep
      rw [B.shape.get hc hnl.2, Res.bind_ok]
      by_cases hu : ptOf s1.cells c n = usizeMax
      · rw [if_pos hu]
        obtain ⟨D', d1, d2, d3⟩ := B.shape.set hc hnl.2 s1.points.length
        have hmarker : newMarker t s1.markers n = .ok (nodeMarker m k t c n) := by
          unfold newMarker
          rw [Res.idx_eq_ok.2 (nodeToEdge_eq t U.t2 n hnl.2), Res.bind_ok]
          unfold nodeMarker
          rw [if_neg (show ¬ n < t.nedge by omega)]
          cases hx : edgeOfNode t n with
          | none => simp
          | some x =>
            obtain ⟨_, h1, _⟩ := edgeOfNode_some t U.t2 n hnl.2 x (by rw [hx]; rfl)
            have h4 : t.nedge ≤ 4 := by rw [nedge_eq t U.t2]; split <;> omega
            dsimp only
            rw [if_neg (by unfold usizeMax; omega), hmk1, Res.idx_eq_ok.2 (hmk x.1 h1)]
            rfl
        rw [hmarker, Res.bind_ok]
        have hcc := Scratchpad.calcCoords_ok hpad.ok (fun i => refCoord t n i)
        rw [hpad.space] at hcc
        rw [hcc]
        change ∃ s', (setNode s1.cells c n s1.points.length >>= _) = _ ∧ _
        rw [d1, Res.bind_ok]
        have hm : ∀ n' < t.nnode, ptOf s1.cells c n' ≠ usizeMax → ptOf D' c n' ≠ usizeMax := by
          intro n' _ h
          rw [d3.pt]
          split
          · omega
          · exact h
        refine ⟨_, rfl, B.new d2 d3 hnl.1 _ _ (by simp [U.ndim]), ?_, by simp only [List.length_append, List.length_singleton]; omega,
          hP.set d3, fun n' hn' h => hm n' hn' (hmono n' hn' h), ?_, fun x => (d3.data x).trans (hD x), hmk1, ?_⟩
        · intro C
          refine (W C).new B hlt d3 hc hnl.2 hu _ _ ?_ (fun _ => rfl) ?_
          · intro j hj
            rw [List.getD_eq_getElem?_getD, List.getElem?_map, List.getElem?_range (by rw [U.ndim]; exact hj)]
            dsimp only [Option.map_some, Option.getD_some]
            unfold isoNode interpolate Shapes.calcCoords
            rw [hpad.kind]
            apply Finset.sum_congr rfl
            intro i hi
            have hik := Finset.mem_range.1 hi
            obtain ⟨cell', e1, e2, e3, e4⟩ := U.cell hc
            rw [hcell, Option.some.injEq] at e1; subst e1
            have hpi : cell.points.getD i 0 = nodeOf m c i := by rw [List.getD_eq_getElem?_getD, (e4 i hik).1]; rfl
            rw [hpad.coords i j hik (by rw [U.ndim]; exact hj), hpi, mul_comm]
          · intro c' hc' n' hn' hu' hpl'
            by_cases hcc' : c' = c
            · subst hcc'
              rw [U.place_inj C hc hn' hnl.2 hpl'] at hu'
              exact hu' hu
            · have hcl : c' < c := by
                by_contra hge
                exact hu' (hP.fresh c' hc' (by omega) n' hn')
              rcases U.place_other C hc' hc hcc' hn' hnl.2 hpl' with ⟨_, h, _⟩ | ⟨e', i', e, i, b1, b2, b3, a1, a2, a3, rfl, rfl, hpos, key, k2, k1⟩
              · omega
              · have := hnb e c' e' key k1 k2 hcl i' b2 b3
                rw [inward_eq t U.t2 e i' i a1 b2 a2 hpos] at this
                exact hmono _ hnl.2 this hu
        · intro n' hn'
          rw [List.mem_append, List.mem_singleton] at hn'
          rcases hn' with hn' | rfl
          · have : n' < t.nnode := by
              have hm' : n' ∈ List.range' t.nedge (t.nnode - t.nedge) := by rw [hsuf]; simp [hn']
              rw [List.mem_range'_1] at hm'; omega
            exact hm n' this (hpre n' hn')
          · dsimp only; rw [d3.pt, if_pos ⟨rfl, rfl⟩]; omega
        · exact ⟨hpad.kind, hpad.space, hpad.ok, hpad.coords⟩
      · rw [if_neg hu]
        refine ⟨s1, rfl, B, W, by simp only [List.length_append, List.length_singleton]; omega, hP, hmono, ?_, hD, hmk1, hpad⟩
        intro n' hn'
        rw [List.mem_append, List.mem_singleton] at hn'
        rcases hn' with hn' | rfl
        · exact hpre n' hn'
        · exact hu)
  obtain ⟨B, W, hlen, hP, hmono, hpre, hD, hmk1, hpad⟩ := h2
  refine ⟨s', h1, B, W, ?_, hP, ?_, hD, hmk1, hpad.kind, hpad.space.trans U.ndim⟩
  · rw [List.length_range'] at hlen; rw [Nat.add_mul]; omega
  · intro n hn
    by_cases h : n < t.nedge
    · exact hmono n hn (hcor n h)
    · exact hpre n (by rw [List.mem_range'_1]; omega)

end
end Gemlab.Mesh.Conv
