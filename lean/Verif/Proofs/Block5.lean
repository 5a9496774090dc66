import Verif.Proofs.Block4
import Verif.Props.MeshPad

/-! # Blocks: the nodes of a new cell; tables of edges -/
namespace Gemlab.Block
noncomputable section
open Classical
open Gemlab.Mesh Gemlab.Shapes Gemlab.Spec

variable {nrow ndim : Nat} {at_ : Nat → Nat → ℝ} {b : Block} {target : GeoKind}
variable {iterG : List (Nat × List ℝ) → List (Nat × List ℝ)} {H : List (List ℝ)} {st : State}

/-! ## Tables -/

/-- Direction of an edge. -/
def edgeDir (k : GeoKind) (e : Nat) : Nat :=
  ((List.range k.ndim).find? fun a => decide (refCoordQ k (edgeNode k e 0) a ≠ refCoordQ k (edgeNode k e 1) a)).getD 0

def sideValQ (ndim s : Nat) : ℚ := if ndim = 2 then (if s = 1 ∨ s = 2 then 1 else -1) else (if s % 2 = 1 then 1 else -1)

theorem sideVal_cast (ndim s : Nat) : sideVal ndim s = (sideValQ ndim s : ℝ) := by
  unfold sideVal sideValQ
  split_ifs <;> norm_num

theorem edge_corners (k : GeoKind) (hk : IsQuaHex k) : ∀ e < k.nedge,
    edgeDir k e < k.ndim ∧ edgeNode k e 0 < k.nnode ∧ edgeNode k e 1 < k.nnode ∧
    freeDirs k (edgeNode k e 0) = [] ∧ freeDirs k (edgeNode k e 1) = [] ∧
    (∀ a < k.ndim, a ≠ edgeDir k e → refCoordQ k (edgeNode k e 0) a = refCoordQ k (edgeNode k e 1) a) ∧
    ((refCoordQ k (edgeNode k e 0) (edgeDir k e) = -1 ∧ refCoordQ k (edgeNode k e 1) (edgeDir k e) = 1) ∨
     (refCoordQ k (edgeNode k e 0) (edgeDir k e) = 1 ∧ refCoordQ k (edgeNode k e 1) (edgeDir k e) = -1)) := by
  cases k <;> first | exact absurd hk (by unfold IsQuaHex; decide) | decide +kernel

theorem edge_mids (k ek : GeoKind) (hk : IsQuaHex k) (hek : k.edgeKind = some ek) : ∀ e < k.nedge, ∀ idx < k.edgeNnode, 2 ≤ idx →
    edgeNode k e idx < k.nnode ∧ freeDirs k (edgeNode k e idx) = [edgeDir k e] ∧
    (∀ a < k.ndim, refCoordQ k (edgeNode k e idx) a =
      (1 - refCoordQ ek idx 0) / 2 * refCoordQ k (edgeNode k e 0) a + (1 + refCoordQ ek idx 0) / 2 * refCoordQ k (edgeNode k e 1) a) := by
  cases k <;> first | exact absurd hk (by unfold IsQuaHex; decide) | (simp only [GeoKind.edgeKind, Option.some.injEq] at hek; subst hek; decide +kernel)

theorem edge_sides (k : GeoKind) (hk : IsQuaHex k) : ∀ e < k.nedge, ∀ s < 2 * k.ndim,
    (edgeOnSide k.ndim e s = true ↔ sideDir k.ndim s ≠ edgeDir k e ∧ refCoordQ k (edgeNode k e 0) (sideDir k.ndim s) = sideValQ k.ndim s) := by
  cases k <;> first | exact absurd hk (by unfold IsQuaHex; decide) | decide +kernel

theorem edge_of_mid (k : GeoKind) (hk : IsQuaHex k) : ∀ n < k.nnode, (freeDirs k n).length = 1 →
    ∃ e < k.nedge, ∃ idx < k.edgeNnode, 2 ≤ idx ∧ n = edgeNode k e idx := by
  cases k <;> first | exact absurd hk (by unfold IsQuaHex; decide) | decide +kernel

theorem interior_nodes (k : GeoKind) (hk : IsQuaHex k) : (∀ n < k.nnode, 1 < (freeDirs k n).length ↔ ∃ idx < k.nInteriorNodes, n = k.interiorNodes.getD idx 0) ∧
    (∀ idx < k.nInteriorNodes, k.interiorNodes.getD idx 0 < k.nnode) ∧ (∀ ser, serendipity k = some ser → ser.nnode ≤ k.nnode ∧ ser.ndim = 2 ∧
      ∀ n < ser.nnode, (freeDirs k n).length ≤ 1) ∧ (0 < k.nInteriorNodes → serendipity k ≠ none) := by
  cases k <;> first | exact absurd hk (by unfold IsQuaHex; decide) | skip
  all_goals
    refine ⟨by decide +kernel, by decide +kernel, ?_, by decide +kernel⟩
    intro ser hser
    simp only [serendipity, Option.some.injEq] at hser
    first | exact absurd hser (by simp) | skip
  all_goals
    subst hser
    decide +kernel

theorem lin2_interp (ξ : Nat → ℝ) : calcInterp .lin2 ξ 0 = (1 - ξ 0) / 2 ∧ calcInterp .lin2 ξ 1 = (1 + ξ 0) / 2 := by
  constructor <;> simp [calcInterp, Shapes.interp, lin2Interp, PE.eval] <;> ring

/-! ## The nodes of a cell -/

theorem nodeKsi_eq {center scale : Nat → ℝ} {i j k : Nat} (h : ∀ a < b.ndim, center a = left b a (pick i j k a) + del b a (pick i j k a) / 2 ∧
    scale a = del b a (pick i j k a) / 2) (m : Nat) : nodeKsi b.ndim target center scale m = nodePos b target i j k m := by
  unfold nodeKsi nodePos
  apply List.map_congr_left
  intro a ha
  rw [List.mem_range] at ha
  rw [(h a ha).1, (h a ha).2]
  ring

theorem nodePos_inj (hc : Ctx b target) {i j k m m' : Nat} (hg : InGrid b i j k) (hm : m < target.nnode) (hm' : m' < target.nnode)
    (h : nodePos b target i j k m = nodePos b target i j k m') : m = m' := by
  apply rr_inj hc.qh hm hm'
  intro a ha
  rcases (nodePos_eq_iff hc hg hg hm hm').1 h a (hc.ndim ▸ ha) with h | ⟨h, -⟩ | ⟨h, -⟩
  · exact h.2
  · omega
  · omega

theorem coordsOf_append_left {m m' : Mesh ℝ} {ex : List (Point ℝ)} (h : m'.points = m.points ++ ex) {p : Nat} (hp : p < m.points.length) :
    coordsOf m' p = coordsOf m p := by
  unfold coordsOf
  rw [h, List.getElem?_append_left hp]

/-- The points of the new cell are at the positions of its nodes; the new points have the mapped coordinates. -/
structure CellPts (b : Block) (target : GeoKind) (i j k : Nat) (H H' : List (List ℝ)) (st st' : State) (pts : List Nat) : Prop where
  base : Base b target H' st'
  pre : H <+: H'
  len : pts.length = target.nnode
  at_ : ∀ m < target.nnode, H'[pts.getD m 0]? = some (nodePos b target i j k m)
  mesh : ∃ ex, st'.mesh = { st.mesh with points := st.mesh.points ++ ex }
  fresh : ∀ p ξ, H.length ≤ p → H'[p]? = some ξ → p ∈ pts ∧ coordsOf st'.mesh p = mapped b ξ
  hist : H' = distinctFrom H ((List.range target.nnode).map (nodePos b target i j k))

theorem distinctFrom_append (H L L' : List (List ℝ)) : distinctFrom H (L ++ L') = distinctFrom (distinctFrom H L) L' := by
  unfold distinctFrom; rw [List.foldl_append]

theorem distinctFrom_old {H : List (List ℝ)} {ξ : List ℝ} (h : ξ ∈ H) : distinctFrom H [ξ] = H := by
  simp [distinctFrom, h]

theorem distinctFrom_new {H : List (List ℝ)} {ξ : List ℝ} (h : ξ ∉ H) : distinctFrom H [ξ] = H ++ [ξ] := by
  simp [distinctFrom, h]

theorem cellNodes_spec (hw : WF nrow ndim at_ b) (hc : Ctx b target) (hI : IterOrder iterG) (hB : Base b target H st) {i j k : Nat} (hg : InGrid b i j k)
    {center scale : Nat → ℝ} (h : ∀ a < b.ndim, center a = left b a (pick i j k a) + del b a (pick i j k a) / 2 ∧
    scale a = del b a (pick i j k a) / 2) :
    Res.Or (BadNode b target) (fun (r : List Nat × State) => ∃ H', CellPts b target i j k H H' st r.2 r.1) (cellNodes iterG b target center scale st) := by
  unfold cellNodes
  have key := Res.foldlM_range_or (Bad := BadNode b target) (fun (acc : List Nat × State) m => do
    let r ← addNode iterG b acc.2 (nodeKsi b.ndim target center scale m)
    .ok (acc.1 ++ [r.1], r.2)) target.nnode ([], st)
    (fun n r => ∃ H', Base b target H' r.2 ∧ H <+: H' ∧ r.1.length = n ∧ (∀ m < n, H'[r.1.getD m 0]? = some (nodePos b target i j k m)) ∧
      (∃ ex, r.2.mesh = { st.mesh with points := st.mesh.points ++ ex }) ∧
      (∀ p ξ, H.length ≤ p → H'[p]? = some ξ → p ∈ r.1 ∧ coordsOf r.2.mesh p = mapped b ξ) ∧
      H' = distinctFrom H ((List.range n).map (nodePos b target i j k)))
    ⟨H, hB, List.prefix_rfl, rfl, by omega, ⟨[], by simp⟩, by
      refine ⟨?_, rfl⟩
      intro p ξ hp hξ
      rw [List.getElem?_eq_none hp] at hξ
      cases hξ⟩
    (by
      rintro n ⟨acc, s⟩ hn ⟨H1, q1, q2, q3, q4, ⟨ex, q5⟩, q6, q7⟩
      dsimp only at q1 q3 q4 q5 q6 ⊢
      rw [nodeKsi_eq h]
      refine (addNode_spec hw hc hI q1 (ξ := nodePos b target i j k n) ⟨i, j, k, n, hg, hn, rfl⟩).bind ?_
      rintro ⟨id, s'⟩ ⟨H2, r1, r2, r3⟩
      dsimp only at r1 r2 r3 ⊢
      have hpre : H1 <+: H2 := by
        rcases r3 with ⟨rfl, -⟩ | ⟨rfl, -⟩
        · exact List.prefix_rfl
        · exact List.prefix_append _ _
      have hget : ∀ (p : Nat) ξ, H1[p]? = some ξ → H2[p]? = some ξ := by
        intro p ξ hp
        obtain ⟨t, rfl⟩ := hpre
        rw [List.getElem?_append_left (List.getElem?_eq_some_iff.1 hp).1, hp]
      refine .ok ⟨H2, r2, q2.trans hpre, by simp [q3], ?_, ?_, ?_, ?_⟩
      on_goal 4 =>
        rw [List.range_succ, List.map_append, distinctFrom_append, ← q7]
        rcases r3 with ⟨rfl, -⟩ | ⟨rfl, -⟩
        · exact (distinctFrom_old (List.mem_of_getElem? r1)).symm
        · refine (distinctFrom_new (fun hmem => ?_)).symm
          have := r2.nodup
          rw [List.nodup_append] at this
          exact this.2.2 _ hmem _ (by simp) rfl
      · intro m hm
        rw [List.getD_eq_getElem?_getD, List.getElem?_append]
        by_cases hmn : m < n
        · rw [if_pos (by omega)]
          have := q4 m hmn
          rw [List.getD_eq_getElem?_getD] at this
          exact hget _ _ this
        · have : m = n := by omega
          subst this
          rw [if_neg (by omega), q3, Nat.sub_self]
          exact r1
      · rcases r3 with ⟨-, rfl⟩ | ⟨-, -, hmesh⟩
        · exact ⟨ex, q5⟩
        · refine ⟨ex ++ [⟨H1.length, 0, mapped b (nodePos b target i j k n)⟩], ?_⟩
          dsimp only
          rw [hmesh, q5]
          simp
      · intro p ξ hp hξ
        dsimp only
        rcases r3 with ⟨rfl, rfl⟩ | ⟨rfl, hid, hmesh⟩
        · obtain ⟨a1, a2⟩ := q6 p ξ hp hξ
          exact ⟨List.mem_append_left _ a1, a2⟩
        · by_cases hpl : p < H1.length
          · rw [List.getElem?_append_left hpl] at hξ
            obtain ⟨a1, a2⟩ := q6 p ξ hp hξ
            refine ⟨List.mem_append_left _ a1, ?_⟩
            rw [coordsOf_append_left (m := s.mesh) (ex := [⟨H1.length, 0, mapped b (nodePos b target i j k n)⟩]) (by rw [hmesh]) (by rw [q1.len]; exact hpl)]
            exact a2
          · have hpe : p = H1.length := by
              have := (List.getElem?_eq_some_iff.1 hξ).1
              simp at this
              omega
            subst hpe
            rw [List.getElem?_concat_length] at hξ
            cases hξ
            refine ⟨by rw [hid]; simp, ?_⟩
            unfold coordsOf
            rw [hmesh]
            dsimp only
            rw [← q1.len, List.getElem?_concat_length]
            rfl)
  refine key.imp ?_
  rintro ⟨pts, s⟩ ⟨H', q1, q2, q3, q4, q5, q6, q7⟩
  exact ⟨H', q1, q2, q3, q4, q5, q6, q7⟩

/-! ## Changing coordinates -/

/-- The meshes only differ by the coordinates of the points. -/
structure Like (m m' : Mesh ℝ) : Prop where
  ndim : m'.ndim = m.ndim
  cells : m'.cells = m.cells
  edges : m'.markedEdges = m.markedEdges
  faces : m'.markedFaces = m.markedFaces
  len : m'.points.length = m.points.length
  pts : ∀ (p : Nat) pt', m'.points[p]? = some pt' → ∃ pt, m.points[p]? = some pt ∧ pt'.id = pt.id ∧ pt'.marker = pt.marker ∧
    (pt.coords.length = m.ndim → pt'.coords.length = m.ndim)

theorem Like.refl (m : Mesh ℝ) : Like m m := ⟨rfl, rfl, rfl, rfl, rfl, fun _ pt h => ⟨pt, h, rfl, rfl, id⟩⟩

theorem Like.trans {m1 m2 m3 : Mesh ℝ} (h1 : Like m1 m2) (h2 : Like m2 m3) : Like m1 m3 := by
  refine ⟨h2.ndim.trans h1.ndim, h2.cells.trans h1.cells, h2.edges.trans h1.edges, h2.faces.trans h1.faces, h2.len.trans h1.len, ?_⟩
  intro p pt hp
  obtain ⟨pt2, a1, a2, a3, a4⟩ := h2.pts p pt hp
  obtain ⟨pt1, b1, b2, b3, b4⟩ := h1.pts p pt2 a1
  refine ⟨pt1, b1, a2.trans b2, a3.trans b3, fun h => ?_⟩
  rw [← h1.ndim] at b4 ⊢
  exact a4 (b4 (h1.ndim ▸ h))

/-- All points have `ndim` coordinates. -/
def Full (m : Mesh ℝ) : Prop := ∀ p ∈ m.points, p.coords.length = m.ndim

theorem Like.full {m m' : Mesh ℝ} (h : Like m m') (hf : Full m) : Full m' := by
  intro pt hp
  obtain ⟨p, hp⟩ := List.mem_iff_getElem?.1 hp
  obtain ⟨pt0, a1, -, -, a4⟩ := h.pts p pt hp
  rw [h.ndim]
  exact a4 (hf _ (List.mem_of_getElem? a1))

theorem Base.of_like {st : State} (hB : Base b target H st) {m : Mesh ℝ} (h : Like st.mesh m) : Base b target H { st with mesh := m } := by
  refine ⟨hB.grid, hB.nodup, hB.nodes, h.len.trans hB.len, ?_, hB.good, hB.cwf, hB.constr, h.ndim.trans hB.ndim⟩
  intro p pt hp
  obtain ⟨pt0, a1, a2, a3, a4⟩ := h.pts p pt hp
  obtain ⟨b1, b2, b3⟩ := hB.ids p pt0 a1
  exact ⟨a2.trans b1, a3.trans b2, by have := a4 (b3.trans hB.ndim.symm); rw [this, hB.ndim]⟩

theorem Base.full (hB : Base b target H st) : Full st.mesh := by
  intro pt hp
  obtain ⟨p, hp⟩ := List.mem_iff_getElem?.1 hp
  rw [(hB.ids p pt hp).2.2, hB.ndim]

theorem setCoords_spec {m : Mesh ℝ} {p : Nat} (x : Nat → ℝ) (hp : p < m.points.length) :
    ∃ m', setCoords m p x = .ok m' ∧ Like m m' ∧ ∀ q, coordsOf m' q = if q = p then (List.range m.ndim).map x else coordsOf m q := by
  unfold setCoords
  rw [Res.idx_of_lt hp, Res.bind_ok]
  unfold Res.setIdx
  rw [if_pos hp, Res.bind_ok]
  refine ⟨_, rfl, ⟨rfl, rfl, rfl, rfl, by simp, ?_⟩, ?_⟩
  · intro q pt hq
    dsimp only at hq
    rw [List.getElem?_set] at hq
    split at hq
    · rename_i hpq
      subst hpq
      cases hq
      exact ⟨m.points[p], List.getElem?_eq_getElem hp, rfl, rfl, fun _ => by simp⟩
    · exact ⟨pt, hq, rfl, rfl, id⟩
  · intro q
    unfold coordsOf
    dsimp only
    rw [List.getElem?_set]
    by_cases hpq : p = q
    · subst hpq
      rw [if_pos rfl, if_pos hp, if_pos rfl]; rfl
    · rw [if_neg hpq, if_neg (fun h => hpq h.symm)]

end
end Gemlab.Block
