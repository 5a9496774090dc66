import Verif.Proofs.Convert2d4
import Verif.Props.Features2

/-!
# The main loop of `convert_2d`
-/
namespace Gemlab.Mesh.Conv
noncomputable section
open Gemlab.Shapes Gemlab.Spec

variable {m : Mesh ℝ} {k t : GeoKind}

theorem edgePointMarkers_ok (U : Uniform m k t) {cell : Cell} {c : Nat} (hcell : m.cells[c]? = some cell) (ms : List Int) (hl : ms.length = t.nedge)
    (hz : k.edgeNnode ≤ 2 → ∀ v ∈ ms, v = 0) :
    ∃ out, edgePointMarkers m k t.nedge cell ms = .ok out ∧ out.length = t.nedge ∧ (k.edgeNnode ≤ 2 → ∀ v ∈ out, v = 0) ∧
      ∀ (e : Nat), e < t.nedge → out[e]? = some (edgeMk m k c e) := by
  have hc : c < m.cells.length := by
    by_contra hc; rw [List.getElem?_eq_none (by omega)] at hcell; simp at hcell
  obtain ⟨cell', e1, e2, e3, e4⟩ := U.cell hc
  rw [hcell, Option.some.injEq] at e1; subst e1
  have hne := U.nedge
  unfold edgePointMarkers
  by_cases h2 : k.edgeNnode > 2
  · rw [if_pos h2]
    obtain ⟨out, h1, h3, h4⟩ := Res.foldlM_range (fun (ms : List Int) e => (List.range' 2 (k.edgeNnode - 2)).foldlM (fun (ms : List Int) i => do
        let id ← Res.idx cell.points (edgeNode k e i)
        let p ← Res.idx m.points id
        if e < ms.length then pure (ms.set e p.marker) else .panic) ms) t.nedge ms
      (fun E ms => ms.length = t.nedge ∧ ∀ (e : Nat), e < E → ms[e]? = some (edgeMk m k c e)) ⟨hl, by omega⟩ (by
        intro E ms1 hE ⟨hl, hms⟩
        obtain ⟨ms2, q1, q2, q3, q4⟩ := Res.foldlM_list (fun (ms : List Int) i => do
            let id ← Res.idx cell.points (edgeNode k E i)
            let p ← Res.idx m.points id
            if E < ms.length then pure (ms.set E p.marker) else .panic) (List.range' 2 (k.edgeNnode - 2)) ms1
          (fun pre ms => ms.length = t.nedge ∧ (∀ (e : Nat), e < E → ms[e]? = some (edgeMk m k c e)) ∧
            ∀ i, pre.getLast? = some i → ms[E]? = some (markerOf m (nodeOf m c (edgeNode k E i)))) ⟨hl, hms, by simp⟩ (by
            intro pre i ms3 hi _ ⟨hl, hms, _⟩
            have hi2 : i < k.edgeNnode := by rw [List.mem_range'_1] at hi; omega
            obtain ⟨p1, p2⟩ := e4 _ (Shapes.edgeNode_lt k E (by omega) i hi2)
            have p3 : m.points[nodeOf m c (edgeNode k E i)]? = some _ := List.getElem?_eq_getElem p2
            rw [Res.idx_eq_ok.2 p1, Res.bind_ok, Res.idx_eq_ok.2 p3, Res.bind_ok, if_pos (by omega)]
            refine ⟨_, rfl, by simpa using hl, ?_, ?_⟩
            · intro e he
              rw [List.getElem?_set_ne (by omega)]
              exact hms e he
            · intro i' hi'
              rw [List.getLast?_append] at hi'
              simp at hi'
              subst hi'
              rw [markerOf_eq p3, List.getElem?_set_self (by omega)])
        refine ⟨ms2, q1, q2, ?_⟩
        intro e he
        by_cases h : e < E
        · exact q3 e h
        · have : e = E := by omega
          subst this
          have hlast : (List.range' 2 (k.edgeNnode - 2)).getLast? = some (k.edgeNnode - 1) := by
            obtain ⟨r, hr⟩ : ∃ r, k.edgeNnode - 2 = r + 1 := ⟨k.edgeNnode - 3, by omega⟩
            rw [hr, List.range'_concat, List.getLast?_append]
            simp; omega
          rw [q4 _ hlast]
          unfold edgeMk
          rw [if_pos h2])
    exact ⟨out, h1, h3, by omega, h4⟩
  · rw [if_neg h2]
    refine ⟨ms, rfl, hl, hz, ?_⟩
    intro e he
    have he' : e < ms.length := by omega
    rw [List.getElem?_eq_getElem he', hz (by omega) _ (List.getElem_mem he')]
    unfold edgeMk
    rw [if_neg h2]

theorem fillPad_ok (U : Uniform m k t) {cell : Cell} {c : Nat} (hcell : m.cells[c]? = some cell) (pad : Scratchpad) (hk : pad.kind = k) (hs : pad.spaceNdim = 2) :
    ∃ pad', fillPad m k cell pad = .ok pad' ∧ HoldsCell m k cell.points pad' := by
  have hmem := List.mem_of_getElem? hcell
  have hl : cell.points.length = pad.kind.nnode := by rw [U.valid.nnode _ hmem, U.kind _ hmem, hk]
  obtain ⟨pad', h1, h2⟩ := C53_set_pad m pad cell.points U.valid.coords (by rw [hs, U.ndim]) (by rw [U.ndim]; omega) hl (U.valid.inRange _ hmem)
  refine ⟨pad', ?_, hk ▸ h2⟩
  unfold setPad at h1
  rw [if_neg (by omega), hk] at h1
  exact h1

/-- State after the first `c` cells. -/
structure Inv (m : Mesh ℝ) (k t : GeoKind) (c : Nat) (s : ConvState) : Prop where
  base : Base m t s.points s.cells s.corners
  conf : Conforming m k → Conf m k t s.points s.cells
  len : s.points.length ≤ c * t.nnode
  done : ∀ c' < c, ∀ n < t.nnode, ptOf s.cells c' n ≠ usizeMax
  fresh : ∀ c' < m.cells.length, c ≤ c' → ∀ n < t.nnode, ptOf s.cells c' n = usizeMax
  data : ∀ (c' : Nat) (cell : Cell), c' < c → m.cells[c']? = some cell → (s.cells[c']?).map (fun x => (x.id, x.marker)) = some (c', cell.marker)
  mlen : s.markers.length = t.nedge
  mzero : k.edgeNnode ≤ 2 → ∀ v ∈ s.markers, v = 0
  pkind : s.pad.kind = k
  pspace : s.pad.spaceNdim = 2

theorem Base.congr {P : List (Point ℝ)} {D D' : List Cell} {H : HMap Nat Nat} (B : Base m t P D H) (hS : Shape m.cells.length t D') (h : ptOf D' = ptOf D) :
    Base m t P D' H where
  shape := hS
  small := by rw [h]; exact B.small
  ids := B.ids
  hsome := by rw [h]; exact B.hsome
  hdata := B.hdata
  hcorner := by rw [h]; exact B.hcorner
  hinj := B.hinj

theorem Conf.congr {P : List (Point ℝ)} {D D' : List Cell} (W : Conf m k t P D) (h : ptOf D' = ptOf D) : Conf m k t P D' where
  shared := by rw [h]; exact W.shared
  coords := by rw [h]; exact W.coords
  used := by rw [h]; exact W.used

theorem convStep_ok (U : Uniform m k t) {c : Nat} (hc : c < m.cells.length) (hb : m.cells.length * t.nnode < usizeMax) {F : Features}
    (hF : F.mesh = m) (hall : extractAll2dEdges m = .ok F.all2dEdges) {s : ConvState} (I : Inv m k t c s) :
    ∃ s', convStep F m k t t.nedge s c = .ok s' ∧ Inv m k t (c + 1) s' := by
  obtain ⟨cell, e1, e2, e3, e4⟩ := U.cell hc
  have htt := nedge_le t U.t2
  obtain ⟨pad, hp1, hp2⟩ := fillPad_ok U e1 s.pad I.pkind I.pspace
  obtain ⟨ms, hm1, hm2, hm3, hm4⟩ := edgePointMarkers_ok U e1 s.markers I.mlen I.mzero
  have hcD : c < s.cells.length := by rw [I.base.shape.len]; exact hc
  unfold convStep
  rw [Res.idx_eq_ok.2 e1, Res.bind_ok, if_neg (by simpa using e2), hp1, Res.bind_ok, hm1, Res.bind_ok, Res.idx_of_lt hcD, Res.bind_ok]
  -- the state with the new cell data
  have hx := I.base.shape.cell c _ (List.getElem?_eq_getElem hcD)
  have hpt : ptOf (s.cells.set c { s.cells[c] with id := c, marker := cell.marker }) = ptOf s.cells := by
    funext c' n'
    unfold ptOf
    rw [List.getElem?_set]
    by_cases h : c = c'
    · subst h
      rw [if_pos rfl, if_pos hcD, List.getElem?_eq_getElem hcD]; rfl
    · rw [if_neg h]
  have hS : Shape m.cells.length t (s.cells.set c { s.cells[c] with id := c, marker := cell.marker }) := by
    refine ⟨by simp [I.base.shape.len], ?_⟩
    intro c' x hx'
    rw [List.getElem?_set] at hx'
    split at hx'
    · simp only [hcD, if_true, Option.some.injEq] at hx'
      subst hx'
      exact hx
    · exact I.base.shape.cell c' x hx'
  have hdata : ∀ (c' : Nat) (cell' : Cell), c' < c + 1 → m.cells[c']? = some cell' →
      ((s.cells.set c { s.cells[c] with id := c, marker := cell.marker })[c']?).map (fun x => (x.id, x.marker)) = some (c', cell'.marker) := by
    intro c' cell' hc' hcell'
    rw [List.getElem?_set]
    by_cases h : c = c'
    · subst h
      rw [e1, Option.some.injEq] at hcell'; subst hcell'
      rw [if_pos rfl, if_pos hcD]; rfl
    · rw [if_neg h]; exact I.data c' cell' (by omega) hcell'
  obtain ⟨s1, a1, B1, W1, l1, P1, S1, D1, M1, pad1⟩ := corners_ok U e1
    (s := { points := s.points, cells := s.cells.set c { s.cells[c] with id := c, marker := cell.marker }, corners := s.corners, markers := ms, pad := pad }) hb
    (I.base.congr hS hpt) (fun C => (I.conf C).congr hpt) I.len
    ⟨by rw [hpt]; exact I.done, by rw [hpt]; exact fun c' hc' h => I.fresh c' hc' (by omega)⟩ (by rw [hpt]; exact I.fresh c hc (le_refl _))
  dsimp only
  dsimp only at a1
  rw [a1, Res.bind_ok]
  obtain ⟨all, nbs, n1, n2, n3⟩ := Props.Features.C23_neighbors m U.valid U.ndim c cell e1 (by rw [e2, U.k2])
  rw [hall, Res.ok.injEq] at n1; subst n1
  have hcor1 : ∀ n < t.nedge, ptOf s1.cells c n ≠ usizeMax := fun n hn => (S1 n (by omega)).2 hn
  have stage2 : ∃ D2, (if t.edgeNnode > 2 then do
        let nbs ← getNeighbors2d F.mesh F.all2dEdges c
        nbs.foldlM (neighborStep t c) s1.cells
      else pure s1.cells) = .ok D2 ∧ Base m t s1.points D2 s1.corners ∧ (Conforming m k → Conf m k t s1.points D2) ∧ Prog m t c D2 ∧
      (∀ n < t.nedge, ptOf D2 c n ≠ usizeMax) ∧ SameData s1.cells D2 ∧
      (∀ e c' e' key, HasEdge m key c e → HasEdge m key c' e' → c' < c → ∀ i < t.edgeNnode, 2 ≤ i → ptOf D2 c (edgeNodeInward t e i) ≠ usizeMax) := by
    by_cases h2 : t.edgeNnode > 2
    · rw [if_pos h2, hF, n2, Res.bind_ok]
      obtain ⟨D2, b1, b2, b3, b4, b5, b6, b7⟩ := neighbors_ok U hc B1 W1 P1 hcor1 nbs (fun e c' e' h => (n3 e c' e').1 h)
      refine ⟨D2, b1, b2, b3, b4, b5, b6, ?_⟩
      intro e c' e' key k1 k2 hcl
      exact b7 e c' e' ((n3 e c' e').2 ⟨by omega, key, k1, k2⟩) hcl
    · rw [if_neg h2]
      exact ⟨_, rfl, B1, W1, P1, hcor1, fun _ => rfl, by intros; omega⟩
  obtain ⟨D2, b1, B2, W2, P2, hcor2, D2', hnb⟩ := stage2
  have hstage : (if t.edgeNnode > 2 then do
        let nbs ← getNeighbors2d F.mesh F.all2dEdges c
        nbs.foldlM (neighborStep t c) s1.cells
      else pure s1.cells : Res (List Cell)) = .ok D2 := b1
  obtain ⟨s3, c1, B3, W3, l3, P3, S3, D3, M3, pk, ps⟩ := new_ok U hc e1 hb (s := { s1 with cells := D2 }) B2 W2 P2 l1 hcor2 hnb
    (fun e he => by rw [show ({ s1 with cells := D2 } : ConvState).markers = ms from M1]; exact hm4 e he)
    (by rw [show ({ s1 with cells := D2 } : ConvState).pad = pad from pad1]; exact hp2)
  refine ⟨s3, ?_, B3, W3, l3, ?_, ?_, ?_, ?_, ?_, pk, ps⟩
  · by_cases h2 : t.edgeNnode > 2
    · rw [if_pos h2] at b1 ⊢
      obtain ⟨nbs', g1, g2⟩ := Res.bind_eq_ok.1 b1
      rw [g1, Res.bind_ok, g2, Res.bind_ok]
      exact c1
    · rw [if_neg h2] at b1 ⊢
      rw [b1, Res.bind_ok]
      exact c1
  · intro c' hc' n hn
    by_cases h : c' = c
    · subst h; exact S3 n hn
    · exact P3.done c' (by omega) n hn
  · intro c' hc' h n hn
    exact P3.fresh c' hc' (by omega) n hn
  · intro c' cell' hc' hcell'
    rw [D3 c', D2' c', D1 c']
    exact hdata c' cell' hc' hcell'
  · rw [M3]; dsimp only; rw [M1]; exact hm2
  · rw [M3]; dsimp only; rw [M1]; exact hm3

/-- The whole loop. -/
theorem loop_ok (U : Uniform m k t) (hb : m.cells.length * t.nnode < usizeMax) {F : Features} (hF : F.mesh = m)
    (hall : extractAll2dEdges m = .ok F.all2dEdges) (pad : Scratchpad) (hk : pad.kind = k) (hs : pad.spaceNdim = 2) :
    ∃ s, (List.range m.cells.length).foldlM (convStep F m k t t.nedge)
      { points := [], corners := [], markers := List.replicate t.nedge 0, pad := pad,
        cells := List.replicate m.cells.length { id := 0, marker := 0, kind := t, points := List.replicate t.nnode usizeMax } } = .ok s ∧
      Inv m k t m.cells.length s := by
  have hpt : ∀ c < m.cells.length, ∀ n < t.nnode,
      ptOf (List.replicate m.cells.length { id := 0, marker := 0, kind := t, points := List.replicate t.nnode usizeMax }) c n = usizeMax := by
    intro c hc n hn
    unfold ptOf
    rw [List.getElem?_replicate, if_pos hc]
    simp [hn]
  apply Res.foldlM_range _ _ _ (fun c s => Inv m k t c s)
  · have htt := nedge_le t U.t2
    refine ⟨⟨⟨by simp, ?_⟩, ?_, by simp, by simp, by simp, ?_, by simp⟩, fun _ => ⟨?_, ?_, by simp⟩, by simp, by simp, fun c' hc' _ n hn => hpt c' hc' n hn,
      by simp, by simp, by simp, hk, hs⟩
    · intro c x hx
      rw [List.getElem?_replicate] at hx
      split at hx
      · rw [Option.some.injEq] at hx; subst hx; simp
      · simp at hx
    · intro c hc n hn h; exact absurd (hpt c hc n hn) h
    · intro c hc n hn h; exact absurd (hpt c hc n (by omega)) h
    · intro c hc n hn _ _ _ _ h; exact absurd (hpt c hc n hn) h
    · intro c hc n hn h; exact absurd (hpt c hc n hn) h
  · intro c s hc I
    exact convStep_ok U hc hb hF hall I

end
end Gemlab.Mesh.Conv
