import Verif.Model.TriSurface
import Verif.Spec.TriSurface
import Verif.Props.MeshPad

/-!
# Proofs about the triangulation of a surface
-/
namespace Gemlab
noncomputable section
open Gemlab.Shapes Gemlab.Mesh

/-- Coordinate `j` of node `mm` of the triangulation of a cell. -/
def Mesh.nodePosition (m : Mesh ℝ) (cell : GeoKind × List Nat) (mm j : Nat) : ℝ :=
  if mm < cell.1.nnode then (coordsOf m (cell.2.getD mm 0)).getD j 0
  else isoPosition m cell (fun i => (((cell.1.triangulateExtraCoords.getD (mm - cell.1.nnode) []).getD i 0 : ℚ) : ℝ)) j

theorem triangulateNode_lt (k : GeoKind) (t i : Nat) (ht : t < k.triangulateNtriangle) (hi : i < 3) :
    triangulateNode k t i < k.nnode + k.triangulateExtraNnode := by
  have : ∀ t < k.triangulateNtriangle, ∀ i < 3, triangulateNode k t i < k.nnode + k.triangulateExtraNnode := by
    cases k <;> decide +kernel
  exact this t ht i hi

theorem extraCoords_length (k : GeoKind) : k.triangulateExtraCoords.length = k.triangulateExtraNnode := by
  cases k <;> decide +kernel

theorem nnode_pos (k : GeoKind) : 0 < k.nnode := by cases k <;> decide

/-- Rule for `triangulate` with an invariant `P n` on the state of the callback, `n` being the number of calls. -/
theorem Scratchpad.triangulate_rule {σ : Type} (m : Mesh ℝ) (cell : GeoKind × List Nat) (pad : Scratchpad)
    (hp : HoldsCell m cell.1 cell.2 pad) (hk : isSurfaceKind cell.1 = true) (f : σ → Nat → Nat → Nat → List ℝ → Res σ) (s : σ)
    (P : Nat → σ → Prop) (h0 : P 0 s)
    (hstep : ∀ t i s, t < cell.1.triangulateNtriangle → i < 3 → P (3 * t + i) s →
      ∃ s', f s t i (triangulateNode cell.1 t i) ((List.range m.ndim).map (nodePosition m cell (triangulateNode cell.1 t i))) = .ok s' ∧
        P (3 * t + i + 1) s') :
    ∃ s' pad', pad.triangulate m.ndim f s = .ok (s', pad') ∧ P (3 * cell.1.triangulateNtriangle) s' ∧
      HoldsCell m cell.1 cell.2 pad' := by
  have hc : cell.1.classOf = .tri ∨ cell.1.classOf = .qua := by simpa [isSurfaceKind] using hk
  unfold Scratchpad.triangulate
  rw [hp.kind, if_neg (not_not.2 hc), if_neg (by rw [hp.space]; simp)]
  obtain ⟨s', h1, h2, h3⟩ := Res.foldlM_range (fun s t => (List.range 3).foldlM (Scratchpad.triangulateStep cell.1 m.ndim f t) s) cell.1.triangulateNtriangle (s, pad)
    (fun n (s : σ × Scratchpad) => P (3 * n) s.1 ∧ HoldsCell m cell.1 cell.2 s.2) ⟨h0, hp⟩ (by
      intro t s ht ⟨hP, hH⟩
      obtain ⟨s', h1, h2, h3⟩ := Res.foldlM_range (Scratchpad.triangulateStep cell.1 m.ndim f t) 3 s
        (fun i (s : σ × Scratchpad) => P (3 * t + i) s.1 ∧ HoldsCell m cell.1 cell.2 s.2) ⟨hP, hH⟩ (by
          intro i s hi ⟨hP, hH⟩
          obtain ⟨u, hu, hPu⟩ := hstep t i s.1 ht hi hP
          have hlt := triangulateNode_lt cell.1 t i ht hi
          by_cases hm : triangulateNode cell.1 t i < cell.1.nnode
          · refine ⟨(u, s.2), ?_, hPu, hH⟩
            unfold Scratchpad.triangulateStep
            rw [if_neg (by omega)]
            have : (List.range m.ndim).map (fun j => s.2.xxt j (triangulateNode cell.1 t i)) =
                (List.range m.ndim).map (nodePosition m cell (triangulateNode cell.1 t i)) := by
              apply List.map_congr_left
              intro j hj
              unfold nodePosition
              rw [if_pos hm]
              exact hH.coords _ j hm (List.mem_range.1 hj)
            rw [this, hu, Res.bind_ok]; rfl
          · have hx : triangulateNode cell.1 t i - cell.1.nnode < cell.1.triangulateExtraCoords.length := by
              rw [extraCoords_length]; omega
            set ξ : Nat → ℝ := fun i' => (((cell.1.triangulateExtraCoords[triangulateNode cell.1 t i - cell.1.nnode]).getD i' 0 : ℚ) : ℝ) with hξ
            have hcc : s.2.calcCoords m.ndim ξ = .ok (fun i => ∑ n ∈ Finset.range cell.1.nnode, s.2.xxt i n * Shapes.calcInterp cell.1 ξ n, s.2.calcInterp ξ) := by
              unfold Scratchpad.calcCoords
              rw [hH.ok, hH.space]
              simp [Scratchpad.calcInterp, hH.kind]
            refine ⟨(u, s.2.calcInterp ξ), ?_, hPu, ⟨hH.kind, hH.space, hH.ok, hH.coords⟩⟩
            unfold Scratchpad.triangulateStep
            rw [if_pos (by omega), Res.idx_of_lt hx, Res.bind_ok]
            rw [hcc, Res.bind_ok]
            have : (List.range m.ndim).map (fun i => ∑ n ∈ Finset.range cell.1.nnode, s.2.xxt i n * Shapes.calcInterp cell.1 ξ n) =
                (List.range m.ndim).map (nodePosition m cell (triangulateNode cell.1 t i)) := by
              apply List.map_congr_left
              intro j hj
              unfold nodePosition isoPosition
              rw [if_neg hm]
              apply Finset.sum_congr rfl
              intro n hn
              rw [← hH.coords n j (Finset.mem_range.1 hn) (List.mem_range.1 hj)]
              have : (fun i' => (((cell.1.triangulateExtraCoords.getD (triangulateNode cell.1 t i - cell.1.nnode) []).getD i' 0 : ℚ) : ℝ)) = ξ := by
                rw [hξ, List.getD_eq_getElem?_getD, List.getElem?_eq_getElem hx]; rfl
              rw [this]; rfl
            rw [this, hu, Res.bind_ok]; rfl)
      exact ⟨s', h1, by rw [show 3 * (t + 1) = 3 * t + 3 by ring]; exact h2, h3⟩)
  exact ⟨s'.1, s'.2, h1, h2, h3⟩

namespace Mesh

theorem vertexPosition_of (m : Mesh ℝ) {surface : List (GeoKind × List Nat)} {s : Nat} {cell : GeoKind × List Nat}
    (hs : surface[s]? = some cell) (t i j : Nat) :
    vertexPosition m surface (vertexOf s cell t i) j = nodePosition m cell (triangulateNode cell.1 t i) j := by
  unfold vertexOf nodePosition
  dsimp only
  split
  · rfl
  · unfold vertexPosition
    have hg : surface.getD s (.lin2, []) = cell := by rw [List.getD_eq_getElem?_getD, hs]; rfl
    dsimp only
    rw [hg]

theorem surfaceTriangles_snoc (pre : List (GeoKind × List Nat)) (a : GeoKind × List Nat) :
    surfaceTriangles (pre ++ [a]) = surfaceTriangles pre ++ cellTriangles pre.length a := by
  unfold surfaceTriangles
  rw [List.zipIdx_append, List.flatMap_append]
  simp

/-- Points of the state, numbered by `label`. -/
structure Numbered (m : Mesh ℝ) (surface : List (GeoKind × List Nat)) (s : TriState) (label : List Vertex) : Prop where
  distinct : label.Nodup
  x : s.xx = label.map fun v => vertexPosition m surface v 0
  y : s.yy = label.map fun v => vertexPosition m surface v 1
  z : s.zz = if m.ndim = 3 then label.map fun v => vertexPosition m surface v 2 else []
  newId : ∀ p q, s.newId.get p = some q ↔ label[q]? = some (.node p)

/-- The array `extra_points` of the cell at position `c`. -/
structure ExtraOk (c n : Nat) (extra : List Nat) (label : List Vertex) : Prop where
  len : extra.length = n
  get : ∀ (k q : Nat), extra[k]? = some q → (q = usizeMax → Vertex.extra c k ∉ label) ∧ (q ≠ usizeMax → label[q]? = some (.extra c k))

theorem pushPoint_ok {m : Mesh ℝ} (hd : m.ndim = 2 ∨ m.ndim = 3) (s : TriState) (g : Nat → ℝ) :
    pushPoint m.ndim s ((List.range m.ndim).map g) = .ok { s with xx := s.xx ++ [g 0], yy := s.yy ++ [g 1], zz := (if m.ndim = 3 then s.zz ++ [g 2] else s.zz) } := by
  unfold pushPoint
  rcases hd with h | h
  · rw [h]; rfl
  · rw [h]; rfl

theorem getElem?_snoc_length {α : Type} (l : List α) (a : α) : (l ++ [a])[l.length]? = some a := by simp

theorem getElem?_snoc_of {α : Type} {l : List α} {q : Nat} {v : α} (h : l[q]? = some v) (a : α) : (l ++ [a])[q]? = some v := by
  have hq := (List.getElem?_eq_some_iff.1 h).1
  rw [List.getElem?_append_left hq, h]

theorem getElem?_snoc_iff {α : Type} {l : List α} {q : Nat} {v a : α} (hva : v ≠ a) : (l ++ [a])[q]? = some v ↔ l[q]? = some v := by
  constructor
  · intro h
    rcases Nat.lt_trichotomy q l.length with hq | hq | hq
    · rwa [List.getElem?_append_left hq] at h
    · subst hq; simp at h; exact absurd h.symm hva
    · rw [List.getElem?_eq_none (by simp; omega)] at h; simp at h
  · intro h; exact getElem?_snoc_of h a

theorem getElem?_snoc_self {α : Type} {l : List α} {q : Nat} {a : α} (ha : a ∉ l) : (l ++ [a])[q]? = some a ↔ q = l.length := by
  constructor
  · intro h
    rcases Nat.lt_trichotomy q l.length with hq | hq | hq
    · rw [List.getElem?_append_left hq] at h
      exact absurd (List.mem_of_getElem? h) ha
    · exact hq
    · rw [List.getElem?_eq_none (by simp; omega)] at h; simp at h
  · rintro rfl; simp

theorem nodup_snoc {α : Type} {l : List α} {a : α} (h : l.Nodup) (ha : a ∉ l) : (l ++ [a]).Nodup := by
  rw [List.nodup_append]
  refine ⟨h, by simp, ?_⟩
  intro b hb c hc he
  simp only [List.mem_singleton] at hc
  subst hc; subst he; exact ha hb

/-- What a call of `vertexId` does for the vertex `v`. -/
theorem vertexId_ok {m : Mesh ℝ} (hd : m.ndim = 2 ∨ m.ndim = 3) {surface : List (GeoKind × List Nat)} {c : Nat} {cell : GeoKind × List Nat}
    (hc : surface[c]? = some cell) (hl : cell.2.length = cell.1.nnode) {t i : Nat} (ht : t < cell.1.triangulateNtriangle) (hi : i < 3)
    {s : TriState × List Nat} {label : List Vertex} (hN : Numbered m surface s.1 label)
    (hE : ExtraOk c cell.1.triangulateExtraNnode s.2 label) (hmax : label.length < usizeMax) :
    ∃ q s' extra' label', vertexId m.ndim cell.1.nnode cell.2 s (triangulateNode cell.1 t i)
        ((List.range m.ndim).map (nodePosition m cell (triangulateNode cell.1 t i))) = .ok (q, s', extra') ∧
      Numbered m surface s' label' ∧ ExtraOk c cell.1.triangulateExtraNnode extra' label' ∧
      label'[q]? = some (vertexOf c cell t i) ∧ (label' = label ∨ label' = label ++ [vertexOf c cell t i]) ∧
      s'.triangles = s.1.triangles ∧ s'.conn = s.1.conn := by
  set v := vertexOf c cell t i with hv
  set mm := triangulateNode cell.1 t i with hmm
  have hpos : ∀ j, nodePosition m cell mm j = vertexPosition m surface v j := fun j => (vertexPosition_of m hc t i j).symm
  have hxl : s.1.xx.length = label.length := by rw [hN.x]; simp
  -- a new point
  have hnew : v ∉ label → ∀ nid : HMap Nat Nat, (∀ p q, nid.get p = some q ↔ (label ++ [v])[q]? = some (.node p)) →
      Numbered m surface { s.1 with xx := s.1.xx ++ [nodePosition m cell mm 0], yy := s.1.yy ++ [nodePosition m cell mm 1], zz := (if m.ndim = 3 then s.1.zz ++ [nodePosition m cell mm 2] else s.1.zz), newId := nid } (label ++ [v]) := by
    intro hvl nid hnid
    refine ⟨nodup_snoc hN.distinct hvl, ?_, ?_, ?_, hnid⟩
    · dsimp only; rw [hN.x, hpos]; simp
    · dsimp only; rw [hN.y, hpos]; simp
    · dsimp only
      rw [hN.z]
      split
      · rw [hpos]; simp
      · rfl
  unfold vertexId
  by_cases hm : mm < cell.1.nnode
  · rw [if_pos hm, Res.idx_of_lt (by omega), Res.bind_ok]
    have hve : v = .node (cell.2[mm]'(by omega)) := by
      rw [hv]; unfold vertexOf
      dsimp only
      rw [if_pos hm, List.getD_eq_getElem?_getD, List.getElem?_eq_getElem (by omega)]; rfl
    cases hg : s.1.newId.get (cell.2[mm]'(by omega)) with
    | some p =>
      refine ⟨p, s.1, s.2, label, rfl, hN, hE, ?_, Or.inl rfl, rfl, rfl⟩
      rw [hve]; exact (hN.newId _ _).1 hg
    | none =>
      have hvl : v ∉ label := by
        intro h
        obtain ⟨q, hq⟩ := List.getElem?_of_mem h
        rw [hve] at hq
        rw [(hN.newId _ _).2 hq] at hg
        simp at hg
      dsimp only
      rw [pushPoint_ok hd, Res.bind_ok]
      refine ⟨_, _, _, label ++ [v], rfl, hnew hvl _ ?_, ⟨hE.len, ?_⟩, ?_, Or.inr rfl, rfl, rfl⟩
      · intro p q
        dsimp only
        rw [HMap.get_insert]
        by_cases hp : p = cell.2[mm]'(by omega)
        · rw [if_pos hp, hp, ← hve, getElem?_snoc_self hvl, hxl]
          simp only [Option.some.injEq]
          exact eq_comm
        · rw [if_neg hp, getElem?_snoc_iff (by rw [hve]; simpa using hp)]
          exact hN.newId p q
      · intro k q hk
        have := hE.get k q hk
        refine ⟨?_, fun h => getElem?_snoc_of (this.2 h) _⟩
        intro h hmem
        rw [List.mem_append] at hmem
        rcases hmem with h1 | h1
        · exact this.1 h h1
        · simp [hve] at h1
      · rw [hxl]; exact getElem?_snoc_length _ _
  · have hlt := triangulateNode_lt cell.1 t i ht hi
    have hk : mm - cell.1.nnode < s.2.length := by rw [hE.len]; omega
    have hve : v = .extra c (mm - cell.1.nnode) := by
      rw [hv]; unfold vertexOf
      dsimp only
      rw [if_neg hm]
    rw [if_neg hm, Res.idx_of_lt hk, Res.bind_ok]
    have hget := hE.get _ _ (List.getElem?_eq_getElem hk)
    by_cases hq : s.2[mm - cell.1.nnode] = usizeMax
    · have hvl : v ∉ label := by rw [hve]; exact hget.1 hq
      rw [if_pos hq, pushPoint_ok hd, Res.bind_ok]
      refine ⟨_, _, _, label ++ [v], rfl, hnew hvl s.1.newId ?_, ⟨by simpa using hE.len, ?_⟩, ?_, Or.inr rfl, rfl, rfl⟩
      · intro p q
        rw [getElem?_snoc_iff (by rw [hve]; simp)]
        exact hN.newId p q
      · intro k q hkq
        rw [List.getElem?_set] at hkq
        by_cases hke : mm - cell.1.nnode = k
        · rw [if_pos hke, if_pos (by omega)] at hkq
          simp only [Option.some.injEq] at hkq
          subst hkq
          rw [hxl]
          refine ⟨fun h => absurd h (by omega), fun _ => ?_⟩
          rw [← hke, ← hve]; exact getElem?_snoc_length _ _
        · rw [if_neg hke] at hkq
          have := hE.get k q hkq
          refine ⟨?_, fun h => getElem?_snoc_of (this.2 h) _⟩
          intro h hmem
          rw [List.mem_append] at hmem
          rcases hmem with h1 | h1
          · exact this.1 h h1
          · simp [hve] at h1; omega
      · rw [hxl]; exact getElem?_snoc_length _ _
    · rw [if_neg hq]
      refine ⟨_, s.1, s.2, label, rfl, hN, hE, ?_, Or.inl rfl, rfl, rfl⟩
      rw [hve]; exact hget.2 hq

/-- The rows of `triangles` are the triangles `vt`, in terms of `label`. -/
abbrev Rows (label : List Vertex) (triangles : List (List Nat)) (vt : List (List Vertex)) : Prop :=
  List.Forall₂ (List.Forall₂ fun q v => label[q]? = some v) triangles vt

theorem Rows.mono {label label' : List Vertex} (h : ∀ (q : Nat) v, label[q]? = some v → label'[q]? = some v) {T : List (List Nat)}
    {vt : List (List Vertex)} (hr : Rows label T vt) : Rows label' T vt :=
  List.Forall₂.imp (fun _ _ h1 => List.Forall₂.imp (fun q v => h q v) h1) hr

/-- Loop invariant within a cell, after `n` calls; `vt0` are the triangles of the previous cells. -/
structure CellInv (m : Mesh ℝ) (surface : List (GeoKind × List Nat)) (c : Nat) (cell : GeoKind × List Nat) (vt0 : List (List Vertex))
    (n : Nat) (s : TriState × List Nat) (label : List Vertex) : Prop where
  num : Numbered m surface s.1 label
  extra : ExtraOk c cell.1.triangulateExtraNnode s.2 label
  rows : Rows label s.1.triangles (vt0 ++ (List.range (n / 3)).map fun t => (List.range 3).map (vertexOf c cell t))
  connLen : s.1.conn.length = 3
  conn : ∀ (i : Nat), i < n % 3 → ∃ q, s.1.conn[i]? = some q ∧ label[q]? = some (vertexOf c cell (n / 3) i)
  used : ∀ v ∈ label, (∃ tri ∈ vt0, v ∈ tri) ∨ ∃ t < cell.1.triangulateNtriangle, ∃ i < 3, v = vertexOf c cell t i
  old : ∀ s' k, Vertex.extra s' k ∈ label → s' ≤ c
  len : label.length ≤ 3 * vt0.length + n

theorem vertexOf_extra_le {c : Nat} {cell : GeoKind × List Nat} {t i s' k : Nat} (h : vertexOf c cell t i = .extra s' k) : s' = c := by
  unfold vertexOf at h
  dsimp only at h
  split at h
  · simp at h
  · simp at h; omega

theorem vertexStep_ok {m : Mesh ℝ} (hd : m.ndim = 2 ∨ m.ndim = 3) {surface : List (GeoKind × List Nat)} {c : Nat} {cell : GeoKind × List Nat}
    (hc : surface[c]? = some cell) (hl : cell.2.length = cell.1.nnode) {vt0 : List (List Vertex)} {t i : Nat}
    (ht : t < cell.1.triangulateNtriangle) (hi : i < 3) {s : TriState × List Nat} {label : List Vertex}
    (h : CellInv m surface c cell vt0 (3 * t + i) s label) (hmax : 3 * vt0.length + 3 * t + i < usizeMax) :
    ∃ s' label', vertexStep m.ndim cell.1.nnode cell.2 s t i (triangulateNode cell.1 t i)
        ((List.range m.ndim).map (nodePosition m cell (triangulateNode cell.1 t i))) = .ok s' ∧
      CellInv m surface c cell vt0 (3 * t + i + 1) s' label' := by
  have hdiv : (3 * t + i) / 3 = t := by omega
  have hmod : (3 * t + i) % 3 = i := by omega
  obtain ⟨q, s', extra', label', e, hN, hE, hq, hlab, htri, hconn⟩ := vertexId_ok hd hc hl ht hi h.num h.extra (by have := h.len; omega)
  have hmono : ∀ (q : Nat) v, label[q]? = some v → label'[q]? = some v := by
    intro q v hv
    rcases hlab with rfl | rfl
    · exact hv
    · exact getElem?_snoc_of hv _
  have hold : ∀ s' k, Vertex.extra s' k ∈ label' → s' ≤ c := by
    intro a k ha
    rcases hlab with rfl | rfl
    · exact h.old a k ha
    · rw [List.mem_append] at ha
      rcases ha with ha | ha
      · exact h.old a k ha
      · simp only [List.mem_singleton] at ha
        exact le_of_eq (vertexOf_extra_le ha.symm)
  have hused : ∀ v ∈ label', (∃ tri ∈ vt0, v ∈ tri) ∨ ∃ t < cell.1.triangulateNtriangle, ∃ i < 3, v = vertexOf c cell t i := by
    intro v hv
    rcases hlab with rfl | rfl
    · exact h.used v hv
    · rw [List.mem_append] at hv
      rcases hv with hv | hv
      · exact h.used v hv
      · simp only [List.mem_singleton] at hv
        exact Or.inr ⟨t, ht, i, hi, hv⟩
  have hlen : label'.length ≤ 3 * vt0.length + (3 * t + i + 1) := by
    have := h.len
    rcases hlab with rfl | rfl
    · omega
    · rw [List.length_append]; simp only [List.length_singleton]; omega
  have hcl : i < s'.conn.length := by rw [hconn, h.connLen]; exact hi
  have hcn : ∀ (j : Nat), j < i + 1 → ∃ q', (s'.conn.set i q)[j]? = some q' ∧ label'[q']? = some (vertexOf c cell t j) := by
    intro j hj
    rw [List.getElem?_set]
    by_cases hij : i = j
    · subst hij
      rw [if_pos rfl, if_pos hcl]
      exact ⟨q, rfl, hq⟩
    · rw [if_neg hij]
      obtain ⟨q', h1, h2⟩ := h.conn j (by omega)
      rw [hdiv] at h2
      exact ⟨q', by rw [hconn]; exact h1, hmono _ _ h2⟩
  unfold vertexStep
  rw [e, Res.bind_ok]
  dsimp only
  rw [show Res.setIdx s'.conn i q = .ok (s'.conn.set i q) by unfold Res.setIdx; rw [if_pos hcl], Res.bind_ok]
  have hlen3 : (s'.conn.set i q).length = 3 := by rw [List.length_set, hconn, h.connLen]
  by_cases hi2 : i = 2
  · rw [if_pos hi2]
    refine ⟨_, label', rfl, ⟨hN.distinct, hN.x, hN.y, hN.z, hN.newId⟩, hE, ?_, hlen3, ?_, hused, hold, hlen⟩
    · have : (3 * t + i + 1) / 3 = t + 1 := by omega
      rw [this, List.range_succ (n := t), List.map_append, ← List.append_assoc, htri]
      refine List.rel_append ?_ ?_
      · have := h.rows
        rw [hdiv] at this
        exact this.mono hmono
      · refine List.Forall₂.cons ?_ List.Forall₂.nil
        obtain ⟨q0, a0, b0⟩ := hcn 0 (by omega)
        obtain ⟨q1, a1, b1⟩ := hcn 1 (by omega)
        obtain ⟨q2, a2, b2⟩ := hcn 2 (by omega)
        have hlist : s'.conn.set i q = [q0, q1, q2] := by
          apply List.ext_getElem?
          intro j
          rcases j with _ | _ | _ | j
          · exact a0
          · exact a1
          · exact a2
          · rw [List.getElem?_eq_none (by omega), List.getElem?_eq_none (by simp)]
        rw [hlist]
        exact List.Forall₂.cons b0 (List.Forall₂.cons b1 (List.Forall₂.cons b2 List.Forall₂.nil))
    · intro j hj
      omega
  · rw [if_neg hi2]
    have hd' : (3 * t + i + 1) / 3 = t := by omega
    have hm' : (3 * t + i + 1) % 3 = i + 1 := by omega
    refine ⟨_, label', rfl, ⟨hN.distinct, hN.x, hN.y, hN.z, hN.newId⟩, hE, ?_, hlen3, ?_, hused, hold, hlen⟩
    · have := h.rows
      rw [hdiv] at this
      rw [hd']
      dsimp only
      rw [htri]
      exact this.mono hmono
    · rw [hd', hm']
      exact hcn

/-- Invariant between cells. -/
structure SurfInv (m : Mesh ℝ) (surface : List (GeoKind × List Nat)) (pre : List (GeoKind × List Nat)) (s : TriState)
    (label : List Vertex) : Prop where
  num : Numbered m surface s label
  rows : Rows label s.triangles (surfaceTriangles pre)
  connLen : s.conn.length = 3
  used : ∀ v ∈ label, ∃ tri ∈ surfaceTriangles pre, v ∈ tri
  old : ∀ s' k, Vertex.extra s' k ∈ label → s' < pre.length
  len : label.length ≤ 3 * (surfaceTriangles pre).length
  pads : ∀ k pad, s.pads.get k = some pad → pad.kind = k ∧ pad.spaceNdim = m.ndim

/-- Conditions on a surface: the points of the cells exist, as many as the nodes; the mesh is planar or spatial. -/
structure ValidSurface (m : Mesh ℝ) (surface : List (GeoKind × List Nat)) : Prop where
  dim : m.ndim = 2 ∨ m.ndim = 3
  coords : ∀ p ∈ m.points, p.coords.length = m.ndim
  nnode : ∀ cell ∈ surface, cell.2.length = cell.1.nnode
  inRange : ∀ cell ∈ surface, ∀ p ∈ cell.2, p < m.points.length
  small : 3 * (surfaceTriangles surface).length < usizeMax

theorem isSurfaceKind_ndim {k : GeoKind} (h : isSurfaceKind k = true) : k.ndim = 2 := by
  revert h; cases k <;> decide

theorem padOf_ok {m : Mesh ℝ} (hd : m.ndim = 2 ∨ m.ndim = 3) {k : GeoKind} (hk : isSurfaceKind k = true) {pads : HMap GeoKind Scratchpad}
    (hp : ∀ k pad, pads.get k = some pad → pad.kind = k ∧ pad.spaceNdim = m.ndim) :
    ∃ pad, padOf m.ndim k pads = .ok pad ∧ pad.kind = k ∧ pad.spaceNdim = m.ndim := by
  unfold padOf
  cases hg : pads.get k with
  | some pad => exact ⟨pad, rfl, hp k pad hg⟩
  | none =>
    have := isSurfaceKind_ndim hk
    unfold Scratchpad.new
    rw [if_neg (by omega), if_neg (by omega)]
    exact ⟨_, rfl, rfl, rfl⟩

theorem surfaceStep_ok {m : Mesh ℝ} {surface : List (GeoKind × List Nat)} (hv : ValidSurface m surface)
    {pre suf : List (GeoKind × List Nat)} {cell : GeoKind × List Nat} (hs : surface = pre ++ cell :: suf) {s : TriState}
    {label : List Vertex} (h : SurfInv m surface pre s label) :
    ∃ s' label', surfaceStep m s cell = .ok s' ∧ SurfInv m surface (pre ++ [cell]) s' label' := by
  have hmem : cell ∈ surface := by rw [hs]; simp
  have hc : surface[pre.length]? = some cell := by rw [hs]; simp
  unfold surfaceStep
  by_cases hk : isSurfaceKind cell.1 = true
  · have hcl : cell.1.classOf = .tri ∨ cell.1.classOf = .qua := by simpa [isSurfaceKind] using hk
    rw [if_neg (not_not.2 hcl)]
    obtain ⟨pad, e1, hpk, hps⟩ := padOf_ok hv.dim hk h.pads
    rw [e1, Res.bind_ok]
    obtain ⟨pad1, e2, hH⟩ := C53_set_pad m pad cell.2 hv.coords hps (by have := hv.dim; omega)
      (by rw [hpk]; exact hv.nnode cell hmem) (hv.inRange cell hmem)
    rw [hpk] at hH
    rw [e2, Res.bind_ok]
    have hct : cellTriangles pre.length cell = (List.range cell.1.triangulateNtriangle).map fun t => (List.range 3).map (vertexOf pre.length cell t) := by
      unfold cellTriangles; rw [if_pos hk]
    have hsnoc := surfaceTriangles_snoc pre cell
    have htot : (surfaceTriangles pre).length + cell.1.triangulateNtriangle ≤ (surfaceTriangles surface).length := by
      have : surfaceTriangles surface = surfaceTriangles (pre ++ [cell]) ++ (suf.zipIdx (pre ++ [cell]).length).flatMap fun e => cellTriangles e.2 e.1 := by
        rw [hs, show pre ++ cell :: suf = (pre ++ [cell]) ++ suf by simp]
        unfold surfaceTriangles
        rw [List.zipIdx_append, List.flatMap_append]
        simp
      rw [this, hsnoc, hct]
      simp
    have hsm := hv.small
    obtain ⟨r, pad2, e3, ⟨label', hI⟩, hH2⟩ := Scratchpad.triangulate_rule m cell pad1 hH hk (vertexStep m.ndim cell.1.nnode cell.2)
      (s, List.replicate cell.1.triangulateExtraNnode usizeMax)
      (fun n s => ∃ label, CellInv m surface pre.length cell (surfaceTriangles pre) n s label)
      ⟨label, h.num, ⟨by simp, by
          intro k q hq
          rw [List.getElem?_replicate] at hq
          split at hq
          · simp only [Option.some.injEq] at hq
            exact ⟨fun _ hm => by have := h.old _ _ hm; omega, fun hne => absurd hq.symm hne⟩
          · simp at hq⟩, by simpa using h.rows, h.connLen, by intro i hi; simp at hi, fun v hv => Or.inl (h.used v hv),
        fun s' k hm => le_of_lt (h.old s' k hm), by simpa using h.len⟩ (by
        intro t i st ht hi ⟨lab, hI⟩
        obtain ⟨s', label', e, hI'⟩ := vertexStep_ok hv.dim hc (hv.nnode cell hmem) ht hi hI (by omega)
        exact ⟨s', e, label', hI'⟩)
    rw [e3]
    refine ⟨_, label', rfl, ⟨hI.num.distinct, hI.num.x, hI.num.y, hI.num.z, hI.num.newId⟩, ?_, hI.connLen, ?_, ?_, ?_, ?_⟩
    · have := hI.rows
      rw [Nat.mul_div_cancel_left _ (by norm_num : 0 < 3)] at this
      rw [hsnoc, hct]; exact this
    · intro v hv'
      rw [hsnoc, hct]
      rcases hI.used v hv' with ⟨tri, h1, h2⟩ | ⟨t, ht, i, hi, rfl⟩
      · exact ⟨tri, List.mem_append_left _ h1, h2⟩
      · exact ⟨_, List.mem_append_right _ (List.mem_map.2 ⟨t, List.mem_range.2 ht, rfl⟩), List.mem_map.2 ⟨i, List.mem_range.2 hi, rfl⟩⟩
    · intro s' k hm
      have := hI.old s' k hm
      simp; omega
    · have := hI.len
      rw [hsnoc, hct, List.length_append, List.length_map, List.length_range]; omega
    · intro k p hp
      dsimp only at hp
      rw [HMap.get_insert] at hp
      by_cases hkk : k = cell.1
      · rw [if_pos hkk] at hp
        simp only [Option.some.injEq] at hp
        subst hp
        exact ⟨by rw [hkk]; exact hH2.kind, hH2.space⟩
      · rw [if_neg hkk] at hp
        exact h.pads k p hp
  · have hcl : ¬ (cell.1.classOf = .tri ∨ cell.1.classOf = .qua) := by simpa [isSurfaceKind] using hk
    rw [if_pos hcl]
    have : surfaceTriangles (pre ++ [cell]) = surfaceTriangles pre := by
      rw [surfaceTriangles_snoc]; unfold cellTriangles; rw [if_neg hk, List.append_nil]
    refine ⟨s, label, rfl, h.num, by rw [this]; exact h.rows, h.connLen, by rw [this]; exact h.used, ?_, by rw [this]; exact h.len, h.pads⟩
    intro s' k hm
    have := h.old s' k hm
    simp; omega

theorem fromSurface_ok {m : Mesh ℝ} {surface : List (GeoKind × List Nat)} (hv : ValidSurface m surface) :
    ∃ tr label, fromSurface m surface = .ok tr ∧ IsTriangulation m surface label tr.xx tr.yy tr.zz tr.triangles := by
  obtain ⟨s, e, label, h⟩ := Res.foldlM_list (surfaceStep m) surface { xx := [], yy := [], zz := [], triangles := [], newId := [], pads := [], conn := [0, 0, 0] }
    (fun pre s => ∃ label, SurfInv m surface pre s label)
    ⟨[], ⟨List.nodup_nil, rfl, rfl, by simp, by intro p q; simp⟩, List.Forall₂.nil, rfl, by simp, by simp, by simp, by intro k pad h; simp at h⟩ (by
      intro pre a s _ ⟨suf, hs⟩ ⟨label, h⟩
      obtain ⟨s', label', e, h'⟩ := surfaceStep_ok hv hs h
      exact ⟨s', e, label', h'⟩)
  exact ⟨s, label, e, h.num.distinct, h.num.x, h.num.y, h.num.z, h.used, h.rows⟩

end Mesh
end
end Gemlab
