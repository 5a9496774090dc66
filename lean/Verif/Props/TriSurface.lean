import Verif.Proofs.TriSurface
import Verif.Props.FeaturesQueries
import Verif.Props.Shapes

/-!
# C59: triangulation of surfaces, C60: triangulation of the boundary of a solid
-/
namespace Gemlab.Mesh
noncomputable section
open Gemlab.Shapes Gemlab.Spec Gemlab.Props.Shapes

/-- **C59.** `from_surface` on a surface whose cells have their points in the mesh always succeeds and returns a triangulation of the
surface: exactly the triangles of the triangular and quadrilateral cells, cell by cell; each point of the mesh that is used appears
once, each extra node of each cell appears once, there is no other point, and the coordinates are the right ones. -/
theorem C59_from_surface (m : Mesh ℝ) (surface : List (GeoKind × List Nat)) (hv : ValidSurface m surface) :
    ∃ tr label, fromSurface m surface = .ok tr ∧ IsTriangulation m surface label tr.xx tr.yy tr.zz tr.triangles :=
  fromSurface_ok hv

/-- Number of triangles before those of the cell at position `s`. -/
def firstTriangle (surface : List (GeoKind × List Nat)) (s : Nat) : Nat :=
  ((surface.take s).map fun cell => cell.1.triangulateNtriangle).sum

theorem ntriangle_zero {k : GeoKind} (h : isSurfaceKind k = false) : k.triangulateNtriangle = 0 := by
  revert h; cases k <;> decide

theorem isSurfaceKind_of {k : GeoKind} (h : 0 < k.triangulateNtriangle) : isSurfaceKind k = true := by
  revert h; cases k <;> decide

theorem cellTriangles_length (s : Nat) (cell : GeoKind × List Nat) : (cellTriangles s cell).length = cell.1.triangulateNtriangle := by
  unfold cellTriangles
  by_cases h : isSurfaceKind cell.1 = true
  · rw [if_pos h]; simp
  · rw [if_neg h, ntriangle_zero (by simpa using h)]; rfl

theorem surfaceTriangles_append (a b : List (GeoKind × List Nat)) :
    surfaceTriangles (a ++ b) = surfaceTriangles a ++ (b.zipIdx a.length).flatMap fun e => cellTriangles e.2 e.1 := by
  unfold surfaceTriangles
  rw [List.zipIdx_append, List.flatMap_append]
  simp

theorem surfaceTriangles_length (surface : List (GeoKind × List Nat)) :
    (surfaceTriangles surface).length = (surface.map fun cell => cell.1.triangulateNtriangle).sum := by
  induction surface using List.reverseRecOn with
  | nil => rfl
  | append_singleton pre a ih => rw [surfaceTriangles_snoc, List.length_append, ih, cellTriangles_length]; simp

theorem surfaceTriangles_get {surface : List (GeoKind × List Nat)} {s : Nat} {cell : GeoKind × List Nat} (hs : surface[s]? = some cell)
    {t : Nat} (ht : t < cell.1.triangulateNtriangle) :
    (surfaceTriangles surface)[firstTriangle surface s + t]? = some ((List.range 3).map (vertexOf s cell t)) := by
  obtain ⟨hlt, he⟩ := List.getElem?_eq_some_iff.1 hs
  have hsplit : surface = surface.take s ++ cell :: surface.drop (s + 1) := by
    rw [← he, List.getElem_cons_drop hlt, List.take_append_drop]
  have hlen : (surface.take s).length = s := by rw [List.length_take]; omega
  conv_lhs => rw [hsplit]
  have hft : firstTriangle (surface.take s ++ cell :: surface.drop (s + 1)) s = (surfaceTriangles (surface.take s)).length := by
    rw [← hsplit, surfaceTriangles_length]; rfl
  rw [surfaceTriangles_append, hft, List.getElem?_append_right (by omega), Nat.add_sub_cancel_left, List.zipIdx_cons, List.flatMap_cons,
    List.getElem?_append_left (by rw [cellTriangles_length]; exact ht), hlen]
  unfold cellTriangles
  rw [if_pos (isSurfaceKind_of (Nat.lt_of_le_of_lt (Nat.zero_le _) ht)), List.getElem?_map, List.getElem?_range ht]
  rfl

/-- Corner `i` of triangle `t` of the cell at position `s`, as a point number of the output. -/
def cornerPoint (surface : List (GeoKind × List Nat)) (triangles : List (List Nat)) (s t i : Nat) : Nat :=
  (triangles.getD (firstTriangle surface s + t) []).getD i 0

variable {m : Mesh ℝ} {surface : List (GeoKind × List Nat)} {label : List Vertex} {xx yy zz : List ℝ} {triangles : List (List Nat)}

/-- **C59.** Sizes: as many triangles as the cells have, three corners each, all in range; as many `y` as `x`, and as many `z` in
space (none in the plane). -/
theorem C59_sizes (h : IsTriangulation m surface label xx yy zz triangles) :
    triangles.length = (surface.map fun cell => cell.1.triangulateNtriangle).sum ∧
    (∀ tri ∈ triangles, tri.length = 3 ∧ ∀ q ∈ tri, q < xx.length) ∧ yy.length = xx.length ∧
    zz.length = if m.ndim = 3 then xx.length else 0 := by
  refine ⟨?_, ?_, ?_, ?_⟩
  · rw [h.triangles.length_eq, surfaceTriangles_length]
  · intro tri ht
    obtain ⟨n, hn⟩ := List.getElem?_of_mem ht
    have hnl := (List.getElem?_eq_some_iff.1 hn).1
    have hnl' : n < (surfaceTriangles surface).length := by rw [← h.triangles.length_eq]; exact hnl
    have hrow := List.Forall₂.get h.triangles hnl hnl'
    have e1 : triangles.get ⟨n, hnl⟩ = tri := (List.getElem?_eq_some_iff.1 hn).2
    rw [e1] at hrow
    have hvl : ((surfaceTriangles surface).get ⟨n, hnl'⟩).length = 3 := by
      have hmem : (surfaceTriangles surface).get ⟨n, hnl'⟩ ∈ surfaceTriangles surface := List.get_mem _ _
      unfold surfaceTriangles at hmem
      obtain ⟨e, _, he⟩ := List.mem_flatMap.1 hmem
      unfold cellTriangles at he
      split at he
      · obtain ⟨t, _, he⟩ := List.mem_map.1 he
        rw [show (surfaceTriangles surface).get ⟨n, hnl'⟩ = _ from he.symm]; rfl
      · simp at he
    refine ⟨by rw [hrow.length_eq, hvl], ?_⟩
    intro q hq
    obtain ⟨i, hi⟩ := List.getElem?_of_mem hq
    have hil := (List.getElem?_eq_some_iff.1 hi).1
    have hv := List.Forall₂.get hrow hil (by rw [← hrow.length_eq]; exact hil)
    rw [show tri.get ⟨i, hil⟩ = q from (List.getElem?_eq_some_iff.1 hi).2] at hv
    have := (List.getElem?_eq_some_iff.1 hv).1
    rw [h.x, List.length_map]; exact this
  · rw [h.x, h.y]; simp
  · rw [h.z, h.x]; split <;> simp

theorem forall₂_getElem? {α β : Type} {R : α → β → Prop} {l : List α} {l' : List β} (h : List.Forall₂ R l l') {n : Nat} {b : β}
    (hb : l'[n]? = some b) : ∃ a, l[n]? = some a ∧ R a b := by
  obtain ⟨hl, e⟩ := List.getElem?_eq_some_iff.1 hb
  have hl' : n < l.length := by rw [h.length_eq]; exact hl
  refine ⟨l[n], List.getElem?_eq_getElem hl', ?_⟩
  have := List.Forall₂.get h hl' hl
  rw [← e]; exact this

theorem corner_spec (h : IsTriangulation m surface label xx yy zz triangles) {s : Nat} {cell : GeoKind × List Nat}
    (hs : surface[s]? = some cell) {t : Nat} (ht : t < cell.1.triangulateNtriangle) :
    triangles[firstTriangle surface s + t]? = some [cornerPoint surface triangles s t 0, cornerPoint surface triangles s t 1, cornerPoint surface triangles s t 2] ∧
    ∀ i < 3, label[cornerPoint surface triangles s t i]? = some (vertexOf s cell t i) := by
  obtain ⟨tri, h1, h2⟩ := forall₂_getElem? h.triangles (surfaceTriangles_get hs ht)
  have hg : triangles.getD (firstTriangle surface s + t) [] = tri := by rw [List.getD_eq_getElem?_getD, h1]; rfl
  have key : ∀ i < 3, label[cornerPoint surface triangles s t i]? = some (vertexOf s cell t i) := by
    intro i hi
    obtain ⟨q, hq, hl⟩ := forall₂_getElem? h2 (n := i) (b := vertexOf s cell t i) (by rw [List.getElem?_map, List.getElem?_range hi]; rfl)
    unfold cornerPoint
    rw [hg, List.getD_eq_getElem?_getD, hq]
    exact hl
  refine ⟨?_, key⟩
  rw [h1]
  unfold cornerPoint
  rw [hg]
  have hlen := h2.length_eq
  rw [List.length_map, List.length_range] at hlen
  match tri, hlen with
  | [a, b, c], _ => rfl

/-- **C59.** The triangles of a cell are consecutive, in the order of the triangulation of its kind. -/
theorem C59_triangles_of_cell (h : IsTriangulation m surface label xx yy zz triangles) {s : Nat} {cell : GeoKind × List Nat}
    (hs : surface[s]? = some cell) {t : Nat} (ht : t < cell.1.triangulateNtriangle) :
    triangles[firstTriangle surface s + t]? = some [cornerPoint surface triangles s t 0, cornerPoint surface triangles s t 1, cornerPoint surface triangles s t 2] :=
  (corner_spec h hs ht).1

/-- **C59.** Two corners (of the same or of different cells) are the same point of the output if and only if they are the same point
of the mesh, or the same extra node of the same cell. -/
theorem C59_sharing (h : IsTriangulation m surface label xx yy zz triangles) {s s' : Nat} {cell cell' : GeoKind × List Nat}
    (hs : surface[s]? = some cell) (hs' : surface[s']? = some cell') {t t' i i' : Nat} (ht : t < cell.1.triangulateNtriangle)
    (ht' : t' < cell'.1.triangulateNtriangle) (hi : i < 3) (hi' : i' < 3) :
    cornerPoint surface triangles s t i = cornerPoint surface triangles s' t' i' ↔
      (triangulateNode cell.1 t i < cell.1.nnode ∧ triangulateNode cell'.1 t' i' < cell'.1.nnode ∧
        cell.2.getD (triangulateNode cell.1 t i) 0 = cell'.2.getD (triangulateNode cell'.1 t' i') 0) ∨
      (cell.1.nnode ≤ triangulateNode cell.1 t i ∧ s = s' ∧ triangulateNode cell.1 t i = triangulateNode cell'.1 t' i') := by
  have h1 := (corner_spec h hs ht).2 i hi
  have h2 := (corner_spec h hs' ht').2 i' hi'
  have hiff : cornerPoint surface triangles s t i = cornerPoint surface triangles s' t' i' ↔ vertexOf s cell t i = vertexOf s' cell' t' i' := by
    constructor
    · intro e; rw [e, h2] at h1; simpa using h1.symm
    · intro e
      rw [← e] at h2
      have l1 := (List.getElem?_eq_some_iff.1 h1).1
      exact (List.Nodup.getElem_inj_iff h.distinct (hi := l1) (hj := (List.getElem?_eq_some_iff.1 h2).1)).1
        ((List.getElem?_eq_some_iff.1 h1).2.trans (List.getElem?_eq_some_iff.1 h2).2.symm)
  rw [hiff]
  unfold vertexOf
  dsimp only
  split <;> split
  · simp; omega
  · simp; omega
  · rename_i a b
    simp only [reduceCtorEq, false_iff, not_or, not_and]
    refine ⟨fun c => absurd c a, fun _ hss he => ?_⟩
    subst hss
    rw [hs, Option.some.injEq] at hs'
    subst hs'
    omega
  · rename_i a b
    simp only [Vertex.extra.injEq]
    constructor
    · rintro ⟨e1, e2⟩
      subst e1
      rw [hs, Option.some.injEq] at hs'
      subst hs'
      exact Or.inr ⟨by omega, rfl, by omega⟩
    · rintro (⟨c, _⟩ | ⟨_, e1, e2⟩)
      · exact absurd c a
      · subst e1
        rw [hs, Option.some.injEq] at hs'
        subst hs'
        exact ⟨rfl, by omega⟩

/-- **C59.** Every point of the output is a corner of a triangle. -/
theorem C59_all_points_used (h : IsTriangulation m surface label xx yy zz triangles) (q : Nat) (hq : q < xx.length) :
    ∃ tri ∈ triangles, q ∈ tri := by
  have hl : xx.length = label.length := by rw [h.x]; simp
  have hq' : q < label.length := by omega
  obtain ⟨vt, h1, h2⟩ := h.used _ (List.getElem_mem hq')
  obtain ⟨n, hn⟩ := List.getElem?_of_mem h1
  obtain ⟨tri, h3, h4⟩ := forall₂_getElem? h.triangles hn
  obtain ⟨i, hi⟩ := List.getElem?_of_mem h2
  obtain ⟨q', h5, h6⟩ := forall₂_getElem? h4 hi
  refine ⟨tri, List.mem_of_getElem? h3, ?_⟩
  obtain ⟨hl6, e6⟩ := List.getElem?_eq_some_iff.1 h6
  have : q' = q := (List.Nodup.getElem_inj_iff h.distinct (hi := hl6) (hj := hq')).1 e6
  subst this
  exact List.mem_of_getElem? h5

/-- Coordinate `j` of a point of the output. -/
def outCoord (xx yy zz : List ℝ) (q j : Nat) : ℝ := if j = 0 then xx.getD q 0 else if j = 1 then yy.getD q 0 else zz.getD q 0

theorem triangulateNode_coords (k : GeoKind) (hk : isSurfaceKind k = true) (m : Nat) (hm : m < k.nnode + k.triangulateExtraNnode) :
    (m < k.nnode → (refCoord k m : Nat → ℝ) = vec2 (((triangulationNode k m).1 : ℚ) : ℝ) ((triangulationNode k m).2 : ℚ)) ∧
    (k.nnode ≤ m → (fun i => (((k.triangulateExtraCoords.getD (m - k.nnode) []).getD i 0 : ℚ) : ℝ)) =
      vec2 (((triangulationNode k m).1 : ℚ) : ℝ) ((triangulationNode k m).2 : ℚ)) := by
  have h2 := isSurfaceKind_ndim hk
  have hr : ∀ r ∈ k.referenceCoords, r.length = 2 := by
    revert hk; cases k <;> decide +kernel
  have hrl : k.referenceCoords.length = k.nnode := by cases k <;> decide +kernel
  have ht := C45_tables_well_formed k
  unfold triangulationNode
  constructor
  · intro hlt
    funext i
    dsimp only
    rw [if_neg (by omega)]
    unfold refCoord refCoordQ
    match i with
    | 0 => rfl
    | 1 => rfl
    | i + 2 =>
      have : (k.referenceCoords.getD m []).length = 2 := by
        rw [List.getD_eq_getElem?_getD, List.getElem?_eq_getElem (by omega)]
        exact hr _ (List.getElem_mem _)
      rw [List.getD_eq_getElem?_getD (l := k.referenceCoords.getD m []), List.getElem?_eq_none (by omega)]
      simp [vec2]
  · intro hge
    funext i
    dsimp only
    rw [if_pos hge]
    match i with
    | 0 => rfl
    | 1 => rfl
    | i + 2 =>
      have : (k.triangulateExtraCoords.getD (m - k.nnode) []).length = 2 := by
        rw [List.getD_eq_getElem?_getD, List.getElem?_eq_getElem (by omega)]
        exact ht.2.2.2.2 _ (List.getElem_mem _)
      rw [List.getD_eq_getElem?_getD (l := k.triangulateExtraCoords.getD (m - k.nnode) []), List.getElem?_eq_none (by omega)]
      simp [vec2]

/-- **C59.** A corner that is a node of the cell has exactly the coordinates of the point of the mesh. -/
theorem C59_node_coordinates (h : IsTriangulation m surface label xx yy zz triangles) {s : Nat} {cell : GeoKind × List Nat}
    (hs : surface[s]? = some cell) {t i : Nat} (ht : t < cell.1.triangulateNtriangle) (hi : i < 3)
    (hn : triangulateNode cell.1 t i < cell.1.nnode) (j : Nat) (hj : j < m.ndim) (hd : m.ndim = 2 ∨ m.ndim = 3) :
    outCoord xx yy zz (cornerPoint surface triangles s t i) j = (coordsOf m (cell.2.getD (triangulateNode cell.1 t i) 0)).getD j 0 := by
  have h1 := (corner_spec h hs ht).2 i hi
  have hv : vertexOf s cell t i = .node (cell.2.getD (triangulateNode cell.1 t i) 0) := by unfold vertexOf; dsimp only; rw [if_pos hn]
  rw [hv] at h1
  unfold outCoord
  rcases (show j = 0 ∨ j = 1 ∨ (j = 2 ∧ m.ndim = 3) by omega) with rfl | rfl | ⟨rfl, h3⟩
  · rw [if_pos rfl, h.x, List.getD_eq_getElem?_getD, List.getElem?_map, h1]; rfl
  · rw [if_neg (by omega), if_pos rfl, h.y, List.getD_eq_getElem?_getD, List.getElem?_map, h1]; rfl
  · rw [if_neg (by omega), if_neg (by omega), h.z, if_pos h3, List.getD_eq_getElem?_getD, List.getElem?_map, h1]; rfl

/-- **C59.** Every corner is the image, under the isoparametric map of its cell, of the corner of the reference triangulation. -/
theorem C59_coordinates (h : IsTriangulation m surface label xx yy zz triangles) {s : Nat} {cell : GeoKind × List Nat}
    (hs : surface[s]? = some cell) {t i : Nat} (ht : t < cell.1.triangulateNtriangle) (hi : i < 3)
    (j : Nat) (hj : j < m.ndim) (hd : m.ndim = 2 ∨ m.ndim = 3) :
    outCoord xx yy zz (cornerPoint surface triangles s t i) j =
      isoPosition m cell (vec2 (corner cell.1 t i : ℝ × ℝ).1 (corner cell.1 t i).2) j := by
  have hk := isSurfaceKind_of (Nat.lt_of_le_of_lt (Nat.zero_le _) ht)
  have hlt := triangulateNode_lt cell.1 t i ht hi
  obtain ⟨c1, c2⟩ := triangulateNode_coords cell.1 hk _ hlt
  by_cases hn : triangulateNode cell.1 t i < cell.1.nnode
  · rw [C59_node_coordinates h hs ht hi hn j hj hd]
    have := C28_calc_coords_nodes (K := ℝ) cell.1 (fun n j => (coordsOf m (cell.2.getD n 0)).getD j 0) _ j hn
    rw [← this, c1 hn]
    rfl
  · have h1 := (corner_spec h hs ht).2 i hi
    have hv : vertexOf s cell t i = .extra s (triangulateNode cell.1 t i - cell.1.nnode) := by unfold vertexOf; dsimp only; rw [if_neg hn]
    have hp : ∀ j, vertexPosition m surface (vertexOf s cell t i) j = isoPosition m cell (vec2 (corner cell.1 t i : ℝ × ℝ).1 (corner cell.1 t i).2) j := by
      intro j
      rw [vertexPosition_of m hs]
      unfold nodePosition
      rw [if_neg hn, c2 (by omega)]
      rfl
    unfold outCoord
    rcases (show j = 0 ∨ j = 1 ∨ (j = 2 ∧ m.ndim = 3) by omega) with rfl | rfl | ⟨rfl, h3⟩
    · rw [if_pos rfl, h.x, List.getD_eq_getElem?_getD, List.getElem?_map, h1]; exact hp _
    · rw [if_neg (by omega), if_pos rfl, h.y, List.getD_eq_getElem?_getD, List.getElem?_map, h1]; exact hp _
    · rw [if_neg (by omega), if_neg (by omega), h.z, if_pos h3, List.getD_eq_getElem?_getD, List.getElem?_map, h1]; exact hp _

/-- **C59.** The triangles of a flat cell (whose nodes are an affine image of the nodes of the reference shape, e.g. any `Tri3`)
cover the cell: every point of the cell is a convex combination of the corners of one of its triangles. -/
theorem C59_flat_cells_covered (h : IsTriangulation m surface label xx yy zz triangles) (hd : m.ndim = 2 ∨ m.ndim = 3) {s : Nat}
    {cell : GeoKind × List Nat} (hs : surface[s]? = some cell) (h2 : cell.1.ndim = 2) (b : Nat → ℝ) (M : Nat → Nat → ℝ)
    (hX : ∀ n < cell.1.nnode, ∀ j < m.ndim, (coordsOf m (cell.2.getD n 0)).getD j 0 =
      b j + ∑ a ∈ Finset.range cell.1.ndim, M j a * refCoord cell.1 n a)
    (p : ℝ × ℝ) (hp : InReference cell.1.classOf p) :
    ∃ t < cell.1.triangulateNtriangle, ∃ w : Nat → ℝ, (∀ i < 3, 0 ≤ w i) ∧ ∑ i ∈ Finset.range 3, w i = 1 ∧ ∀ j < m.ndim,
      isoPosition m cell (vec2 p.1 p.2) j = ∑ i ∈ Finset.range 3, w i * outCoord xx yy zz (cornerPoint surface triangles s t i) j := by
  have haff : ∀ (q : ℝ × ℝ), ∀ j < m.ndim, isoPosition m cell (vec2 q.1 q.2) j = b j + (M j 0 * q.1 + M j 1 * q.2) := by
    intro q j hj
    have := C28_calc_coords_affine (K := ℝ) cell.1 (fun n _ => (coordsOf m (cell.2.getD n 0)).getD j 0) (fun _ => b j) (fun _ => M j)
      (fun n hn _ => hX n hn j hj) (vec2 q.1 q.2) j
    rw [h2, Finset.sum_range_succ, Finset.sum_range_succ, Finset.sum_range_zero, zero_add] at this
    exact this
  obtain ⟨t, ht, hin⟩ := C45_triangles_cover cell.1 h2 p hp
  have hA := triangle_pos cell.1 t ht
  set A := area2 (corner cell.1 t 0 : ℝ × ℝ) (corner cell.1 t 1) (corner cell.1 t 2) with hAd
  have ex : p.1 * A = area2 (corner cell.1 t 1) (corner cell.1 t 2) p * (corner cell.1 t 0).1 +
      area2 (corner cell.1 t 2) (corner cell.1 t 0) p * (corner cell.1 t 1).1 + area2 (corner cell.1 t 0) (corner cell.1 t 1) p * (corner cell.1 t 2).1 := by
    rw [hAd]; unfold area2; ring
  have ey : p.2 * A = area2 (corner cell.1 t 1) (corner cell.1 t 2) p * (corner cell.1 t 0).2 +
      area2 (corner cell.1 t 2) (corner cell.1 t 0) p * (corner cell.1 t 1).2 + area2 (corner cell.1 t 0) (corner cell.1 t 1) p * (corner cell.1 t 2).2 := by
    rw [hAd]; unfold area2; ring
  have e1 : A = area2 (corner cell.1 t 1) (corner cell.1 t 2) p + area2 (corner cell.1 t 2) (corner cell.1 t 0) p +
      area2 (corner cell.1 t 0) (corner cell.1 t 1) p := by
    rw [hAd]; unfold area2; ring
  obtain ⟨i0, i1, i2⟩ := hin
  set a0 := area2 (corner cell.1 t 1) (corner cell.1 t 2) p
  set a1 := area2 (corner cell.1 t 2) (corner cell.1 t 0) p
  set a2 := area2 (corner cell.1 t 0) (corner cell.1 t 1) p
  refine ⟨t, ht, fun i => (if i = 0 then a0 else if i = 1 then a1 else a2) / A, ?_, ?_, ?_⟩
  · intro i _
    apply div_nonneg _ hA.le
    split
    · exact i1
    · split
      · exact i2
      · exact i0
  · simp only [Finset.sum_range_succ, Finset.sum_range_zero]
    norm_num
    rw [← add_div, ← add_div, ← e1, div_self hA.ne']
  · intro j hj
    simp only [Finset.sum_range_succ, Finset.sum_range_zero]
    rw [C59_coordinates h hs ht (by norm_num) j hj hd, C59_coordinates h hs ht (by norm_num) j hj hd, C59_coordinates h hs ht (by norm_num) j hj hd,
      haff _ j hj, haff _ j hj, haff _ j hj, haff _ j hj]
    norm_num
    rw [div_mul_eq_mul_div, div_mul_eq_mul_div, div_mul_eq_mul_div, ← add_div, ← add_div, eq_div_iff hA.ne']
    linear_combination (M j 0) * ex + (M j 1) * ey + (b j) * e1

/-! ## Conformity -/

/-- `a → b` is a (directed) side of a triangle of the triangulation. -/
def IsSide (k : GeoKind) (a b : Nat) : Prop :=
  ∃ t < k.triangulateNtriangle, ∃ i < 3, triangulateNode k t i = a ∧ triangulateNode k t ((i + 1) % 3) = b

/-- The nodes `p`, `q` of an edge (local numbers of its shape) follow each other. -/
def Follows (ek : GeoKind) (p q : Nat) : Prop :=
  p < ek.nnode ∧ q < ek.nnode ∧ refCoordQ ek p 0 < refCoordQ ek q 0 ∧
    ∀ r < ek.nnode, ¬ (refCoordQ ek p 0 < refCoordQ ek r 0 ∧ refCoordQ ek r 0 < refCoordQ ek q 0)

instance (ek : GeoKind) (p q : Nat) : Decidable (Follows ek p q) := by unfold Follows; infer_instance
instance (k : GeoKind) (a b : Nat) : Decidable (IsSide k a b) := by unfold IsSide; infer_instance

set_option synthInstance.maxHeartbeats 400000 in
set_option synthInstance.maxSize 2000 in
/-- **C59.** A directed side belongs to one triangle only. -/
theorem C59_side_unique (k : GeoKind) (t t' i i' : Nat) (ht : t < k.triangulateNtriangle) (ht' : t' < k.triangulateNtriangle)
    (hi : i < 3) (hi' : i' < 3) (h1 : triangulateNode k t i = triangulateNode k t' i')
    (h2 : triangulateNode k t ((i + 1) % 3) = triangulateNode k t' ((i' + 1) % 3)) : t = t' ∧ i = i' := by
  have : ∀ t < k.triangulateNtriangle, ∀ t' < k.triangulateNtriangle, ∀ i < 3, ∀ i' < 3, triangulateNode k t i = triangulateNode k t' i' →
      triangulateNode k t ((i + 1) % 3) = triangulateNode k t' ((i' + 1) % 3) → t = t' ∧ i = i' := by
    cases k <;> decide +kernel
  exact this t ht t' ht' i hi i' hi' h1 h2

/-- **C59.** The sides of the triangles are either shared with another triangle of the same cell, in the opposite direction, or join two
consecutive nodes of an edge of the cell: a side has no opposite side exactly when it is on an edge. -/
theorem C59_sides (k ek : GeoKind) (hk : k.ndim = 2) (he : k.edgeKind = some ek) (a b : Nat) (h : IsSide k a b) :
    (¬ IsSide k b a) ↔ ∃ e < k.nedge, ∃ p < ek.nnode, ∃ q < ek.nnode, Follows ek p q ∧ a = edgeNodeInward k e p ∧ b = edgeNodeInward k e q := by
  obtain ⟨t, ht, i, hi, rfl, rfl⟩ := h
  revert t i
  cases k <;> simp only [GeoKind.edgeKind, reduceCtorEq, Option.some.injEq] at he <;> subst he <;>
    first | exact absurd hk (by decide) | (intro t ht i hi; revert i; revert t; decide +kernel)

/-- **C59.** Conversely, consecutive nodes of an edge are joined by a side, and the side runs counter-clockwise. -/
theorem C59_edges_are_sides (k ek : GeoKind) (hk : k.ndim = 2) (he : k.edgeKind = some ek) (e : Nat) (hee : e < k.nedge) (p q : Nat)
    (h : Follows ek p q) : IsSide k (edgeNodeInward k e p) (edgeNodeInward k e q) := by
  have : ∀ e < k.nedge, ∀ p < ek.nnode, ∀ q < ek.nnode, Follows ek p q → IsSide k (edgeNodeInward k e p) (edgeNodeInward k e q) := by
    cases k <;> simp only [GeoKind.edgeKind, reduceCtorEq, Option.some.injEq] at he <;> subst he <;>
      first | exact absurd hk (by decide) | decide +kernel
  exact this e hee p h.1 q h.2.1 h

theorem follows_mirror (k ek : GeoKind) (he : k.edgeKind = some ek) (p q : Nat) (h : Follows ek p q) :
    ∃ p' < ek.nnode, ∃ q' < ek.nnode, refCoordQ ek p' 0 = - refCoordQ ek p 0 ∧ refCoordQ ek q' 0 = - refCoordQ ek q 0 ∧ Follows ek q' p' := by
  have : ∀ p < ek.nnode, ∀ q < ek.nnode, Follows ek p q →
      ∃ p' < ek.nnode, ∃ q' < ek.nnode, refCoordQ ek p' 0 = - refCoordQ ek p 0 ∧ refCoordQ ek q' 0 = - refCoordQ ek q 0 ∧ Follows ek q' p' := by
    cases k <;> simp only [GeoKind.edgeKind, reduceCtorEq, Option.some.injEq] at he <;> subst he <;> decide +kernel
  exact this p h.1 q h.2.1 h

/-- **C59.** Neighbouring cells are triangulated compatibly: if the edge `e` of a cell and the edge `e'` of another one have the same
points, run through in opposite directions, then each pair of consecutive points of the edge is a side of a triangle of both cells,
in opposite directions. -/
theorem C59_conforming (h : IsTriangulation m surface label xx yy zz triangles) {s s' : Nat} {cell cell' : GeoKind × List Nat}
    (hs : surface[s]? = some cell) (hs' : surface[s']? = some cell') (h2 : cell.1.ndim = 2) (h2' : cell'.1.ndim = 2) (ek : GeoKind)
    (he : cell.1.edgeKind = some ek) (he' : cell'.1.edgeKind = some ek) {e e' : Nat} (hee : e < cell.1.nedge) (hee' : e' < cell'.1.nedge)
    (hsame : ∀ p < ek.nnode, cell.2.getD (edgeNode cell.1 e p) 0 = cell'.2.getD (edgeNodeInward cell'.1 e' p) 0) (p q : Nat)
    (hf : Follows ek p q) :
    ∃ t < cell.1.triangulateNtriangle, ∃ i < 3, ∃ t' < cell'.1.triangulateNtriangle, ∃ i' < 3,
      triangulateNode cell.1 t i = edgeNode cell.1 e q ∧ triangulateNode cell.1 t ((i + 1) % 3) = edgeNode cell.1 e p ∧
      cornerPoint surface triangles s t i = cornerPoint surface triangles s' t' ((i' + 1) % 3) ∧
      cornerPoint surface triangles s t ((i + 1) % 3) = cornerPoint surface triangles s' t' i' := by
  obtain ⟨p', hp', q', hq', ep, eq, hfm⟩ := follows_mirror cell.1 ek he p q hf
  have rp := C30_inward_is_reversed cell.1 ek he h2 e p p' hee hf.1 hp' ep
  have rq := C30_inward_is_reversed cell.1 ek he h2 e q q' hee hf.2.1 hq' eq
  obtain ⟨t, ht, i, hi, a1, a2⟩ := C59_edges_are_sides cell.1 ek h2 he e hee q' p' hfm
  obtain ⟨t', ht', i', hi', b1, b2⟩ := C59_edges_are_sides cell'.1 ek h2' he' e' hee' p q hf
  rw [rq] at a1
  rw [rp] at a2
  have lt : ∀ (k : GeoKind), k.edgeKind = some ek → k.ndim = 2 → ∀ e < k.nedge, ∀ p < ek.nnode, edgeNode k e p < k.nnode ∧ edgeNodeInward k e p < k.nnode := by
    intro k hk hd
    cases k <;> simp only [GeoKind.edgeKind, reduceCtorEq, Option.some.injEq] at hk <;> subst hk <;>
      first | exact absurd hd (by decide) | decide +kernel
  refine ⟨t, ht, i, hi, t', ht', i', hi', a1, a2, ?_, ?_⟩
  · rw [C59_sharing h hs hs' ht ht' hi (Nat.mod_lt _ (by norm_num)), a1, b2]
    exact Or.inl ⟨(lt _ he h2 e hee q hf.2.1).1, (lt _ he' h2' e' hee' q hf.2.1).2, hsame q hf.2.1⟩
  · rw [C59_sharing h hs hs' ht ht' (Nat.mod_lt _ (by norm_num)) hi', a2, b1]
    exact Or.inl ⟨(lt _ he h2 e hee p hf.1).1, (lt _ he' h2' e' hee' p hf.1).2, hsame p hf.1⟩

/-! ## `Scratchpad::triangulate` -/

/-- The calls of the callback: triangle, corner, node, coordinates. -/
def triangulateCalls (k : GeoKind) (ndim : Nat) (X : Nat → Nat → ℝ) : List (Nat × Nat × Nat × List ℝ) :=
  (List.range k.triangulateNtriangle).flatMap fun t => (List.range 3).map fun i =>
    (t, i, triangulateNode k t i, (List.range ndim).map fun j =>
      Shapes.calcCoords k X (vec2 (corner k t i : ℝ × ℝ).1 (corner k t i).2) j)

/-- **C59.** `Scratchpad::triangulate` fails, without any call, for shapes other than triangles and quadrilaterals and for a work vector
of the wrong size. -/
theorem C59_triangulate_errors {σ : Type} (pad : Scratchpad) (xdim : Nat) (f : σ → Nat → Nat → Nat → List ℝ → Res σ) (s : σ) :
    (pad.kind.ndim ≠ 2 → ∃ e, pad.triangulate xdim f s = .err e) ∧ (xdim ≠ pad.spaceNdim → ∃ e, pad.triangulate xdim f s = .err e) := by
  have hk : ∀ k : GeoKind, k.ndim ≠ 2 → ¬ (k.classOf = .tri ∨ k.classOf = .qua) := by intro k; cases k <;> decide
  unfold Scratchpad.triangulate
  constructor
  · intro h
    rw [if_pos (hk _ h)]; exact ⟨_, rfl⟩
  · intro h
    by_cases h1 : ¬ (pad.kind.classOf = .tri ∨ pad.kind.classOf = .qua)
    · rw [if_pos h1]; exact ⟨_, rfl⟩
    · rw [if_neg h1, if_pos h]; exact ⟨_, rfl⟩

/-- **C59.** On a pad whose coordinates are set, the callback is called once per corner of each triangle, in order, with the
coordinates of the image of the corner of the reference triangulation. -/
theorem C59_triangulate (pad : Scratchpad) (h2 : pad.kind.ndim = 2) (hok : pad.okXxt = true) :
    ∃ pad', pad.triangulate pad.spaceNdim (fun l t i n x => .ok (l ++ [(t, i, n, x)])) [] =
        .ok (triangulateCalls pad.kind pad.spaceNdim pad.X, pad') ∧
      pad'.kind = pad.kind ∧ pad'.spaceNdim = pad.spaceNdim ∧ pad'.okXxt = true := by
  have hk : isSurfaceKind pad.kind = true := by
    revert h2; cases pad.kind <;> decide
  let m : Mesh ℝ := { ndim := pad.spaceNdim, cells := [], markedEdges := [], markedFaces := [], points := (List.range pad.kind.nnode).map fun n => { id := n, marker := 0, coords := (List.range pad.spaceNdim).map fun j => pad.X n j } }
  have hX : ∀ n < pad.kind.nnode, ∀ j < pad.spaceNdim, (coordsOf m ((List.range pad.kind.nnode).getD n 0)).getD j 0 = pad.X n j := by
    intro n hn j hj
    have e1 : (List.range pad.kind.nnode).getD n 0 = n := by rw [List.getD_eq_getElem?_getD, List.getElem?_range hn]; rfl
    rw [e1]
    unfold coordsOf
    dsimp only [m]
    rw [List.getElem?_map, List.getElem?_range hn]
    simp only [Option.map_some, Option.getD_some]
    rw [List.getD_eq_getElem?_getD, List.getElem?_map, List.getElem?_range hj]
    rfl
  have hH : HoldsCell m pad.kind (List.range pad.kind.nnode) pad := ⟨rfl, rfl, hok, fun n j hn hj => (hX n hn j hj).symm⟩
  have hnode : ∀ t < pad.kind.triangulateNtriangle, ∀ i < 3,
      (List.range m.ndim).map (nodePosition m (pad.kind, List.range pad.kind.nnode) (triangulateNode pad.kind t i)) =
      (List.range pad.spaceNdim).map fun j => Shapes.calcCoords pad.kind pad.X (vec2 (corner pad.kind t i : ℝ × ℝ).1 (corner pad.kind t i).2) j := by
    intro t ht i hi
    apply List.map_congr_left
    intro j hj
    have hj' : j < pad.spaceNdim := List.mem_range.1 hj
    obtain ⟨c1, c2⟩ := triangulateNode_coords pad.kind hk _ (triangulateNode_lt pad.kind t i ht hi)
    unfold nodePosition
    by_cases hn : triangulateNode pad.kind t i < pad.kind.nnode
    · rw [if_pos hn, hX _ hn j hj', ← C28_calc_coords_nodes (K := ℝ) pad.kind pad.X _ j hn, c1 hn]
      rfl
    · rw [if_neg hn]
      dsimp only
      rw [c2 (by omega)]
      unfold isoPosition Shapes.calcCoords
      apply Finset.sum_congr rfl
      intro n hn'
      rw [hX n (Finset.mem_range.1 hn') j hj']
      rfl
  obtain ⟨l, pad', e, hP, hH'⟩ := Scratchpad.triangulate_rule m (pad.kind, List.range pad.kind.nnode) pad hH hk
    (fun l t i n x => .ok (l ++ [(t, i, n, x)])) []
    (fun n l => l = (triangulateCalls pad.kind pad.spaceNdim pad.X).take n) (by simp) (by
      intro t i l ht hi hl
      refine ⟨_, rfl, ?_⟩
      dsimp only at ht ⊢
      rw [hnode t ht i hi]
      have hget : (triangulateCalls pad.kind pad.spaceNdim pad.X)[3 * t + i]? = some (t, i, triangulateNode pad.kind t i, (List.range pad.spaceNdim).map fun j =>
          Shapes.calcCoords pad.kind pad.X (vec2 (corner pad.kind t i : ℝ × ℝ).1 (corner pad.kind t i).2) j) := by
        have key : ∀ (N t i : Nat) (g : Nat → Nat → Nat × Nat × Nat × List ℝ), t < N → i < 3 →
            ((List.range N).flatMap fun t => (List.range 3).map fun i => g t i)[3 * t + i]? = some (g t i) := by
          intro N t i g hN hi
          induction N with
          | zero => omega
          | succ N ih =>
            rw [List.range_succ (n := N), List.flatMap_append]
            have hlen : ((List.range N).flatMap fun t => (List.range 3).map fun i => g t i).length = 3 * N := by
              simp [List.length_flatMap]; ring
            rcases Nat.lt_or_ge t N with h | h
            · rw [List.getElem?_append_left (by omega)]; exact ih h
            · have : t = N := by omega
              subst this
              rw [List.getElem?_append_right (by omega), hlen, Nat.add_sub_cancel_left]
              simp only [List.flatMap_cons, List.flatMap_nil, List.append_nil]
              rw [List.getElem?_map, List.getElem?_range hi]; rfl
        exact key _ t i _ ht hi
      rw [hl, List.take_succ, hget]; rfl)
  refine ⟨pad', ?_, hH'.kind, hH'.space, hH'.ok⟩
  rw [show m.ndim = pad.spaceNdim from rfl] at e
  rw [e, hP]
  have hlen : (triangulateCalls pad.kind pad.spaceNdim pad.X).length = 3 * pad.kind.triangulateNtriangle := by
    unfold triangulateCalls; simp [List.length_flatMap]; ring
  rw [List.take_of_length_le (by rw [hlen])]

end
end Gemlab.Mesh
