import Verif.Proofs.Features3

/-!
# C21, C22, C23: extraction of edges and faces, neighbours
-/
namespace Gemlab.Props.Features
open Gemlab Gemlab.Mesh Gemlab.Shapes Gemlab.Props.Mesh

variable {K : Type}

/-! ## C21 -/

/-- **C21.** The map of all 2D edges has exactly one entry for every pair of end points of a local edge of a 2D cell, and the
value lists exactly the (cell, local edge) pairs having it, in increasing order (in particular without repetition). -/
theorem C21_all_edges (m : Mesh K) (h : ValidMesh m) (h2 : m.ndim = 2) :
    ∃ all, extractAll2dEdges m = .ok all ∧ (all.map (·.1)).Nodup ∧ ∀ key,
      (all.get key = none ↔ ¬∃ c e, HasEdge m key c e) ∧
      ∀ l, all.get key = some l → l ≠ [] ∧ l.Pairwise (fun a b => a.1 < b.1 ∨ a.1 = b.1 ∧ a.2 < b.2) ∧
        ∀ c e, (c, e) ∈ l ↔ HasEdge m key c e := by
  obtain ⟨all, e1, e2⟩ := extractAll2dEdges_spec h h2
  refine ⟨all, e1, e2.wf, fun key => ⟨?_, fun l hl => ⟨e2.ne key l hl, e2.sorted key l hl, e2.mem key l hl⟩⟩⟩
  rw [e2.none key]; simp

/-- What the extracted 2D features must be: the edges accepted are all edges or those with exactly one cell; each carries the
kind, the points and the marker of the first (cell, local edge) having it. The points are those of the accepted edges, without
repetition, and the limits are their tight bounding box. -/
structure IsFeatures2d (m : Mesh K) (extractAll : Bool) [LinearOrder K] (x : Extracted K) : Prop where
  accepted : ∀ key, (x.edges.get key).isSome ↔
    (∃ c e, HasEdge m key c e) ∧ (extractAll = true ∨ ExactlyOne (HasEdge m key))
  data : ∀ key f, x.edges.get key = some f → ∃ c e, IsFirst (HasEdge m key) c e ∧ EdgeOf m c e f ∧ f.marker = edgeMarker m key
  points : ∀ q, q ∈ x.points ↔ ∃ key f, x.edges.get key = some f ∧ q ∈ f.points
  nodup : x.points.Nodup
  keysNodup : (x.edges.map (·.1)).Nodup
  box : x.points ≠ [] → IsBoundingBox m.ndim (x.points.map (coordsOf m)) x.limits.1 x.limits.2
  noFaces : x.faces = []

theorem isFeatures2d_of [LinearOrder K] {big low : K} {m : Mesh K} (h : ValidMesh m)
    (hb : ∀ p ∈ m.points, ∀ v ∈ p.coords, low ≤ v ∧ v ≤ big)
    {all : HMap EdgeKey (List (Nat × Nat))} (hg : IsGrouping all (HasEdge m))
    {iter : List (EdgeKey × List (Nat × Nat)) → List (EdgeKey × List (Nat × Nat))} (hi : IterOrder iter) {extractAll : Bool}
    {x : Extracted K} {pts : List Nat}
    (h1 : MainInv (EdgeRel m) ((iter all).filter fun e => extractAll || e.2.length == 1) x.edges pts)
    (h2 : PtsInv big low m pts (x.points, x.limits)) (h3 : x.faces = []) : IsFeatures2d m extractAll x := by
  have hmem : ∀ key sh, (key, sh) ∈ (iter all).filter (fun e => extractAll || e.2.length == 1) ↔
      all.get key = some sh ∧ (extractAll = true ∨ sh.length = 1) := by
    intro key sh
    rw [List.mem_filter, hi.mem, ← HMap.get_eq_some_iff hg.wf]
    simp
  refine ⟨?_, ?_, ?_, h2.nodup, h1.wf, fun hne => h2.box h.coords hb hne, h3⟩
  · intro key
    constructor
    · intro hs
      obtain ⟨f, hf⟩ := Option.isSome_iff_exists.1 hs
      obtain ⟨sh, hsh, _⟩ := h1.rel key f hf
      obtain ⟨hget, hacc⟩ := (hmem key sh).1 hsh
      obtain ⟨c, e, _, hfirst, hone⟩ := hg.head hget
      exact ⟨⟨c, e, hfirst.1⟩, hacc.imp id hone.1⟩
    · rintro ⟨⟨c, e, hce⟩, hacc⟩
      cases hget : all.get key with
      | none => exact absurd hce ((hg.none key).1 hget c e)
      | some sh =>
        obtain ⟨_, _, _, _, hone⟩ := hg.head hget
        exact h1.dom (key, sh) ((hmem key sh).2 ⟨hget, hacc.imp id hone.2⟩)
  · intro key f hf
    obtain ⟨sh, hsh, c, e, h0, hr⟩ := h1.rel key f hf
    obtain ⟨hget, _⟩ := (hmem key sh).1 hsh
    obtain ⟨c', e', h0', hfirst, _⟩ := hg.head hget
    rw [h0, Option.some.injEq, Prod.mk.injEq] at h0'
    obtain ⟨rfl, rfl⟩ := h0'
    exact ⟨c, e, hfirst, hr⟩
  · intro q
    exact (h2.mem q).trans (h1.pts q)

/-- **C21.** `extract_features_2d` succeeds on every valid 2D mesh, for any iteration order of the hash map, and returns exactly
the boundary (or all) edges, their points and the bounding box of these. -/
theorem C21_features_2d [LinearOrder K] (big low : K) (m : Mesh K) (h : ValidMesh m) (h2 : m.ndim = 2)
    (hb : ∀ p ∈ m.points, ∀ v ∈ p.coords, low ≤ v ∧ v ≤ big)
    (iter : List (EdgeKey × List (Nat × Nat)) → List (EdgeKey × List (Nat × Nat))) (hi : IterOrder iter) (extractAll : Bool) :
    ∃ all x, extractAll2dEdges m = .ok all ∧ extractFeatures2d iter big low m all extractAll = .ok x ∧ IsFeatures2d m extractAll x := by
  obtain ⟨all, e1, hg⟩ := extractAll2dEdges_spec h h2
  obtain ⟨x, pts, e2, a1, a2, a3⟩ := extractFeatures2d_spec (big := big) (low := low) h h2 hg hi extractAll
  exact ⟨all, x, e1, e2, isFeatures2d_of h hb hg hi a1 a2 a3⟩

/-- The key under which an edge is stored is the key of the edge itself. -/
theorem C21_edge_key [LinearOrder K] (m : Mesh K) (h : ValidMesh m) (extractAll : Bool) (x : Extracted K) (hx : IsFeatures2d m extractAll x)
    (key : EdgeKey) (f : Feature) (hf : x.edges.get key = some f) : f.edgeKey = .ok key := by
  obtain ⟨c, e, hfirst, ⟨cell, hc, hk, hl, hp⟩, _⟩ := hx.data key f hf
  obtain ⟨cell', a, b, hc', _, he, ha, hb, hkey⟩ := hfirst.1
  rw [hc, Option.some.injEq] at hc'; subst hc'
  obtain ⟨h2, ek, hek, hn⟩ := edge_facts cell.kind (by omega)
  rw [hk, Option.some.injEq] at hek
  have e0 := hp 0 (by rw [hek, hn]; omega)
  have e1 := hp 1 (by rw [hek, hn]; omega)
  unfold Feature.edgeKey
  rw [Res.idx_eq_ok.2 (e0.trans ha), Res.bind_ok, Res.idx_eq_ok.2 (e1.trans hb), Res.bind_ok]
  simp only [Res.pure_eq, Res.ok.injEq]
  exact (sort2_eq_iff a b key).2 hkey

/-- A mesh with a quadrilateral, a triangle sharing an edge with it, and a rod.
```text
3-----2
|     |\
|  0  |1\
0-----1--4~~~5
``` -/
def exMesh2 : Mesh ℤ where
  ndim := 2
  points := [⟨0, 0, [0, 0]⟩, ⟨1, 0, [2, 0]⟩, ⟨2, 0, [2, 2]⟩, ⟨3, 0, [0, 2]⟩, ⟨4, 0, [3, 0]⟩, ⟨5, 0, [5, 0]⟩]
  cells := [⟨0, 1, .qua4, [0, 1, 2, 3]⟩, ⟨1, 2, .tri3, [1, 4, 2]⟩, ⟨2, 3, .lin2, [4, 5]⟩]
  markedEdges := [(-10, 1, 0), (-20, 2, 1)]
  markedFaces := []

theorem exMesh2_valid : ValidMesh exMesh2 := ValidMesh.of_check (by decide) (by decide)

/-- Non-vacuity: with boundary edges only, the shared edge (1, 2) is skipped and the marked boundary edge is found. -/
example : ∃ all x, extractAll2dEdges exMesh2 = .ok all ∧ all.get (1, 2) = some [(0, 1), (1, 2)] ∧
    extractFeatures2d id 100 (-100) exMesh2 all false = .ok x ∧ x.edges.length = 5 ∧ x.edges.get (1, 2) = none ∧
    x.edges.get (0, 1) = some ⟨.lin2, [1, 0], -10⟩ ∧ x.limits = ([0, 0], [3, 2]) := by
  refine ⟨_, _, rfl, ?_, rfl, ?_, ?_, ?_, ?_⟩ <;> decide +kernel

/-! ## C22 -/

/-- **C22.** The map of all faces has exactly one entry for every key of a local face of a 3D cell, and the value lists exactly
the (cell, local face) pairs having it, in increasing order. -/
theorem C22_all_faces (m : Mesh K) (h : ValidMesh m) (h3 : m.ndim = 3) :
    ∃ all, extractAllFaces m = .ok all ∧ (all.map (·.1)).Nodup ∧ ∀ key,
      (all.get key = none ↔ ¬∃ c f, HasFace m key c f) ∧
      ∀ l, all.get key = some l → l ≠ [] ∧ l.Pairwise (fun a b => a.1 < b.1 ∨ a.1 = b.1 ∧ a.2 < b.2) ∧
        ∀ c f, (c, f) ∈ l ↔ HasFace m key c f := by
  obtain ⟨all, e1, e2⟩ := extractAllFaces_spec h h3
  refine ⟨all, e1, e2.wf, fun key => ⟨?_, fun l hl => ⟨e2.ne key l hl, e2.sorted key l hl, e2.mem key l hl⟩⟩⟩
  rw [e2.none key]; simp

/-- What the extracted 3D features must be. -/
structure IsFeatures3d (m : Mesh K) (extractAll : Bool) [LinearOrder K] (x : Extracted K) : Prop where
  accepted : ∀ key, (x.faces.get key).isSome ↔
    (∃ c f, HasFace m key c f) ∧ (extractAll = true ∨ ExactlyOne (HasFace m key))
  data : ∀ key f, x.faces.get key = some f → ∃ c k, IsFirst (HasFace m key) c k ∧ FaceOf m c k f ∧ f.marker = faceMarker m key
  edges : ∀ key, (x.edges.get key).isSome ↔ ∃ fkey face e, x.faces.get fkey = some face ∧ HasFaceEdge face key e
  edgeData : ∀ key f, x.edges.get key = some f → ∃ fkey face e, x.faces.get fkey = some face ∧ HasFaceEdge face key e ∧
    FaceEdgeOf face e f ∧ f.marker = edgeMarker m key
  points : ∀ q, q ∈ x.points ↔ ∃ key f, x.faces.get key = some f ∧ q ∈ f.points
  nodup : x.points.Nodup
  keysNodup : (x.faces.map (·.1)).Nodup ∧ (x.edges.map (·.1)).Nodup
  box : x.points ≠ [] → IsBoundingBox m.ndim (x.points.map (coordsOf m)) x.limits.1 x.limits.2

theorem isFeatures3d_of [LinearOrder K] {big low : K} {m : Mesh K} (h : ValidMesh m)
    (hb : ∀ p ∈ m.points, ∀ v ∈ p.coords, low ≤ v ∧ v ≤ big)
    {all : HMap FaceKey (List (Nat × Nat))} (hg : IsGrouping all (HasFace m)) {extractAll : Bool}
    {x : Extracted K} {pts : List Nat} {L : List (FaceKey × List (Nat × Nat))}
    (hmem : ∀ key sh, (key, sh) ∈ L ↔ all.get key = some sh ∧ (extractAll = true ∨ sh.length = 1))
    (h1 : MainInv (FaceRel m) L x.faces pts) (h2 : PtsInv big low m pts (x.points, x.limits))
    (h3 : EdgesInv m (fun f e => (∃ key, x.faces.get key = some f) ∧ e < f.kind.nedge) x.edges) : IsFeatures3d m extractAll x := by
  refine ⟨?_, ?_, ?_, ?_, ?_, h2.nodup, ⟨h1.wf, h3.wf⟩, fun hne => h2.box h.coords hb hne⟩
  · intro key
    constructor
    · intro hs
      obtain ⟨f, hf⟩ := Option.isSome_iff_exists.1 hs
      obtain ⟨sh, hsh, _⟩ := h1.rel key f hf
      obtain ⟨hget, hacc⟩ := (hmem key sh).1 hsh
      obtain ⟨c, e, _, hfirst, hone⟩ := hg.head hget
      exact ⟨⟨c, e, hfirst.1⟩, hacc.imp id hone.1⟩
    · rintro ⟨⟨c, e, hce⟩, hacc⟩
      cases hget : all.get key with
      | none => exact absurd hce ((hg.none key).1 hget c e)
      | some sh =>
        obtain ⟨_, _, _, _, hone⟩ := hg.head hget
        exact h1.dom (key, sh) ((hmem key sh).2 ⟨hget, hacc.imp id hone.2⟩)
  · intro key f hf
    obtain ⟨sh, hsh, c, e, h0, hr⟩ := h1.rel key f hf
    obtain ⟨hget, _⟩ := (hmem key sh).1 hsh
    obtain ⟨c', e', h0', hfirst, _⟩ := hg.head hget
    rw [h0, Option.some.injEq, Prod.mk.injEq] at h0'
    obtain ⟨rfl, rfl⟩ := h0'
    exact ⟨c, e, hfirst, hr⟩
  · intro key
    constructor
    · intro hs
      obtain ⟨f, hf⟩ := Option.isSome_iff_exists.1 hs
      obtain ⟨face, e, ⟨⟨fkey, hfk⟩, _⟩, hh, _⟩ := h3.src key f hf
      exact ⟨fkey, face, e, hfk, hh⟩
    · rintro ⟨fkey, face, e, hfk, hh⟩
      exact h3.all face e key ⟨⟨fkey, hfk⟩, hh.choose_spec.choose_spec.1⟩ hh
  · intro key f hf
    obtain ⟨face, e, ⟨⟨fkey, hfk⟩, _⟩, hr⟩ := h3.src key f hf
    exact ⟨fkey, face, e, hfk, hr⟩
  · intro q
    exact (h2.mem q).trans (h1.pts q)

/-- **C22.** `extract_features_3d` succeeds on every valid 3D mesh and returns exactly the boundary (or all) faces, their edges,
their points and the bounding box of these. -/
theorem C22_features_3d [LinearOrder K] (big low : K) (m : Mesh K) (h : ValidMesh m) (h3 : m.ndim = 3)
    (hb : ∀ p ∈ m.points, ∀ v ∈ p.coords, low ≤ v ∧ v ≤ big)
    (iter : List FaceKey → List FaceKey) (hi : IterOrder iter) (extractAll : Bool) :
    ∃ all x, extractAllFaces m = .ok all ∧ extractFeatures3d iter big low m all extractAll = .ok x ∧ IsFeatures3d m extractAll x := by
  obtain ⟨all, e1, hg⟩ := extractAllFaces_spec h h3
  obtain ⟨x, pts, L, e2, a0, a1, a2, a3⟩ := extractFeatures3d_spec (big := big) (low := low) h h3 hg hi extractAll
  exact ⟨all, x, e1, e2, isFeatures3d_of h hb hg a0 a1 a2 a3⟩

/-- **C22.** The 3D extraction does not depend on the iteration order of the hash map (the keys are sorted first). -/
theorem C22_deterministic [LinearOrder K] (big low : K) (m : Mesh K) (all : HMap FaceKey (List (Nat × Nat))) (extractAll : Bool)
    (iter iter' : List FaceKey → List FaceKey) (hi : IterOrder iter) (hi' : IterOrder iter') :
    extractFeatures3d iter big low m all extractAll = extractFeatures3d iter' big low m all extractAll := by
  unfold extractFeatures3d
  rw [sorted_keys_eq hi hi']

/-- Corner points of a local face. -/
def faceCorners (cell : Cell) (f : Nat) : List Nat :=
  (List.range (if cell.kind.faceNnode > 3 then 4 else 3)).map fun i => cell.points.getD (faceNode cell.kind f i) 0

/-- **C22.** Two local faces with four (or three) identifying nodes get the same key exactly when the sets of identifying
points agree. For the Tet4 and the Hex kinds the identifying nodes are the corners. -/
theorem C22_same_key_iff (m : Mesh K) (h : ValidMesh m) (c f c' f' : Nat) (cell cell' : Cell) (key key' : FaceKey)
    (hc : m.cells[c]? = some cell) (hc' : m.cells[c']? = some cell') (hsame : cell.kind.faceNnode > 3 ↔ cell'.kind.faceNnode > 3)
    (hk : HasFace m key c f) (hk' : HasFace m key' c' f') :
    key = key' ↔ (faceCorners cell f).Perm (faceCorners cell' f') := by
  have main : ∀ (c f : Nat) (cell : Cell) (key : FaceKey), m.cells[c]? = some cell → HasFace m key c f →
      key.toList.Pairwise (· ≤ ·) ∧ key.toList.Perm (faceCorners cell f ++ if cell.kind.faceNnode > 3 then [] else [usizeMax]) := by
    intro c f cell key hc hk
    obtain ⟨cell0, p0, p1, p2, p3, hc0, _, _, e0, e1, e2, e3, hs, hp⟩ := hk
    rw [hc, Option.some.injEq] at hc0; subst hc0
    refine ⟨hs, hp.trans ?_⟩
    unfold faceCorners
    split
    · rename_i h4
      rw [if_pos h4] at e3
      simp [List.range_succ, List.getD_eq_getElem?_getD, e0, e1, e2, e3]
    · rename_i h4
      rw [if_neg h4] at e3
      simp [List.range_succ, List.getD_eq_getElem?_getD, e0, e1, e2, e3]
  obtain ⟨a1, a2⟩ := main c f cell key hc hk
  obtain ⟨b1, b2⟩ := main c' f' cell' key' hc' hk'
  have e : (if cell.kind.faceNnode > 3 then ([] : List Nat) else [usizeMax]) = if cell'.kind.faceNnode > 3 then [] else [usizeMax] := by
    simp only [hsame]
  constructor
  · rintro rfl
    have := (a2.symm.trans b2)
    rw [e] at this
    exact (List.perm_append_right_iff _).1 this
  · intro hp
    apply FaceKey.toList_inj
    refine List.Perm.eq_of_pairwise (le := (· ≤ ·)) (fun a b _ _ h h' => le_antisymm h h') a1 b1 ?_
    refine a2.trans (List.Perm.trans ?_ b2.symm)
    rw [e]
    exact hp.append_right _

/-- For these kinds the identifying nodes of a face are its corners: the corner nodes of the cell come first in its numbering. -/
theorem C22_corner_kinds (k : GeoKind) (hk : k ∈ [GeoKind.tet4, .hex8, .hex20, .hex32]) (f i : Nat) (hf : f < k.nface)
    (hi : i < if k.faceNnode > 3 then 4 else 3) : faceNode k f i < (if k.classOf = .hex then 8 else 4) := by
  have : ∀ f < k.nface, ∀ i < (if k.faceNnode > 3 then 4 else 3), faceNode k f i < (if k.classOf = .hex then 8 else 4) := by
    cases k <;> first | exact absurd hk (by decide) | decide +kernel
  exact this f hf i hi

/-- Two quadratic tetrahedra glued along a face (points 1, 2, 3 and the middle points 5, 8, 9). -/
def twoTet10 : Mesh ℤ where
  ndim := 3
  points := [⟨0, 0, [0, 0, 0]⟩, ⟨1, 0, [2, 0, 0]⟩, ⟨2, 0, [0, 2, 0]⟩, ⟨3, 0, [0, 0, 2]⟩, ⟨4, 0, [1, 0, 0]⟩, ⟨5, 0, [1, 1, 0]⟩,
    ⟨6, 0, [0, 1, 0]⟩, ⟨7, 0, [0, 0, 1]⟩, ⟨8, 0, [1, 0, 1]⟩, ⟨9, 0, [0, 1, 1]⟩, ⟨10, 0, [2, 2, 2]⟩, ⟨11, 0, [1, 1, 2]⟩,
    ⟨12, 0, [2, 1, 1]⟩, ⟨13, 0, [1, 2, 1]⟩]
  cells := [⟨0, 1, .tet10, [0, 1, 2, 3, 4, 5, 6, 7, 8, 9]⟩, ⟨1, 1, .tet10, [3, 10, 1, 2, 11, 12, 8, 9, 13, 5]⟩]
  markedEdges := []
  markedFaces := []

/-- **C22, negative result.** For quadratic (and cubic) tetrahedra the fourth identifying node is a node on an edge, which depends on
the local numbering: the internal face of this valid mesh gets two different keys, and both copies, with the same six points,
are reported as boundary faces. -/
theorem C22_tet10_internal_face_reported : ValidMesh twoTet10 ∧ ∃ all x key key' f f',
    extractAllFaces twoTet10 = .ok all ∧ extractFeatures3d id 100 (-100) twoTet10 all false = .ok x ∧
    x.faces.length = 8 ∧ key ≠ key' ∧ x.faces.get key = some f ∧ x.faces.get key' = some f' ∧ f.points.Perm f'.points := by
  refine ⟨ValidMesh.of_check (by decide) (by decide), _, _, (1, 2, 3, 5), (1, 2, 3, 9), ⟨.tri6, [1, 2, 3, 5, 9, 8], 0⟩,
    ⟨.tri6, [3, 2, 1, 9, 5, 8], 0⟩, rfl, rfl, ?_, ?_, ?_, ?_, ?_⟩ <;> decide +kernel

/-- Two linear tetrahedra glued along a face. -/
def twoTet4 : Mesh ℤ where
  ndim := 3
  points := [⟨0, 0, [0, 0, 0]⟩, ⟨1, 0, [2, 0, 0]⟩, ⟨2, 0, [0, 2, 0]⟩, ⟨3, 0, [0, 0, 2]⟩, ⟨4, 0, [2, 2, 2]⟩]
  cells := [⟨0, 1, .tet4, [0, 1, 2, 3]⟩, ⟨1, 1, .tet4, [3, 4, 1, 2]⟩]
  markedEdges := [(-5, 3, 0)]
  markedFaces := [(-7, 0, 1, 2, usizeMax)]

/-- Non-vacuity: the shared face is recognised and skipped. -/
example : ValidMesh twoTet4 ∧ ∃ all x, extractAllFaces twoTet4 = .ok all ∧ all.get (1, 2, 3, usizeMax) = some [(0, 3), (1, 0)] ∧
    extractFeatures3d List.reverse 100 (-100) twoTet4 all false = .ok x ∧ x.faces.length = 6 ∧ x.edges.length = 9 ∧
    x.faces.get (0, 1, 2, usizeMax) = some ⟨.tri3, [0, 2, 1], -7⟩ ∧ (x.edges.get (0, 3)).map (·.marker) = some (-5) := by
  refine ⟨ValidMesh.of_check (by decide) (by decide), _, _, rfl, ?_, rfl, ?_, ?_, ?_, ?_⟩ <;> decide +kernel

/-! ## C23 -/

theorem getNeighbors2d_spec {m : Mesh K} (h : ValidMesh m) (h2 : m.ndim = 2) {all : HMap EdgeKey (List (Nat × Nat))}
    (hg : IsGrouping all (HasEdge m)) (cellId : Nat) (cell : Cell) (hc : m.cells[cellId]? = some cell) (hk : cell.kind.ndim ≤ 2) :
    ∃ r, getNeighbors2d m all cellId = .ok r ∧
      ∀ e c' e', (e, c', e') ∈ r ↔ c' ≠ cellId ∧ ∃ key, HasEdge m key cellId e ∧ HasEdge m key c' e' := by
  have hd : ∀ e < cell.kind.nedge, cell.kind.ndim = 2 := by
    intro e he
    generalize cell.kind = k at *
    cases k <;> simp [GeoKind.nedge, GeoKind.ndim] at *
  obtain ⟨r, e1, e2⟩ := Res.foldlM_range (fun (res : List (Nat × Nat × Nat)) e => do
      let key ← localEdgeKey cell.kind cell.points e
      let shares ← unwrap (all.get key)
      pure (res ++ (shares.filter (fun s => s.1 ≠ cellId)).map fun s => (e, s.1, s.2))) cell.kind.nedge []
    (fun n r => ∀ e c' e', (e, c', e') ∈ r ↔ e < n ∧ c' ≠ cellId ∧ ∃ key, HasEdge m key cellId e ∧ HasEdge m key c' e')
    (by simp) (by
      intro e s he hs
      obtain ⟨a, b, ha, hb, hab⟩ := localEdgeKey_ok cell.kind cell.points e (h.nnode cell (List.mem_of_getElem? hc)) he
      have hkey := (sort2_eq_iff a b (sort2 a b)).1 rfl
      have hhas : HasEdge m (sort2 a b) cellId e := ⟨cell, a, b, hc, hd e he, he, ha, hb, hkey⟩
      have huniq : ∀ key, HasEdge m key cellId e → key = sort2 a b := by
        rintro key ⟨cell', a', b', hc', _, _, ha', hb', hk'⟩
        rw [hc, Option.some.injEq] at hc'; subst hc'
        rw [ha, Option.some.injEq] at ha'; rw [hb, Option.some.injEq] at hb'
        subst ha'; subst hb'
        exact ((sort2_eq_iff a b key).2 hk').symm
      cases hget : all.get (sort2 a b) with
      | none => exact absurd hhas ((hg.none _).1 hget _ _)
      | some l =>
        refine ⟨s ++ (l.filter (fun s => s.1 ≠ cellId)).map fun s => (e, s.1, s.2), by rw [hab, Res.bind_ok, hget]; rfl, ?_⟩
        intro e0 c' e'
        rw [List.mem_append, hs, List.mem_map]
        constructor
        · rintro (⟨hlt, hr⟩ | ⟨⟨c0, e1⟩, hm, heq⟩)
          · exact ⟨by omega, hr⟩
          · rw [List.mem_filter] at hm
            simp only [Prod.mk.injEq] at heq
            obtain ⟨rfl, rfl, rfl⟩ := heq
            exact ⟨by omega, by simpa using hm.2, _, hhas, (hg.mem _ l hget _ _).1 hm.1⟩
        · rintro ⟨hlt, hne, key, hk1, hk2⟩
          by_cases h' : e0 = e
          · subst h'
            right
            rw [huniq key hk1] at hk2
            refine ⟨(c', e'), ?_, rfl⟩
            rw [List.mem_filter]
            exact ⟨(hg.mem _ l hget _ _).2 hk2, by simpa using hne⟩
          · left; exact ⟨by omega, hne, key, hk1, hk2⟩)
  refine ⟨r, ?_, ?_⟩
  · unfold getNeighbors2d
    rw [if_neg (by simpa using h2), Res.idx_eq_ok.2 hc, Res.bind_ok]
    exact e1
  · intro e c' e'
    rw [e2]
    constructor
    · exact fun h => h.2
    · intro hr
      have hr' := hr
      obtain ⟨_, key, ⟨cell', a, b, hc', _, he, _⟩, _⟩ := hr'
      rw [hc, Option.some.injEq] at hc'; subst hc'
      exact ⟨he, hr⟩

/-- **C23.** `get_neighbors_2d(c)` lists exactly the triples (local edge of `c`, other cell, local edge of the other cell) with the same
end points. -/
theorem C23_neighbors (m : Mesh K) (h : ValidMesh m) (h2 : m.ndim = 2) (c : Nat) (cell : Cell) (hc : m.cells[c]? = some cell)
    (hk : cell.kind.ndim ≤ 2) :
    ∃ all r, extractAll2dEdges m = .ok all ∧ getNeighbors2d m all c = .ok r ∧
      ∀ e c' e', (e, c', e') ∈ r ↔ c' ≠ c ∧ ∃ key, HasEdge m key c e ∧ HasEdge m key c' e' := by
  obtain ⟨all, e1, hg⟩ := extractAll2dEdges_spec h h2
  obtain ⟨r, a1, a2⟩ := getNeighbors2d_spec h h2 hg c cell hc hk
  exact ⟨all, r, e1, a1, a2⟩

/-- **C23.** The neighbour relation is symmetric, with the two local edges swapped. -/
theorem C23_symmetric (m : Mesh K) (h : ValidMesh m) (all : HMap EdgeKey (List (Nat × Nat))) (hall : extractAll2dEdges m = .ok all)
    (hk : ∀ cell ∈ m.cells, cell.kind.ndim ≤ 2) (c c' e e' : Nat) (r r' : List (Nat × Nat × Nat))
    (hr : getNeighbors2d m all c = .ok r) (hr' : getNeighbors2d m all c' = .ok r') : (e, c', e') ∈ r ↔ (e', c, e) ∈ r' := by
  have h2 : m.ndim = 2 := by
    by_contra hn; unfold extractAll2dEdges at hall; rw [if_pos hn] at hall; simp at hall
  obtain ⟨all', e1, hg⟩ := extractAll2dEdges_spec h h2
  rw [hall, Res.ok.injEq] at e1; subst e1
  have hcell : ∀ c r, getNeighbors2d m all c = .ok r → ∃ cell, m.cells[c]? = some cell := by
    intro c r hr
    unfold getNeighbors2d at hr
    rw [if_neg (by simpa using h2), Res.bind_eq_ok] at hr
    obtain ⟨cell, hc, _⟩ := hr
    exact ⟨cell, Res.idx_eq_ok.1 hc⟩
  obtain ⟨cell, hc⟩ := hcell c r hr
  obtain ⟨cell', hc'⟩ := hcell c' r' hr'
  obtain ⟨r1, a1, a2⟩ := getNeighbors2d_spec h h2 hg c cell hc (hk _ (List.mem_of_getElem? hc))
  obtain ⟨r2, b1, b2⟩ := getNeighbors2d_spec h h2 hg c' cell' hc' (hk _ (List.mem_of_getElem? hc'))
  rw [hr, Res.ok.injEq] at a1; rw [hr', Res.ok.injEq] at b1
  subst a1; subst b1
  rw [a2, b2]
  constructor
  · rintro ⟨hne, key, h1, h2⟩; exact ⟨hne.symm, key, h2, h1⟩
  · rintro ⟨hne, key, h1, h2⟩; exact ⟨hne.symm, key, h2, h1⟩

/-- Non-vacuity. -/
example : ∃ all, extractAll2dEdges exMesh2 = .ok all ∧ getNeighbors2d exMesh2 all 0 = .ok [(1, 1, 2)] ∧
    getNeighbors2d exMesh2 all 1 = .ok [(2, 0, 1)] ∧ getNeighbors2d exMesh2 all 2 = .ok [] := by
  refine ⟨_, rfl, ?_, ?_, ?_⟩ <;> decide +kernel

end Gemlab.Props.Features
