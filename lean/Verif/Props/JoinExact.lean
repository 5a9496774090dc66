import Verif.Spec.Assembly
import Verif.Props.Join

/-!
# Joining meshes without duplicated points
-/
namespace Gemlab.Mesh
open Gemlab Gemlab.Shapes Gemlab.Spec Gemlab.Props.Mesh Gemlab.Props.Features
open Classical
noncomputable section

variable {A B M : Mesh ℝ} {φ : Nat → Nat}

/-! ## The points -/

theorem IsJoin.npoint (h : IsJoin A B M φ) : M.points.length = A.points.length + (newOnes B.points.length A.points.length φ).length := by
  rw [h.points]; simp

theorem IsJoin.coordsA (h : IsJoin A B M φ) {i : Nat} (hi : i < A.points.length) : coordsOf M i = coordsOf A i := by
  unfold coordsOf; rw [h.points, List.getElem?_append_left hi]

theorem IsJoin.new (h : IsJoin A B M φ) {p : Nat} (hp : p < M.points.length) (hA : A.points.length ≤ p) :
    ∃ j < B.points.length, φ j = p ∧ coordsOf M p = coordsOf B j := by
  rw [h.npoint] at hp
  have hk : p - A.points.length < (newOnes B.points.length A.points.length φ).length := by omega
  have e := congrArg (fun l => l[p - A.points.length]?) h.numbers
  simp only [List.getElem?_map, List.getElem?_eq_getElem hk, Option.map_some] at e
  rw [List.getElem?_range' (by simpa using hk)] at e
  have e : φ (newOnes B.points.length A.points.length φ)[p - A.points.length] = p := by
    simp at e; omega
  have hj := List.getElem_mem hk
  unfold newOnes at hj
  rw [List.mem_filter, List.mem_range] at hj
  refine ⟨_, hj.1, e, ?_⟩
  unfold coordsOf
  rw [h.points, List.getElem?_append_right hA, List.getElem?_map, List.getElem?_eq_getElem hk]
  rfl

/-- The conditions under which the join is exact. -/
structure Exact (A B : Mesh ℝ) : Prop where
  far : ∀ i < A.points.length, ∀ j < B.points.length, SameOrFar A.ndim (coordsOf A i) (coordsOf B j)
  inside : ∀ x, IsExtracted A false x → ∀ i < A.points.length, InFeatureBox A x (coordsOf A i)

theorem not_close_of_far {dim : Nat} {x y : List ℝ} (h : SameOrFar dim x y) (hc : Close dim x y) : x = y := by
  rcases h with h | h
  · exact h
  · unfold Close at hc; linarith

theorem not_apart_self {dim : Nat} {x : List ℝ} : ¬ Apart dim x x := by
  rintro ⟨d, -, hd⟩
  rw [sub_self, abs_zero] at hd
  norm_num at hd

theorem IsJoin.coordsB (h : IsJoin A B M φ) (hA : ValidMesh A) (hx : Exact A B) {j : Nat} (hj : j < B.points.length) :
    φ j < M.points.length ∧ coordsOf M (φ j) = coordsOf B j := by
  obtain ⟨h1, -, h3⟩ := C20_coordinates hA h j hj
  refine ⟨h1, ?_⟩
  rcases Nat.lt_or_ge (φ j) A.points.length with hlt | hge
  · rw [h.coordsA hlt]
    exact not_close_of_far (hx.far _ hlt _ hj) (h.near j hj hlt)
  · exact h3 hge

theorem IsJoin.distinct (h : IsJoin A B M φ) (hA : Proper A) (hB : Proper B) (hx : Exact A B) :
    ∀ p < M.points.length, ∀ q < M.points.length, coordsOf M p = coordsOf M q → p = q := by
  have key : ∀ p < A.points.length, ∀ j < B.points.length, A.points.length ≤ φ j → coordsOf A p = coordsOf B j → False := by
    intro p hp j hj hφ he
    obtain ⟨x, hx1, hx2⟩ := h.far j hj hφ
    have := hx2 p hp (hx.inside x hx1 p hp)
    rw [he] at this
    exact not_apart_self this
  intro p hp q hq he
  rcases Nat.lt_or_ge p A.points.length with hpa | hpa
  · rcases Nat.lt_or_ge q A.points.length with hqa | hqa
    · rw [h.coordsA hpa, h.coordsA hqa] at he
      exact hA.distinct p hpa q hqa he
    · obtain ⟨j, hj, rfl, e⟩ := h.new hq hqa
      rw [h.coordsA hpa, e] at he
      exact (key p hpa j hj hqa he).elim
  · obtain ⟨i, hi, rfl, e⟩ := h.new hp hpa
    rcases Nat.lt_or_ge q A.points.length with hqa | hqa
    · rw [h.coordsA hqa, e] at he
      exact (key q hqa i hi hpa he.symm).elim
    · obtain ⟨j, hj, rfl, e'⟩ := h.new hq hqa
      rw [e, e'] at he
      rw [hB.distinct i hi j hj he]

theorem IsJoin.geom (h : IsJoin A B M φ) (hA : ValidMesh A) (hB : ValidMesh B) (hx : Exact A B) : geomCells M = geomCells A ++ geomCells B := by
  unfold geomCells
  rw [h.cells, List.map_append]
  congr 1
  · apply List.map_congr_left
    intro c hc
    rw [show c.points.map (coordsOf M) = c.points.map (coordsOf A) from List.map_congr_left fun p hp => h.coordsA (hA.inRange c hc p hp)]
  · apply List.ext_getElem (by simp)
    intro i h1 h2
    simp only [List.getElem_map, List.getElem_mapIdx, List.map_map, Prod.mk.injEq, true_and]
    apply List.map_congr_left
    intro p hp
    exact (h.coordsB hA hx (hB.inRange _ (List.getElem_mem _) p hp)).2

theorem IsJoin.used (h : IsJoin A B M φ) (hA : Proper A) (hB : Proper B) : ∀ p < M.points.length, ∃ c ∈ M.cells, p ∈ c.points := by
  intro p hp
  rcases Nat.lt_or_ge p A.points.length with hpa | hpa
  · obtain ⟨c, hc, hpc⟩ := hA.used p hpa
    exact ⟨c, by rw [h.cells]; exact List.mem_append_left _ hc, hpc⟩
  · obtain ⟨j, hj, rfl, -⟩ := h.new hp hpa
    obtain ⟨c, hc, hpc⟩ := hB.used j hj
    obtain ⟨k, hk, rfl⟩ := List.mem_iff_getElem.1 hc
    refine ⟨{ id := A.cells.length + k, marker := B.cells[k].marker, kind := B.cells[k].kind, points := B.cells[k].points.map φ }, ?_, List.mem_map.2 ⟨j, hpc, rfl⟩⟩
    rw [h.cells]
    refine List.mem_append_right _ (List.mem_iff_getElem.2 ⟨k, by simpa using hk, ?_⟩)
    simp

/-! ## Marked edges and faces -/

theorem once_edges (hM : Proper M) {mk mk' : Int} {k : Nat × Nat} (h : (mk, k) ∈ M.markedEdges) (h' : (mk', k) ∈ M.markedEdges) : mk = mk' := by
  have := List.inj_on_of_nodup_map hM.edgesOnce h h' rfl
  exact congrArg Prod.fst this

theorem once_faces (hM : Proper M) {mk mk' : Int} {k : Nat × Nat × Nat × Nat} (h : (mk, k) ∈ M.markedFaces) (h' : (mk', k) ∈ M.markedFaces) : mk = mk' := by
  have := List.inj_on_of_nodup_map hM.facesOnce h h' rfl
  exact congrArg Prod.fst this

/-- What `joinedEdgeMark` says when the marks are unique. -/
theorem joinedEdgeMark_iff (hA : Proper A) {p q : Nat} (hpq : p ≤ q) (mk : Int) :
    joinedEdgeMark A B φ (p, q) = some mk ↔ (mk, p, q) ∈ A.markedEdges ∨ ((∀ mk', (mk', p, q) ∉ A.markedEdges) ∧
      ∃ e, (B.markedEdges.find? fun e => (φ e.2.1, φ e.2.2) = (p, q) ∨ (φ e.2.2, φ e.2.1) = (p, q)) = some e ∧ e.1 = mk) := by
  have hmem : ∀ e, e ∈ (A.markedEdges.filter fun e => (e.2.1, e.2.2) = (p, q) ∨ (e.2.2, e.2.1) = (p, q)) ↔ e ∈ A.markedEdges ∧ e.2 = (p, q) := by
    rintro ⟨m, a, b⟩
    simp only [List.mem_filter, decide_eq_true_eq]
    refine and_congr_right fun hm => ?_
    have := (hA.edges m a b hm).1
    simp only [Prod.mk.injEq]
    constructor
    · rintro (⟨rfl, rfl⟩ | ⟨rfl, rfl⟩)
      · exact ⟨rfl, rfl⟩
      · exact ⟨by omega, by omega⟩
    · rintro ⟨rfl, rfl⟩; exact Or.inl ⟨rfl, rfl⟩
  unfold joinedEdgeMark
  cases hl : (A.markedEdges.filter fun e => (e.2.1, e.2.2) = (p, q) ∨ (e.2.2, e.2.1) = (p, q)).getLast? with
  | none =>
    rw [List.getLast?_eq_none_iff] at hl
    have hno : ∀ mk', (mk', p, q) ∉ A.markedEdges := by
      intro mk' hm
      have := (hmem (mk', p, q)).2 ⟨hm, rfl⟩
      rw [hl] at this
      simp at this
    simp only [Option.map_none, Option.none_or, Option.map_eq_some_iff]
    constructor
    · exact fun h => Or.inr ⟨hno, h⟩
    · rintro (h | ⟨-, h⟩)
      · exact absurd h (hno mk)
      · exact h
  | some e =>
    obtain ⟨h1, h2⟩ := (hmem e).1 (List.mem_of_getLast? hl)
    obtain ⟨m, k⟩ := e
    simp only at h2
    subst h2
    simp only [Option.map_some, Option.some_or, Option.some.injEq]
    constructor
    · rintro rfl; exact Or.inl h1
    · rintro (h | ⟨h, -⟩)
      · exact once_edges hA h1 h
      · exact absurd h1 (h m)

theorem perm_sorted4 {p q r s p' q' r' s' : Nat} (h : [p, q, r, s].Pairwise (· ≤ ·)) (h' : [p', q', r', s'].Pairwise (· ≤ ·))
    (hp : [p, q, r, s].Perm [p', q', r', s']) : (p, q, r, s) = (p', q', r', s') := by
  have := hp.eq_of_pairwise (fun a b _ _ h1 h2 => Nat.le_antisymm h1 h2) h h'
  simpa using this

theorem joinedFaceMark_iff (hA : Proper A) {p q r s : Nat} (hk : [p, q, r, s].Pairwise (· ≤ ·)) (mk : Int) :
    joinedFaceMark A B φ (p, q, r, s) = some mk ↔ (mk, p, q, r, s) ∈ A.markedFaces ∨ ((∀ mk', (mk', p, q, r, s) ∉ A.markedFaces) ∧
      ∃ e, (B.markedFaces.find? fun e => [φ e.2.1, φ e.2.2.1, φ e.2.2.2.1, φ e.2.2.2.2].Perm [p, q, r, s]) = some e ∧ e.1 = mk) := by
  have hmem : ∀ e, e ∈ (A.markedFaces.filter fun e => [e.2.1, e.2.2.1, e.2.2.2.1, e.2.2.2.2].Perm [p, q, r, s]) ↔ e ∈ A.markedFaces ∧ e.2 = (p, q, r, s) := by
    rintro ⟨m, a, b, c, d⟩
    simp only [List.mem_filter, decide_eq_true_eq]
    refine and_congr_right fun hm => ?_
    have := (hA.faces m a b c d hm).1
    constructor
    · intro hp
      exact perm_sorted4 this hk hp
    · intro he
      simp only [Prod.mk.injEq] at he
      obtain ⟨rfl, rfl, rfl, rfl⟩ := he
      exact List.Perm.refl _
  unfold joinedFaceMark
  cases hl : (A.markedFaces.filter fun e => [e.2.1, e.2.2.1, e.2.2.2.1, e.2.2.2.2].Perm [p, q, r, s]).getLast? with
  | none =>
    rw [List.getLast?_eq_none_iff] at hl
    have hno : ∀ mk', (mk', p, q, r, s) ∉ A.markedFaces := by
      intro mk' hm
      have := (hmem (mk', p, q, r, s)).2 ⟨hm, rfl⟩
      rw [hl] at this
      simp at this
    simp only [Option.map_none, Option.none_or, Option.map_eq_some_iff]
    constructor
    · exact fun h => Or.inr ⟨hno, h⟩
    · rintro (h | ⟨-, h⟩)
      · exact absurd h (hno mk)
      · exact h
  | some e =>
    obtain ⟨h1, h2⟩ := (hmem e).1 (List.mem_of_getLast? hl)
    obtain ⟨m, k⟩ := e
    simp only at h2
    subst h2
    simp only [Option.map_some, Option.some_or, Option.some.injEq]
    constructor
    · rintro rfl; exact Or.inl h1
    · rintro (h | ⟨h, -⟩)
      · exact once_faces hA h1 h
      · exact absurd h1 (h m)

theorem IsJoin.inj (h : IsJoin A B M φ) (hA : ValidMesh A) (hB : Proper B) (hx : Exact A B) {i j : Nat} (hi : i < B.points.length) (hj : j < B.points.length)
    (he : φ i = φ j) : i = j := by
  apply hB.distinct i hi j hj
  rw [← (h.coordsB hA hx hi).2, ← (h.coordsB hA hx hj).2, he]

theorem IsJoin.proper (h : IsJoin A B M φ) (hA : Proper A) (hB : Proper B) (hx : Exact A B) : Proper M where
  valid := C20_valid hA.valid hB.valid h
  dims := by rw [h.ndim.1]; exact hA.dims
  distinct := h.distinct hA hB hx
  used := h.used hA hB
  edges := by
    intro mk p q hm
    obtain ⟨h1, h2⟩ := (h.edges mk p q).1 hm
    refine ⟨h1, ?_⟩
    rcases (joinedEdgeMark_iff hA h1 mk).1 h2 with h3 | ⟨-, e, h3, -⟩
    · have := (hA.edges mk p q h3).2
      rw [h.npoint]; omega
    · have hm := List.mem_of_find?_eq_some h3
      have hp := List.find?_some h3
      simp only [decide_eq_true_eq, Prod.mk.injEq] at hp
      obtain ⟨m, a, b⟩ := e
      obtain ⟨hab, hb⟩ := hB.edges m a b hm
      have ha : a < B.points.length := by omega
      rcases hp with ⟨-, hq⟩ | ⟨-, hq⟩
      · rw [← hq]; exact (h.coordsB hA.valid hx hb).1
      · rw [← hq]; exact (h.coordsB hA.valid hx ha).1
  edgesOnce := by
    rw [List.nodup_iff_pairwise_ne, List.pairwise_map]
    exact h.edgesSorted.imp fun h => h.2
  faces := by
    intro mk p q r s hm
    obtain ⟨h1, h2⟩ := (h.faces mk p q r s).1 hm
    refine ⟨h1, ?_⟩
    rcases (joinedFaceMark_iff hA h1 mk).1 h2 with h3 | ⟨-, e, h3, -⟩
    · have := (hA.faces mk p q r s h3).2
      rw [h.npoint]; omega
    · have hm := List.mem_of_find?_eq_some h3
      have hp := List.find?_some h3
      simp only [decide_eq_true_eq] at hp
      obtain ⟨m, a, b, c, d⟩ := e
      obtain ⟨hab, hd⟩ := hB.faces m a b c d hm
      have hs : s ∈ [φ a, φ b, φ c, φ d] := hp.mem_iff.2 (by simp)
      simp only [List.pairwise_cons, List.mem_cons, List.not_mem_nil, or_false] at hab
      obtain ⟨g1, g2, g3, -⟩ := hab
      have ha : a ≤ d := g1 d (by simp)
      have hb : b ≤ d := g2 d (by simp)
      have hc : c ≤ d := g3 d rfl
      simp only [List.mem_cons, List.not_mem_nil, or_false] at hs
      rcases hs with rfl | rfl | rfl | rfl <;> exact (h.coordsB hA.valid hx (by omega)).1
  facesOnce := by
    rw [List.nodup_iff_pairwise_ne, List.pairwise_map]
    exact h.facesSorted.imp fun h => h.2

theorem IsJoin.edgeMarked (h : IsJoin A B M φ) (hA : Proper A) (hB : Proper B) (hx : Exact A B) (mk : Int) (x y : List ℝ) :
    EdgeMarked M mk x y ↔ EdgeMarked A mk x y ∨ ((∀ mk', ¬ EdgeMarked A mk' x y) ∧ EdgeMarked B mk x y) := by
  have hM := h.proper hA hB hx
  have toA : ∀ m p q, (m, p, q) ∈ A.markedEdges → coordsOf M p = coordsOf A p ∧ coordsOf M q = coordsOf A q := by
    intro m p q hm
    obtain ⟨h1, h2⟩ := hA.edges m p q hm
    exact ⟨h.coordsA (by omega), h.coordsA h2⟩
  have toB : ∀ m p q, (m, p, q) ∈ B.markedEdges → (φ p < M.points.length ∧ coordsOf M (φ p) = coordsOf B p) ∧
      (φ q < M.points.length ∧ coordsOf M (φ q) = coordsOf B q) := by
    intro m p q hm
    obtain ⟨h1, h2⟩ := hB.edges m p q hm
    exact ⟨h.coordsB hA.valid hx (by omega), h.coordsB hA.valid hx h2⟩
  constructor
  · rintro ⟨p, q, hm, hc⟩
    obtain ⟨hpq, hj⟩ := (h.edges mk p q).1 hm
    obtain ⟨-, hq⟩ := hM.edges mk p q hm
    rcases (joinedEdgeMark_iff hA hpq mk).1 hj with h3 | ⟨hno, e, h3, rfl⟩
    · obtain ⟨e1, e2⟩ := toA mk p q h3
      exact Or.inl ⟨p, q, h3, by rw [← e1, ← e2]; exact hc⟩
    · refine Or.inr ⟨?_, ?_⟩
      · rintro mk' ⟨p', q', hm', hc'⟩
        obtain ⟨e1, e2⟩ := toA mk' p' q' hm'
        obtain ⟨g1, g2⟩ := hA.edges mk' p' q' hm'
        have hlt : A.points.length ≤ M.points.length := by rw [h.npoint]; omega
        rw [← e1, ← e2] at hc'
        have : p' = p ∧ q' = q ∨ p' = q ∧ q' = p := by
          rcases hc with ⟨c1, c2⟩ | ⟨c1, c2⟩ <;> rcases hc' with ⟨d1, d2⟩ | ⟨d1, d2⟩
          · exact Or.inl ⟨hM.distinct _ (by omega) _ (by omega) (d1.trans c1.symm), hM.distinct _ (by omega) _ hq (d2.trans c2.symm)⟩
          · exact Or.inr ⟨hM.distinct _ (by omega) _ hq (d1.trans c2.symm), hM.distinct _ (by omega) _ (by omega) (d2.trans c1.symm)⟩
          · exact Or.inr ⟨hM.distinct _ (by omega) _ hq (d1.trans c2.symm), hM.distinct _ (by omega) _ (by omega) (d2.trans c1.symm)⟩
          · exact Or.inl ⟨hM.distinct _ (by omega) _ (by omega) (d1.trans c1.symm), hM.distinct _ (by omega) _ hq (d2.trans c2.symm)⟩
        have : p' = p ∧ q' = q := by omega
        obtain ⟨rfl, rfl⟩ := this
        exact hno mk' hm'
      · have hmem := List.mem_of_find?_eq_some h3
        have hp := List.find?_some h3
        simp only [decide_eq_true_eq, Prod.mk.injEq] at hp
        obtain ⟨m, a, b⟩ := e
        obtain ⟨⟨-, e1⟩, ⟨-, e2⟩⟩ := toB m a b hmem
        refine ⟨a, b, hmem, ?_⟩
        rw [← e1, ← e2]
        rcases hp with ⟨p1, p2⟩ | ⟨p1, p2⟩ <;> simp only at p1 p2
        · rw [p1, p2]; exact hc
        · rw [p1, p2]; rcases hc with ⟨c1, c2⟩ | ⟨c1, c2⟩
          · exact Or.inr ⟨c2, c1⟩
          · exact Or.inl ⟨c2, c1⟩
  · rintro (⟨p, q, hm, hc⟩ | ⟨hno, p, q, hm, hc⟩)
    · obtain ⟨e1, e2⟩ := toA mk p q hm
      have hpq := (hA.edges mk p q hm).1
      exact ⟨p, q, (h.edges mk p q).2 ⟨hpq, (joinedEdgeMark_iff hA hpq mk).2 (Or.inl hm)⟩, by rw [e1, e2]; exact hc⟩
    · obtain ⟨⟨l1, e1⟩, ⟨l2, e2⟩⟩ := toB mk p q hm
      obtain ⟨g1, g2⟩ := hB.edges mk p q hm
      -- the sorted pair of the new numbers
      obtain ⟨a, b, hab, hor⟩ : ∃ a b, a ≤ b ∧ ((a = φ p ∧ b = φ q) ∨ (a = φ q ∧ b = φ p)) := by
        rcases Nat.le_total (φ p) (φ q) with h' | h'
        · exact ⟨_, _, h', Or.inl ⟨rfl, rfl⟩⟩
        · exact ⟨_, _, h', Or.inr ⟨rfl, rfl⟩⟩
      have hcab : (coordsOf M a = x ∧ coordsOf M b = y) ∨ (coordsOf M a = y ∧ coordsOf M b = x) := by
        rcases hor with ⟨rfl, rfl⟩ | ⟨rfl, rfl⟩
        · rw [e1, e2]; exact hc
        · rw [e1, e2]; rcases hc with ⟨c1, c2⟩ | ⟨c1, c2⟩
          · exact Or.inr ⟨c2, c1⟩
          · exact Or.inl ⟨c2, c1⟩
      refine ⟨a, b, (h.edges mk a b).2 ⟨hab, (joinedEdgeMark_iff hA hab mk).2 (Or.inr ⟨?_, ?_⟩)⟩, hcab⟩
      · intro mk' hm'
        obtain ⟨f1, f2⟩ := toA mk' a b hm'
        exact hno mk' ⟨a, b, hm', by rw [← f1, ← f2]; exact hcab⟩
      · have hsome : ((B.markedEdges.find? fun e => (φ e.2.1, φ e.2.2) = (a, b) ∨ (φ e.2.2, φ e.2.1) = (a, b))).isSome := by
          rw [List.find?_isSome]
          refine ⟨(mk, p, q), hm, ?_⟩
          simp only [decide_eq_true_eq, Prod.mk.injEq]
          rcases hor with ⟨rfl, rfl⟩ | ⟨rfl, rfl⟩
          · exact Or.inl ⟨rfl, rfl⟩
          · exact Or.inr ⟨rfl, rfl⟩
        obtain ⟨e, he⟩ := Option.isSome_iff_exists.1 hsome
        refine ⟨e, he, ?_⟩
        have hmem := List.mem_of_find?_eq_some he
        have hp := List.find?_some he
        simp only [decide_eq_true_eq, Prod.mk.injEq] at hp
        obtain ⟨m, p', q'⟩ := e
        obtain ⟨g1', g2'⟩ := hB.edges m p' q' hmem
        simp only at hp
        have inj : ∀ {i j : Nat}, i < B.points.length → j < B.points.length → φ i = φ j → i = j := fun hi hj he => h.inj hA.valid hB hx hi hj he
        have : p' = p ∧ q' = q := by
          have : (φ p' = φ p ∧ φ q' = φ q) ∨ (φ p' = φ q ∧ φ q' = φ p) := by omega
          rcases this with ⟨t1, t2⟩ | ⟨t1, t2⟩
          · exact ⟨inj (by omega) (by omega) t1, inj (by omega) (by omega) t2⟩
          · have t1 := inj (by omega) (by omega) t1
            have t2 := inj (by omega) (by omega) t2
            exact ⟨by omega, by omega⟩
        obtain ⟨rfl, rfl⟩ := this
        exact once_edges hB hmem hm

theorem perm_map4 {f : Nat → List ℝ} {n : Nat} (hinj : ∀ p < n, ∀ q < n, f p = f q → p = q) {l l' : List Nat} (hl : ∀ p ∈ l, p < n) (hl' : ∀ p ∈ l', p < n)
    (h : (l.map f).Perm (l'.map f)) : l.Perm l' := by
  rw [List.perm_iff_count]
  have key : ∀ (l : List Nat), (∀ p ∈ l, p < n) → ∀ a < n, l.count a = (l.map f).count (f a) := by
    intro l
    induction l with
    | nil => intro _ a _; rfl
    | cons b l ih =>
      intro hl a ha
      rw [List.count_cons, List.map_cons, List.count_cons, ih (fun p hp => hl p (List.mem_cons_of_mem _ hp)) a ha]
      congr 1
      by_cases hba : b = a
      · simp [hba]
      · have : f b ≠ f a := fun he => hba (hinj b (hl b (by simp)) a ha he)
        simp [hba, this]
  intro a
  by_cases ha : a < n
  · rw [key l hl a ha, key l' hl' a ha]
    exact h.count_eq _
  · rw [List.count_eq_zero.2 (fun hm => ha (hl a hm)), List.count_eq_zero.2 (fun hm => ha (hl' a hm))]

theorem sorted4_lt {p q r s n : Nat} (h : [p, q, r, s].Pairwise (· ≤ ·)) (hs : s < n) : ∀ v ∈ [p, q, r, s], v < n := by
  simp only [List.pairwise_cons, List.mem_cons, List.not_mem_nil, or_false] at h
  obtain ⟨g1, g2, g3, -⟩ := h
  have := g1 s (by simp)
  have := g2 s (by simp)
  have := g3 s rfl
  intro v hv
  simp only [List.mem_cons, List.not_mem_nil, or_false] at hv
  omega

theorem exists_sort4 (a b c d : Nat) : ∃ p q r s, [p, q, r, s].Pairwise (· ≤ ·) ∧ [a, b, c, d].Perm [p, q, r, s] := by
  have hp := List.mergeSort_perm [a, b, c, d] (fun x y => decide (x ≤ y))
  have hs : ([a, b, c, d].mergeSort fun x y => decide (x ≤ y)).Pairwise (fun x y => decide (x ≤ y) = true) :=
    List.pairwise_mergeSort (by intro a b c; simp; omega) (by intro a b; simp; omega) _
  have hl := hp.length_eq
  generalize ([a, b, c, d].mergeSort fun x y => decide (x ≤ y)) = l at *
  match l, hl, hs, hp with
  | [p, q, r, s], _, hs, hp => exact ⟨p, q, r, s, hs.imp (fun h => by simpa using h), hp.symm⟩

theorem IsJoin.faceMarked (h : IsJoin A B M φ) (hA : Proper A) (hB : Proper B) (hx : Exact A B) (mk : Int) (X : List (List ℝ)) :
    FaceMarked M mk X ↔ FaceMarked A mk X ∨ ((∀ mk', ¬ FaceMarked A mk' X) ∧ FaceMarked B mk X) := by
  have hM := h.proper hA hB hx
  have hlt : A.points.length ≤ M.points.length := by rw [h.npoint]; omega
  have toA : ∀ m p q r s, (m, p, q, r, s) ∈ A.markedFaces → [p, q, r, s].map (coordsOf M) = [p, q, r, s].map (coordsOf A) := by
    intro m p q r s hm
    obtain ⟨h1, h2⟩ := hA.faces m p q r s hm
    exact List.map_congr_left fun v hv => h.coordsA (sorted4_lt h1 h2 v hv)
  have toB : ∀ m p q r s, (m, p, q, r, s) ∈ B.markedFaces → ([p, q, r, s].map φ).map (coordsOf M) = [p, q, r, s].map (coordsOf B) ∧ ∀ v ∈ [p, q, r, s].map φ, v < M.points.length := by
    intro m p q r s hm
    obtain ⟨h1, h2⟩ := hB.faces m p q r s hm
    constructor
    · rw [List.map_map]
      exact List.map_congr_left fun v hv => (h.coordsB hA.valid hx (sorted4_lt h1 h2 v hv)).2
    · intro v hv
      obtain ⟨u, hu, rfl⟩ := List.mem_map.1 hv
      exact (h.coordsB hA.valid hx (sorted4_lt h1 h2 u hu)).1
  constructor
  · rintro ⟨p, q, r, s, hm, hc⟩
    have hc : ([p, q, r, s].map (coordsOf M)).Perm X := hc
    obtain ⟨hpq, hj⟩ := (h.faces mk p q r s).1 hm
    obtain ⟨-, hs⟩ := hM.faces mk p q r s hm
    rcases (joinedFaceMark_iff hA hpq mk).1 hj with h3 | ⟨hno, e, h3, rfl⟩
    · rw [toA mk p q r s h3] at hc
      exact Or.inl ⟨p, q, r, s, h3, hc⟩
    · refine Or.inr ⟨?_, ?_⟩
      · rintro mk' ⟨p', q', r', s', hm', hc'⟩
        have hc' : ([p', q', r', s'].map (coordsOf A)).Perm X := hc'
        rw [← toA mk' p' q' r' s' hm'] at hc'
        obtain ⟨g1, g2⟩ := hA.faces mk' p' q' r' s' hm'
        have := perm_map4 hM.distinct (fun v hv => lt_of_lt_of_le (sorted4_lt g1 g2 v hv) hlt) (sorted4_lt hpq hs) (hc'.trans hc.symm)
        have := perm_sorted4 g1 hpq this
        simp only [Prod.mk.injEq] at this
        obtain ⟨rfl, rfl, rfl, rfl⟩ := this
        exact hno mk' hm'
      · have hmem := List.mem_of_find?_eq_some h3
        have hp := List.find?_some h3
        simp only [decide_eq_true_eq] at hp
        obtain ⟨m, a, b, c, d⟩ := e
        refine ⟨a, b, c, d, hmem, ?_⟩
        have e1 := (toB m a b c d hmem).1
        have : ([a, b, c, d].map (coordsOf B)).Perm X := by
          rw [← e1]
          exact (hp.map _).trans hc
        exact this
  · rintro (⟨p, q, r, s, hm, hc⟩ | ⟨hno, p, q, r, s, hm, hc⟩)
    · have hc : ([p, q, r, s].map (coordsOf A)).Perm X := hc
      rw [← toA mk p q r s hm] at hc
      have hpq := (hA.faces mk p q r s hm).1
      exact ⟨p, q, r, s, (h.faces mk p q r s).2 ⟨hpq, (joinedFaceMark_iff hA hpq mk).2 (Or.inl hm)⟩, hc⟩
    · have hc : ([p, q, r, s].map (coordsOf B)).Perm X := hc
      obtain ⟨e1, e2⟩ := toB mk p q r s hm
      obtain ⟨g1, g2⟩ := hB.faces mk p q r s hm
      obtain ⟨a, b, c, d, hab, hperm⟩ := exists_sort4 (φ p) (φ q) (φ r) (φ s)
      have hcab : ([a, b, c, d].map (coordsOf M)).Perm X := by
        refine (hperm.map (coordsOf M)).symm.trans ?_
        rw [show [φ p, φ q, φ r, φ s] = [p, q, r, s].map φ from rfl, e1]
        exact hc
      refine ⟨a, b, c, d, (h.faces mk a b c d).2 ⟨hab, (joinedFaceMark_iff hA hab mk).2 (Or.inr ⟨?_, ?_⟩)⟩, hcab⟩
      · intro mk' hm'
        have f1 := toA mk' a b c d hm'
        exact hno mk' ⟨a, b, c, d, hm', by rw [f1] at hcab; exact hcab⟩
      · have hsome : (B.markedFaces.find? fun e => [φ e.2.1, φ e.2.2.1, φ e.2.2.2.1, φ e.2.2.2.2].Perm [a, b, c, d]).isSome := by
          rw [List.find?_isSome]
          exact ⟨(mk, p, q, r, s), hm, by simpa using hperm⟩
        obtain ⟨e, he⟩ := Option.isSome_iff_exists.1 hsome
        refine ⟨e, he, ?_⟩
        have hmem := List.mem_of_find?_eq_some he
        have hp := List.find?_some he
        simp only [decide_eq_true_eq] at hp
        obtain ⟨m, p', q', r', s'⟩ := e
        obtain ⟨g1', g2'⟩ := hB.faces m p' q' r' s' hmem
        have : [p', q', r', s'].Perm [p, q, r, s] := by
          have t1 := (hp.trans hperm.symm).map (coordsOf M)
          have t2 : ([p', q', r', s'].map (coordsOf B)).Perm ([p, q, r, s].map (coordsOf B)) := by
            rw [← e1, ← (toB m p' q' r' s' hmem).1]
            exact t1
          exact perm_map4 hB.distinct (sorted4_lt g1' g2') (sorted4_lt g1 g2) t2
        have := perm_sorted4 g1' g1 this
        simp only [Prod.mk.injEq] at this
        obtain ⟨rfl, rfl, rfl, rfl⟩ := this
        exact once_faces hB hmem hm

/-! ## The box of the features -/

theorem geomCells_get {c : Nat} {mk : Int} {k : GeoKind} {X : List (List ℝ)} :
    (geomCells A)[c]? = some (mk, k, X) ↔ ∃ cell, A.cells[c]? = some cell ∧ cell.marker = mk ∧ cell.kind = k ∧ cell.points.map (coordsOf A) = X := by
  unfold geomCells
  rw [List.getElem?_map, Option.map_eq_some_iff]
  simp only [Prod.mk.injEq]

theorem geom_node {cell : Cell} {n : Nat} {x : List ℝ} (h : (cell.points.map (coordsOf A))[n]? = some x) : ∃ p, cell.points[n]? = some p ∧ coordsOf A p = x := by
  rw [List.getElem?_map, Option.map_eq_some_iff] at h
  exact h

theorem corner_feature_2d (hA : Proper A) (h2 : A.ndim = 2) {x y : List ℝ} (h : ExactlyOne (EdgeAt (geomCells A) x y)) {E : Extracted ℝ} (hE : IsExtracted A false E) :
    ∃ p < A.points.length, FeaturePoint A E p ∧ coordsOf A p = x := by
  obtain ⟨-, hE⟩ | ⟨h3, -⟩ := id hE
  swap
  · omega
  obtain ⟨c, e, ⟨mk, k, X, g1, g2, g3, g4⟩, huniq⟩ := h
  obtain ⟨cell, hc, rfl, rfl, rfl⟩ := geomCells_get.1 g1
  have hmem := List.mem_of_getElem? hc
  have hlt : ∀ {n p : Nat}, cell.points[n]? = some p → p < A.points.length := fun hp => hA.valid.inRange cell hmem _ (List.mem_of_getElem? hp)
  -- the two end points
  obtain ⟨p, q, hpq, hpx, hqy⟩ : ∃ p q, ((cell.points[edgeNode cell.kind e 0]? = some p ∧ cell.points[edgeNode cell.kind e 1]? = some q) ∨
      (cell.points[edgeNode cell.kind e 0]? = some q ∧ cell.points[edgeNode cell.kind e 1]? = some p)) ∧ coordsOf A p = x ∧ coordsOf A q = y := by
    rcases g4 with ⟨a, b⟩ | ⟨a, b⟩
    · obtain ⟨p, hp, hpx⟩ := geom_node a
      obtain ⟨q, hq, hqx⟩ := geom_node b
      exact ⟨p, q, Or.inl ⟨hp, hq⟩, hpx, hqx⟩
    · obtain ⟨p, hp, hpx⟩ := geom_node a
      obtain ⟨q, hq, hqx⟩ := geom_node b
      exact ⟨q, p, Or.inr ⟨hp, hq⟩, hqx, hpx⟩
  have hpl : p < A.points.length := by rcases hpq with ⟨a, b⟩ | ⟨a, b⟩ <;> [exact hlt a; exact hlt b]
  have hql : q < A.points.length := by rcases hpq with ⟨a, b⟩ | ⟨a, b⟩ <;> [exact hlt b; exact hlt a]
  obtain ⟨key, hkey, hor⟩ : ∃ key : Nat × Nat, key.1 ≤ key.2 ∧ (key = (p, q) ∨ key = (q, p)) := by
    rcases Nat.le_total p q with h | h
    · exact ⟨(p, q), h, Or.inl rfl⟩
    · exact ⟨(q, p), h, Or.inr rfl⟩
  have hhas : HasEdge A key c e := by
    rcases hpq with ⟨a, b⟩ | ⟨a, b⟩
    · exact ⟨cell, p, q, hc, g2, g3, a, b, hkey, hor⟩
    · exact ⟨cell, q, p, hc, g2, g3, a, b, hkey, hor.symm⟩
  have hone : ExactlyOne (HasEdge A key) := by
    refine ⟨c, e, hhas, ?_⟩
    rintro c' e' ⟨cell', a, b, k1, k2, k3, k4, k5, -, k7⟩
    refine huniq c' e' ⟨_, _, _, geomCells_get.2 ⟨cell', k1, rfl, rfl, rfl⟩, k2, k3, ?_⟩
    rw [List.getElem?_map, List.getElem?_map, k4, k5, Option.map_some, Option.map_some]
    have : (a = p ∧ b = q) ∨ (a = q ∧ b = p) := by
      rcases hor with rfl | rfl <;> rcases k7 with h | h <;> simp only [Prod.mk.injEq] at h
      · exact Or.inl ⟨h.1.symm, h.2.symm⟩
      · exact Or.inr ⟨h.2.symm, h.1.symm⟩
      · exact Or.inr ⟨h.1.symm, h.2.symm⟩
      · exact Or.inl ⟨h.2.symm, h.1.symm⟩
    rcases this with ⟨rfl, rfl⟩ | ⟨rfl, rfl⟩
    · exact Or.inl ⟨by rw [hpx], by rw [hqy]⟩
    · exact Or.inr ⟨by rw [hqy], by rw [hpx]⟩
  obtain ⟨f, hf⟩ := Option.isSome_iff_exists.1 ((hE.accepted key).2 ⟨⟨c, e, hhas⟩, Or.inr hone⟩)
  obtain ⟨-, a1, a2, -, a3, -⟩ := edge_key_points hA.valid (Or.inl ⟨h2, hE⟩) hf
  refine ⟨p, hpl, Or.inl (a3 p ?_), hpx⟩
  rcases hor with rfl | rfl
  · exact a1
  · exact a2

theorem corner_feature_3d (hA : Proper A) (h3 : A.ndim = 3) (hq : QuadFaces (geomCells A)) {x : List ℝ} {Y : List (List ℝ)} (hxY : x ∈ Y)
    (h : ExactlyOne (FaceAt (geomCells A) Y)) {E : Extracted ℝ} (hE : IsExtracted A false E) :
    ∃ p < A.points.length, FeaturePoint A E p ∧ coordsOf A p = x := by
  obtain ⟨h2, -⟩ | ⟨-, hE⟩ := id hE
  · omega
  have hquad : ∀ cell ∈ A.cells, cell.kind.ndim = 3 → 3 < cell.kind.faceNnode := by
    intro cell hc hk
    exact hq (cell.marker, cell.kind, cell.points.map (coordsOf A)) (List.mem_map.2 ⟨cell, hc, rfl⟩) hk
  obtain ⟨c, f, ⟨mk, k, X, y0, y1, y2, y3, g1, g2, g3, g5, g6, g7, g8, g9⟩, huniq⟩ := h
  obtain ⟨cell, hc, rfl, rfl, rfl⟩ := geomCells_get.1 g1
  have hmem := List.mem_of_getElem? hc
  have g4 := hquad cell hmem g2
  have hlt : ∀ {cell' : Cell} {n p : Nat}, cell' ∈ A.cells → cell'.points[n]? = some p → p < A.points.length := fun hm hp => hA.valid.inRange _ hm _ (List.mem_of_getElem? hp)
  obtain ⟨p0, hp0, rfl⟩ := geom_node g5
  obtain ⟨p1, hp1, rfl⟩ := geom_node g6
  obtain ⟨p2, hp2, rfl⟩ := geom_node g7
  obtain ⟨p3, hp3, rfl⟩ := geom_node g8
  obtain ⟨a, b, c4, d, hsort, hperm⟩ := exists_sort4 p0 p1 p2 p3
  have hhas : HasFace A (a, b, c4, d) c f := ⟨cell, p0, p1, p2, p3, hc, g2, g3, hp0, hp1, hp2, by rw [if_pos g4]; exact hp3, hsort, hperm.symm⟩
  have hone : ExactlyOne (HasFace A (a, b, c4, d)) := by
    refine ⟨c, f, hhas, ?_⟩
    rintro c' f' ⟨cell', q0, q1, q2, q3, k1, k2, k3, k4, k5, k6, k7, -, k9⟩
    have hm' := List.mem_of_getElem? k1
    rw [if_pos (hquad cell' hm' k2)] at k7
    refine huniq c' f' ⟨_, _, _, coordsOf A q0, coordsOf A q1, coordsOf A q2, coordsOf A q3, geomCells_get.2 ⟨cell', k1, rfl, rfl, rfl⟩, k2, k3, ?_, ?_, ?_, ?_, ?_⟩
    · rw [List.getElem?_map, k4]; rfl
    · rw [List.getElem?_map, k5]; rfl
    · rw [List.getElem?_map, k6]; rfl
    · rw [List.getElem?_map, k7]; rfl
    · exact g9.trans ((hperm.trans k9).map (coordsOf A))
  obtain ⟨F, hF⟩ := Option.isSome_iff_exists.1 ((hE.accepted (a, b, c4, d)).2 ⟨⟨c, f, hhas⟩, Or.inr hone⟩)
  obtain ⟨c', f', hfirst, ⟨cell', l1, l2, l3, l4⟩, -⟩ := hE.data _ F hF
  -- the points of the feature
  obtain ⟨cell'', q0, q1, q2, q3, k1, k2, k3, k4, k5, k6, k7, -, k9⟩ := hfirst.1
  rw [l1, Option.some.injEq] at k1; subst k1
  have hm' := List.mem_of_getElem? l1
  have h4 := hquad cell' hm' k2
  rw [if_pos h4] at k7
  obtain ⟨-, fk, hfk, hn, -⟩ := face_facts cell'.kind (by omega)
  rw [l2, Option.some.injEq] at hfk
  have hmemF : ∀ q ∈ [q0, q1, q2, q3], q ∈ F.points := by
    intro q hqm
    simp only [List.mem_cons, List.not_mem_nil, or_false] at hqm
    rcases hqm with rfl | rfl | rfl | rfl
    · exact List.mem_of_getElem? ((l4 0 (by rw [hfk, hn]; omega)).trans k4)
    · exact List.mem_of_getElem? ((l4 1 (by rw [hfk, hn]; omega)).trans k5)
    · exact List.mem_of_getElem? ((l4 2 (by rw [hfk, hn]; omega)).trans k6)
    · exact List.mem_of_getElem? ((l4 3 (by rw [hfk, hn]; omega)).trans k7)
  have hx' := g9.mem_iff.1 hxY
  have : ∃ p ∈ [p0, p1, p2, p3], coordsOf A p = x := by
    have : x ∈ [p0, p1, p2, p3].map (coordsOf A) := hx'
    obtain ⟨p, h1, h2⟩ := List.mem_map.1 this
    exact ⟨p, h1, h2⟩
  obtain ⟨p, hp, hpx⟩ := this
  have hpq := (hperm.trans k9).mem_iff.1 hp
  refine ⟨p, ?_, Or.inl ((hE.points p).2 ⟨_, F, hF, hmemF p hpq⟩), hpx⟩
  simp only [List.mem_cons, List.not_mem_nil, or_false] at hp
  rcases hp with rfl | rfl | rfl | rfl
  · exact hlt hmem hp0
  · exact hlt hmem hp1
  · exact hlt hmem hp2
  · exact hlt hmem hp3

theorem corner_feature (hA : Proper A) (hq : A.ndim = 3 → QuadFaces (geomCells A)) {x : List ℝ} (h : BoundaryCorner A.ndim (geomCells A) x) {E : Extracted ℝ}
    (hE : IsExtracted A false E) : ∃ p < A.points.length, FeaturePoint A E p ∧ coordsOf A p = x := by
  unfold BoundaryCorner at h
  rcases hA.dims with h2 | h3
  · rw [if_pos h2] at h
    obtain ⟨y, hy⟩ := h
    exact corner_feature_2d hA h2 hy hE
  · rw [if_neg (by omega)] at h
    obtain ⟨Y, hxY, hY⟩ := h
    exact corner_feature_3d hA h3 (hq h3) hxY hY hE

theorem geom_coords (hA : Proper A) {i : Nat} (hi : i < A.points.length) : ∃ g ∈ geomCells A, coordsOf A i ∈ g.2.2 := by
  obtain ⟨c, hc, hp⟩ := hA.used i hi
  exact ⟨_, List.mem_map.2 ⟨c, hc, rfl⟩, List.mem_map.2 ⟨i, hp, rfl⟩⟩

theorem enclosed_inside (hA : Proper A) (hq : A.ndim = 3 → QuadFaces (geomCells A)) (h : Enclosed A.ndim (geomCells A)) (E : Extracted ℝ) (hE : IsExtracted A false E) :
    (∀ i < A.ndim, ∃ p q, FeaturePoint A E p ∧ FeaturePoint A E q ∧ (coordsOf A p).getD i 0 < (coordsOf A q).getD i 0) ∧
    ∀ i < A.points.length, InFeatureBox A E (coordsOf A i) := by
  constructor
  · intro d hd
    obtain ⟨x, x', hx, hx', hlt, -⟩ := h d hd
    obtain ⟨p, -, hp, rfl⟩ := corner_feature hA hq hx hE
    obtain ⟨q, -, hq', rfl⟩ := corner_feature hA hq hx' hE
    exact ⟨p, q, hp, hq', hlt⟩
  · intro i hi d hd
    obtain ⟨x, x', hx, hx', -, hall⟩ := h d hd
    obtain ⟨p, -, hp, rfl⟩ := corner_feature hA hq hx hE
    obtain ⟨q, -, hq', rfl⟩ := corner_feature hA hq hx' hE
    obtain ⟨g, hg, hv⟩ := geom_coords hA hi
    exact ⟨p, q, hp, hq', hall g hg _ hv⟩

/-! ## Joining two meshes -/

/-- **C65.** Let A and B be meshes without duplicated and unused points, such that all nodes of A are within the box of its boundary, and
such that any two nodes of A and of B are either at the same place or farther than the tolerance. Then joining succeeds, and the result
is nothing but the cells of A followed by the cells of B, again without duplicated and unused points. The marked edges and faces are
those of A and those of B that are not marked in A. -/
theorem C65_join (o : JoinOrders) (ho : o.Valid) (hA : Proper A) (hB : Proper B) (hd : A.ndim = B.ndim)
    (hlim : ∀ p ∈ A.points, ∀ v ∈ p.coords, -f64Max ≤ v ∧ v ≤ f64Max) (hq : A.ndim = 3 → QuadFaces (geomCells A)) (henc : Enclosed A.ndim (geomCells A))
    (hfar : ∀ g ∈ geomCells A, ∀ x ∈ g.2.2, ∀ g' ∈ geomCells B, ∀ y ∈ g'.2.2, SameOrFar A.ndim x y) :
    ∃ M, joinTwoMeshes o A B = .ok M ∧ Proper M ∧ M.ndim = A.ndim ∧ geomCells M = geomCells A ++ geomCells B ∧
      (∀ mk x y, EdgeMarked M mk x y ↔ EdgeMarked A mk x y ∨ ((∀ mk', ¬ EdgeMarked A mk' x y) ∧ EdgeMarked B mk x y)) ∧
      (∀ mk X, FaceMarked M mk X ↔ FaceMarked A mk X ∨ ((∀ mk', ¬ FaceMarked A mk' X) ∧ FaceMarked B mk X)) ∧
      (∀ pt ∈ M.points, ∃ pt', (pt' ∈ A.points ∨ pt' ∈ B.points) ∧ pt.coords = pt'.coords ∧ pt.marker = pt'.marker) ∧
      A.points <+: M.points ∧ A.cells <+: M.cells := by
  have hjoin : Joinable A := by
    intro E hE
    obtain ⟨h1, h2⟩ := enclosed_inside hA hq henc E hE
    refine ⟨h1, fun i hi d hd => ?_⟩
    obtain ⟨p, q, f1, f2, l1, l2⟩ := h2 i hi d hd
    exact ⟨p, q, f1, f2, by linarith, by linarith⟩
  obtain ⟨M, hM⟩ := C20_succeeds o ho A B hA.valid hB.valid hlim hA.dims hd hjoin (by
    rintro ⟨m, p, q⟩ he
    obtain ⟨h1, h2⟩ := hB.edges m p q he
    exact ⟨by show p < _; omega, h2⟩) (by
    rintro ⟨m, p, q, r, s⟩ he
    obtain ⟨h1, h2⟩ := hB.faces m p q r s he
    have := sorted4_lt h1 h2
    exact ⟨this p (by simp), this q (by simp), this r (by simp), h2⟩)
  obtain ⟨φ, hφ⟩ := C20_join o ho A B M hA.valid hB.valid hlim hA.dims hM
  have hx : Exact A B := by
    refine ⟨fun i hi j hj => ?_, fun E hE i hi => (enclosed_inside hA hq henc E hE).2 i hi⟩
    obtain ⟨g, hg, hv⟩ := geom_coords hA hi
    obtain ⟨g', hg', hv'⟩ := geom_coords hB hj
    exact hfar g hg _ hv g' hg' _ hv'
  refine ⟨M, hM, hφ.proper hA hB hx, hφ.ndim.1, hφ.geom hA.valid hB.valid hx, hφ.edgeMarked hA hB hx, hφ.faceMarked hA hB hx, ?_, by rw [hφ.points]; exact List.prefix_append _ _, by rw [hφ.cells]; exact List.prefix_append _ _⟩
  intro pt hpt
  rw [hφ.points, List.mem_append] at hpt
  rcases hpt with hpt | hpt
  · exact ⟨pt, Or.inl hpt, rfl, rfl⟩
  · obtain ⟨j, hj, rfl⟩ := List.mem_map.1 hpt
    have hj' : j < B.points.length := List.mem_range.1 (List.mem_filter.1 hj).1
    refine ⟨B.points[j], Or.inr (List.getElem_mem hj'), ?_, ?_⟩
    · unfold renumbered; rw [List.getElem?_eq_getElem hj']; rfl
    · unfold renumbered; rw [List.getElem?_eq_getElem hj']; rfl

theorem firstEdge_snoc (L : List (Mesh ℝ)) (B : Mesh ℝ) (mk : Int) (x y : List ℝ) :
    FirstEdge (L ++ [B]) mk x y ↔ FirstEdge L mk x y ∨ ((∀ mk', ¬ FirstEdge L mk' x y) ∧ EdgeMarked B mk x y) := by
  have none_iff : ∀ K : List (Mesh ℝ), (∀ mk', ¬ FirstEdge K mk' x y) ↔ ∀ (j : Nat) (A : Mesh ℝ), K[j]? = some A → ∀ mk', ¬ EdgeMarked A mk' x y := by
    intro K
    constructor
    · intro h j
      induction j using Nat.strong_induction_on with
      | _ j ih => intro A hA mk' hm; exact h mk' ⟨j, A, hA, hm, fun i B' hi hB' => ih i hi B' hB'⟩
    · rintro h mk' ⟨k, A, hA, hm, _⟩; exact h k A hA mk' hm
  rw [none_iff]
  constructor
  · rintro ⟨k, A, hA, hm, hlt⟩
    rcases lt_or_ge k L.length with hk | hk
    · refine Or.inl ⟨k, A, by rwa [List.getElem?_append_left hk] at hA, hm, fun j B' hj hB' => hlt j B' hj ?_⟩
      rw [List.getElem?_append_left (by omega)]; exact hB'
    · rw [List.getElem?_append_right hk] at hA
      have hk' : k = L.length := by
        by_contra hc
        rw [List.getElem?_eq_none (by simp; omega)] at hA; simp at hA
      subst hk'
      simp at hA; subst hA
      refine Or.inr ⟨fun j A hA => hlt j A ?_ ?_, hm⟩
      · by_contra hc; rw [List.getElem?_eq_none (by omega)] at hA; simp at hA
      · rw [List.getElem?_append_left]
        · exact hA
        · by_contra hc; rw [List.getElem?_eq_none (by omega)] at hA; simp at hA
  · rintro (⟨k, A, hA, hm, hlt⟩ | ⟨hn, hm⟩)
    · have hk : k < L.length := by by_contra hc; rw [List.getElem?_eq_none (by omega)] at hA; simp at hA
      refine ⟨k, A, by rw [List.getElem?_append_left hk]; exact hA, hm, fun j B' hj hB' => hlt j B' hj ?_⟩
      rwa [List.getElem?_append_left (by omega)] at hB'
    · refine ⟨L.length, B, by simp, hm, fun j B' hj hB' => hn j B' ?_⟩
      rwa [List.getElem?_append_left hj] at hB'

theorem firstFace_snoc (L : List (Mesh ℝ)) (B : Mesh ℝ) (mk : Int) (X : List (List ℝ)) :
    FirstFace (L ++ [B]) mk X ↔ FirstFace L mk X ∨ ((∀ mk', ¬ FirstFace L mk' X) ∧ FaceMarked B mk X) := by
  have none_iff : ∀ K : List (Mesh ℝ), (∀ mk', ¬ FirstFace K mk' X) ↔ ∀ (j : Nat) (A : Mesh ℝ), K[j]? = some A → ∀ mk', ¬ FaceMarked A mk' X := by
    intro K
    constructor
    · intro h j
      induction j using Nat.strong_induction_on with
      | _ j ih => intro A hA mk' hm; exact h mk' ⟨j, A, hA, hm, fun i B' hi hB' => ih i hi B' hB'⟩
    · rintro h mk' ⟨k, A, hA, hm, _⟩; exact h k A hA mk' hm
  rw [none_iff]
  constructor
  · rintro ⟨k, A, hA, hm, hlt⟩
    rcases lt_or_ge k L.length with hk | hk
    · refine Or.inl ⟨k, A, by rwa [List.getElem?_append_left hk] at hA, hm, fun j B' hj hB' => hlt j B' hj ?_⟩
      rw [List.getElem?_append_left (by omega)]; exact hB'
    · rw [List.getElem?_append_right hk] at hA
      have hk' : k = L.length := by
        by_contra hc
        rw [List.getElem?_eq_none (by simp; omega)] at hA; simp at hA
      subst hk'
      simp at hA; subst hA
      refine Or.inr ⟨fun j A hA => hlt j A ?_ ?_, hm⟩
      · by_contra hc; rw [List.getElem?_eq_none (by omega)] at hA; simp at hA
      · rw [List.getElem?_append_left]
        · exact hA
        · by_contra hc; rw [List.getElem?_eq_none (by omega)] at hA; simp at hA
  · rintro (⟨k, A, hA, hm, hlt⟩ | ⟨hn, hm⟩)
    · have hk : k < L.length := by by_contra hc; rw [List.getElem?_eq_none (by omega)] at hA; simp at hA
      refine ⟨k, A, by rw [List.getElem?_append_left hk]; exact hA, hm, fun j B' hj hB' => hlt j B' hj ?_⟩
      rwa [List.getElem?_append_left (by omega)] at hB'
    · refine ⟨L.length, B, by simp, hm, fun j B' hj hB' => hn j B' ?_⟩
      rwa [List.getElem?_append_left hj] at hB'

theorem allCells_append (K L : List (Mesh ℝ)) : allCells (K ++ L) = allCells K ++ allCells L := by
  unfold allCells; simp

theorem allCells_cons (A : Mesh ℝ) (L : List (Mesh ℝ)) : allCells (A :: L) = geomCells A ++ allCells L := by
  unfold allCells; simp

theorem isAssembly_one {A : Mesh ℝ} (h : Proper A) : IsAssembly [A] A := by
  refine ⟨h, by simp [allCells], fun mk x y => ⟨fun hm => ⟨0, A, rfl, hm, fun j _ hj => by omega⟩, ?_⟩, fun mk X => ⟨fun hm => ⟨0, A, rfl, hm, fun j _ hj => by omega⟩, ?_⟩,
    fun pt hpt => ⟨A, by simp, pt, hpt, rfl, rfl⟩, fun B hB => by simp at hB; subst hB; exact ⟨List.prefix_rfl, List.prefix_rfl⟩⟩
  · rintro ⟨k, B, hB, hm, _⟩
    have : B ∈ [A] := List.mem_of_getElem? hB
    simp at this; subst this; exact hm
  · rintro ⟨k, B, hB, hm, _⟩
    have : B ∈ [A] := List.mem_of_getElem? hB
    simp at this; subst this; exact hm

theorem assemble_fold (o : JoinOrders) (ho : o.Valid) {dim : Nat} {meshes : List (Mesh ℝ)} (hc : CanAssemble dim meshes) (rest : List (Mesh ℝ)) :
    ∀ done A, done ≠ [] → meshes = done ++ rest → IsAssembly done A → A.ndim = dim → ∃ M, rest.foldlM (joinTwoMeshes o) A = .ok M ∧ IsAssembly meshes M ∧ M.ndim = dim := by
  induction rest with
  | nil => intro done A _ he hA hd; simp at he; subst he; exact ⟨A, rfl, hA, hd⟩
  | cons B rest ih =>
    intro done A hne he hA hd
    have hmem : ∀ C ∈ done, C ∈ meshes := fun C hC => by rw [he]; simp [hC]
    have hB : B ∈ meshes := by rw [he]; simp
    have hlen : 0 < done.length := List.length_pos_iff.2 hne
    have htake : meshes.take done.length = done := by rw [he]; simp
    have henc := hc.enclosed done.length hlen (by rw [he]; simp)
    rw [htake, ← hA.cells, ← hd] at henc
    have hin : ∀ g ∈ geomCells A, g ∈ allCells meshes := by
      intro g hg; rw [hA.cells] at hg; rw [he, allCells_append]; exact List.mem_append_left _ hg
    have hlim : ∀ p ∈ A.points, ∀ v ∈ p.coords, -f64Max ≤ v ∧ v ≤ f64Max := by
      intro p hp v hv
      obtain ⟨C, hC, p', hp', e, _⟩ := hA.points p hp
      rw [e] at hv
      exact hc.limits C (hmem C hC) p' hp' v hv
    obtain ⟨M, hM, p1, p2, p3, p4, p5, p6, p7, p8⟩ := C65_join o ho hA.proper (hc.proper B hB).1 (by rw [hd, (hc.proper B hB).2]) hlim (by
        rw [hd]; intro h3 g hg
        refine hc.faces h3 g ?_
        rw [hA.cells] at hg
        have hdl : meshes.dropLast = done ++ (B :: rest).dropLast := by rw [he, List.dropLast_append_of_ne_nil (by simp)]
        rw [hdl, allCells_append]
        exact List.mem_append_left _ hg) henc (by
        intro g hg x hx g' hg' y hy
        rw [hd]
        refine hc.far g (hin g hg) x hx g' ?_ y hy
        rw [he, allCells_append, allCells_cons]; simp [hg'])
    have hAs : IsAssembly (done ++ [B]) M := by
      refine ⟨p1, ?_, ?_, ?_, ?_, fun C hC => ?_⟩
      rotate_right
      · have hC' : C ∈ done.head? := by
          cases done with
          | nil => exact absurd rfl hne
          | cons d ds => simpa using hC
        obtain ⟨f1, f2⟩ := hA.first C hC'
        exact ⟨f1.trans p7, f2.trans p8⟩
      · rw [p3, hA.cells, allCells_append]; simp [allCells]
      · intro mk x y
        rw [p4, firstEdge_snoc, hA.edges]
        simp only [hA.edges]
      · intro mk X
        rw [p5, firstFace_snoc, hA.faces]
        simp only [hA.faces]
      · intro pt hpt
        obtain ⟨pt', h1 | h1, e1, e2⟩ := p6 pt hpt
        · obtain ⟨C, hC, p', hp', e3, e4⟩ := hA.points pt' h1
          exact ⟨C, by simp [hC], p', hp', e1.trans e3, e2.trans e4⟩
        · exact ⟨B, by simp, pt', h1, e1, e2⟩
    rw [List.foldlM_cons, hM]
    exact ih (done ++ [B]) M (by simp) (by rw [he]; simp) hAs (by rw [p2, hd])

/-- **C65.** Joining meshes that fit together — any two nodes are at the same place or farther from each other than the tolerance, and
each part is enclosed by the corners of its boundary — succeeds and gives the cells of all meshes, one mesh after the other, without
duplicated points; an edge or face that is marked in several meshes has the marker of the first of them. -/
theorem C65_join_meshes (o : JoinOrders) (ho : o.Valid) {dim : Nat} {meshes : List (Mesh ℝ)} (hc : CanAssemble dim meshes) :
    ∃ M, joinMeshes o meshes = .ok M ∧ IsAssembly meshes M ∧ M.ndim = dim := by
  have h2 := hc.two
  match meshes, hc, h2 with
  | A :: B :: rest, hc, _ =>
    have := assemble_fold o ho hc (B :: rest) [A] A (by simp) rfl (isAssembly_one (hc.proper A (by simp)).1) (hc.proper A (by simp)).2
    rw [List.foldlM_cons] at this
    exact this

end
end Gemlab.Mesh
