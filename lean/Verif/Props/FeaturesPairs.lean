import Verif.Props.FeaturesQueries
import Verif.Model.FeaturesPairs

/-!
# C62: pairs (cell, points of an edge or face)
-/
namespace Gemlab.Props.Features
noncomputable section
open Gemlab Gemlab.Mesh Gemlab.Shapes Gemlab.Props.Mesh Gemlab.Spec Gemlab.GridSearch

variable {m : Mesh ℝ} {extractAll : Bool} {x : Extracted ℝ} {F : Features}

theorem sortByCell_same (l : List Nat) (pts : List Nat) :
    sortByCell (l.map fun c => (c, pts)) = (l.insertionSort (· ≤ ·)).map fun c => (c, pts) := by
  unfold sortByCell
  rw [List.map_insertionSort (· ≤ ·) (s := fun p q : Nat × List Nat => p.1 ≤ q.1)]
  intro a _ b _; rfl

/-- A list sorted by cell, with the same entries, and with the entries of every cell in the same order as before. -/
structure IsStableSort (l r : List (Nat × List Nat)) : Prop where
  sorted : (r.map (·.1)).Pairwise (· ≤ ·)
  perm : r.Perm l
  stable : ∀ c, r.filter (·.1 = c) = l.filter (·.1 = c)

instance : Std.Total fun p q : Nat × List Nat => p.1 ≤ q.1 := ⟨fun a b => le_total a.1 b.1⟩
instance : IsTrans (Nat × List Nat) fun p q => p.1 ≤ q.1 := ⟨fun _ _ _ h1 h2 => le_trans h1 h2⟩

theorem sortByCell_stable (l : List (Nat × List Nat)) : IsStableSort l (sortByCell l) := by
  unfold sortByCell
  have hp : (l.insertionSort fun p q => p.1 ≤ q.1).Perm l := List.perm_insertionSort _ _
  refine ⟨?_, hp, fun c => ?_⟩
  · rw [List.pairwise_map]
    exact List.pairwise_insertionSort _ _
  · have hs : (l.filter (·.1 = c)).Sublist (l.insertionSort fun p q => p.1 ≤ q.1) := by
      apply List.sublist_insertionSort
      · rw [List.pairwise_iff_forall_sublist]
        intro a b hab
        have ha : a ∈ l.filter (·.1 = c) := hab.subset (by simp)
        have hb : b ∈ l.filter (·.1 = c) := hab.subset (by simp)
        simp only [List.mem_filter, decide_eq_true_eq] at ha hb
        omega
      · exact List.filter_sublist
    have h2 := hs.filter (·.1 = c)
    rw [List.filter_filter] at h2
    simp only [Bool.and_self] at h2
    exact (h2.eq_of_length ((hp.filter _).length_eq).symm).symm

/-- **C62.** `get_cells_pairs_via_2d_edge` of a stored edge: the cells that have this edge, in increasing order, each with the points of the
edge. -/
theorem C62_pairs_via_2d_edge (hF : IsNew m extractAll x F) (h : ValidMesh m) (h2 : m.ndim = 2) (key : EdgeKey) (f : Feature)
    (hf : F.edges.get key = some f) :
    ∃ ids, F.getCellsPairsVia2dEdge f = .ok (ids.map fun c => (c, f.points)) ∧ IsCellsOf (HasEdge m key) ids := by
  obtain ⟨ids, h1, h3⟩ := C51_cells_via_2d_edge hF h h2 key f hf
  refine ⟨ids, ?_, h3⟩
  unfold Features.getCellsVia2dEdge at h1
  unfold Features.getCellsPairsVia2dEdge
  rw [Res.bind_eq_ok] at h1
  obtain ⟨k, hk, h1⟩ := h1
  rw [Res.bind_eq_ok] at h1
  obtain ⟨cells, hc, h1⟩ := h1
  rw [hk, Res.bind_ok, hc, Res.bind_ok]
  simp only [Res.pure_eq, Res.ok.injEq] at h1 ⊢
  rw [← h1, ← sortByCell_same, List.map_map]
  rfl

/-- **C62.** `get_cells_pairs_via_face` of a stored face: the cells that have this face, in increasing order, each with the points of the
face. -/
theorem C62_pairs_via_face (hF : IsNew m extractAll x F) (h : ValidMesh m) (hM : m.points.length ≤ usizeMax) (h3 : m.ndim = 3)
    (key : FaceKey) (f : Feature) (hf : F.faces.get key = some f) :
    ∃ ids, F.getCellsPairsViaFace f = .ok (ids.map fun c => (c, f.points)) ∧ IsCellsOf (HasFace m key) ids := by
  obtain ⟨ids, h1, h4⟩ := C51_cells_via_face hF h hM h3 key f hf
  refine ⟨ids, ?_, h4⟩
  unfold Features.getCellsViaFace at h1
  unfold Features.getCellsPairsViaFace
  rw [Res.bind_eq_ok] at h1
  obtain ⟨k, hk, h1⟩ := h1
  rw [Res.bind_eq_ok] at h1
  obtain ⟨cells, hc, h1⟩ := h1
  rw [hk, Res.bind_ok, hc, Res.bind_ok]
  simp only [Res.pure_eq, Res.ok.injEq] at h1 ⊢
  rw [← h1, ← sortByCell_same, List.map_map]
  rfl

/-- **C62.** `get_cells_pairs_via_2d_edges` of stored edges (in any order, possibly repeated): the pairs of all edges of the list, sorted by
cell; the pairs of one cell are in the order of the edges in the list. -/
theorem C62_pairs_via_2d_edges (hF : IsNew m extractAll x F) (h : ValidMesh m) (h2 : m.ndim = 2) (es : List (EdgeKey × Feature))
    (hes : ∀ e ∈ es, F.edges.get e.1 = some e.2) :
    ∃ pairs ls, F.getCellsPairsVia2dEdges (es.map (·.2)) = .ok pairs ∧ IsStableSort ls.flatten pairs ∧
      List.Forall₂ (fun (e : EdgeKey × Feature) l => ∃ ids, IsCellsOf (HasEdge m e.1) ids ∧ l = ids.map fun c => (c, e.2.points)) es ls := by
  obtain ⟨ls, l1, l2⟩ := mapM_forall (fun e : EdgeKey × Feature => F.getCellsPairsVia2dEdge e.2)
    (fun e l => ∃ ids, IsCellsOf (HasEdge m e.1) ids ∧ l = ids.map fun c => (c, e.2.points)) es
    (fun e he => by
      obtain ⟨ids, a, b⟩ := C62_pairs_via_2d_edge hF h h2 e.1 e.2 (hes e he)
      exact ⟨_, a, ids, b, rfl⟩)
  have e1 : (es.map (·.2)).mapM F.getCellsPairsVia2dEdge = .ok ls := by
    rw [Res.mapM_ok_iff, List.forall₂_map_left_iff, ← Res.mapM_ok_iff (fun e : EdgeKey × Feature => F.getCellsPairsVia2dEdge e.2)]
    exact l1
  unfold Features.getCellsPairsVia2dEdges
  rw [e1, Res.bind_ok]
  exact ⟨_, ls, rfl, sortByCell_stable _, l2⟩

/-- **C62.** `get_cells_pairs_via_faces` of stored faces. -/
theorem C62_pairs_via_faces (hF : IsNew m extractAll x F) (h : ValidMesh m) (hM : m.points.length ≤ usizeMax) (h3 : m.ndim = 3)
    (es : List (FaceKey × Feature)) (hes : ∀ e ∈ es, F.faces.get e.1 = some e.2) :
    ∃ pairs ls, F.getCellsPairsViaFaces (es.map (·.2)) = .ok pairs ∧ IsStableSort ls.flatten pairs ∧
      List.Forall₂ (fun (e : FaceKey × Feature) l => ∃ ids, IsCellsOf (HasFace m e.1) ids ∧ l = ids.map fun c => (c, e.2.points)) es ls := by
  obtain ⟨ls, l1, l2⟩ := mapM_forall (fun e : FaceKey × Feature => F.getCellsPairsViaFace e.2)
    (fun e l => ∃ ids, IsCellsOf (HasFace m e.1) ids ∧ l = ids.map fun c => (c, e.2.points)) es
    (fun e he => by
      obtain ⟨ids, a, b⟩ := C62_pairs_via_face hF h hM h3 e.1 e.2 (hes e he)
      exact ⟨_, a, ids, b, rfl⟩)
  have e1 : (es.map (·.2)).mapM F.getCellsPairsViaFace = .ok ls := by
    rw [Res.mapM_ok_iff, List.forall₂_map_left_iff, ← Res.mapM_ok_iff (fun e : FaceKey × Feature => F.getCellsPairsViaFace e.2)]
    exact l1
  unfold Features.getCellsPairsViaFaces
  rw [e1, Res.bind_ok]
  exact ⟨_, ls, rfl, sortByCell_stable _, l2⟩

/-- **C62.** An edge that is not an edge of a cell (for example, of another mesh): panic. -/
theorem C62_unknown_edge (f : Feature) (a b : Nat) (r : List Nat) (hp : f.points = a :: b :: r)
    (hn : F.all2dEdges.get (sort2 a b) = none) : F.getCellsPairsVia2dEdge f = .panic := by
  unfold Features.getCellsPairsVia2dEdge Feature.edgeKey
  rw [hp]
  simp [Res.idx, hn, unwrap]

/-- The hypotheses are met: the edge on the right of the unit square is stored, and belongs to cell 0 (asked twice: two pairs). -/
theorem C62_example (o : Orders) (ho : o.Valid) : ∃ F f, Features.new o square true = .ok F ∧ F.edges.get (1, 2) = some f ∧
    F.getCellsPairsVia2dEdges [f, f] = .ok [(0, f.points), (0, f.points)] := by
  obtain ⟨x, F, h1, h2, ⟨f, hf⟩, _⟩ := exists_features o ho
  obtain ⟨ids, g1, g2⟩ := C62_pairs_via_2d_edge h2 square_valid rfl (1, 2) f hf
  have hone : ∀ c e, HasEdge square (1, 2) c e ↔ (c, e) ∈ [(0, 1)] := by
    intro c e
    constructor
    · rintro ⟨cell, a, b, hc, -, he, ha, hb, -, hk⟩
      match c with
      | n + 1 => simp [square] at hc
      | 0 =>
        simp only [square, List.getElem?_cons_zero, Option.some.injEq] at hc
        subst hc
        have he' : e < 4 := he
        rcases hk with hk | hk <;> obtain ⟨rfl, rfl⟩ := Prod.mk.inj hk <;> interval_cases e <;>
          first | simp; done | exact absurd ha (by decide) | exact absurd hb (by decide)
    · intro h
      obtain ⟨rfl, rfl⟩ : c = 0 ∧ e = 1 := by simpa using h
      exact ⟨_, 2, 1, rfl, rfl, by decide, rfl, rfl, by decide, by decide⟩
  have hids : ids = [0] := by
    obtain ⟨-, l, l1, l2, l3⟩ := g2
    have : l.Perm [(0, 1)] := (List.perm_ext_iff_of_nodup l1 (by simp)).2 fun ⟨c, e⟩ => (l2 c e).trans (hone c e)
    exact List.perm_singleton.1 (l3.trans (this.map (·.1)))
  refine ⟨F, f, h1, hf, ?_⟩
  unfold Features.getCellsPairsVia2dEdges
  rw [List.mapM_cons, g1, Res.bind_ok, List.mapM_cons, g1, hids]
  rfl

end
end Gemlab.Props.Features
