import Verif.Proofs.GraphUnd4
import Mathlib.Tactic.IntervalCases

/-! # Properties of the undirected graph (C01–C05, C07, C08, C49) -/
namespace Gemlab.Props.GraphUnd
open Gemlab Gemlab.GraphUnd Gemlab.Spec

/-! ## A running example: a path 0–1–2–3 with a chord, and a mesh of two triangles -/

/-- Edges of a connected graph on five nodes. -/
def exEdges : Source := .edges [(0, 1), (1, 2), (2, 3), (3, 4), (1, 3)]
/-- A mesh with four points and two triangles. -/
def exMesh : Source := .mesh 4 [[0, 1, 2], [1, 3, 2]]

theorem exEdges_wf : exEdges.WF := by
  intro i hi
  have : i < 5 := hi
  interval_cases i <;> decide
theorem exMesh_wf : exMesh.WF := by intro c hc p hp; revert p; revert c; decide

example : exEdges.n = 5 := by decide
example : (exEdges.build true true).isOk = true := by decide +kernel
example : (exMesh.build true true).isOk = true := by decide +kernel
example : ((Source.edges [(0, 1), (2, 3)]).build true true).isErr = true := by decide +kernel

/-! ## C01 -/

/-- **C01.** With the connectivity check, construction succeeds exactly when the graph is connected, and otherwise returns
the "graph is disconnected" error (it never panics); for every acceptable input with at least one node. -/
theorem C01_connectivity_check_exact (src : Source) (hw : src.WF) (hn : 0 < src.n) (cd : Bool) :
    (Connected src.Adj src.n ↔ ∃ g, src.build cd true = .ok g) ∧
    (¬ Connected src.Adj src.n ↔ src.build cd true = .err msgDisconnected) := by
  obtain ⟨adj, h1, h2, h3, h4⟩ := build_adj src hw
  have hE : Edge adj = src.Adj := by funext x y; exact propext (h3 x y)
  have hsym : ∀ x y, src.Adj x y → src.Adj y x := by
    intro x y; rw [← h3, ← h3]; exact h2.symm x y
  have hconn : Connected src.Adj src.n ↔ ∀ u, u < adj.length → Reach (Edge adj) 0 u := by
    rw [h1, hE]
    constructor
    · intro h u hu; exact h 0 u hn hu
    · intro h a b ha hb
      obtain ⟨k, hk⟩ := reach_iff.1 (h a ha)
      obtain ⟨j, hj⟩ := reach_iff.1 (h b hb)
      exact reach_iff.2 ⟨_, (hk.symm hsym).trans hj⟩
  rw [h4, hconn]
  obtain ⟨e, _, h5⟩ := fromAdjacencySet_eq adj h2.ok cd true (by rw [h1]; exact fun _ => hn)
  rcases h5 with ⟨_, h5, h6⟩ | ⟨h5, h6⟩
  · rw [h6]; simp [h5]
  · have h5 := h5.resolve_left (by simp)
    rw [h6]; simpa using h5

/-- Without the check, construction always succeeds on acceptable input; the check never changes an accepted graph. -/
theorem C01_without_check (src : Source) (hw : src.WF) (cd : Bool) : ∃ g, src.build cd false = .ok g := by
  obtain ⟨adj, _, h2, _, h4⟩ := build_adj src hw
  rw [h4]
  obtain ⟨e, _, h5⟩ := fromAdjacencySet_eq adj h2.ok cd false (by simp)
  rcases h5 with ⟨h, _⟩ | ⟨_, h6⟩
  · simp at h
  · exact ⟨_, h6⟩

/-- Node ids that are not exactly `0..n-1` make `from_edges` panic (index out of range), and so does an empty
graph with the connectivity check. -/
theorem C01_bad_ids_panic (es : List (Nat × Nat)) (h : ¬ (Source.edges es).WF) (cd cc : Bool) :
    fromEdges es cd cc = .panic := by
  unfold fromEdges
  rw [adjInsertAll_panic]
  · rfl
  · simpa using countNodes_not_wf h

theorem C01_empty_graph_check_panics (cd : Bool) : fromEdges [] cd true = .panic :=
  build_panic_of_empty (src := .edges []) (by intro i hi; exact absurd hi (Nat.not_lt_zero i)) rfl cd

/-! ## Histories: the scratch vectors never matter -/

theorem isGraphOf_of_build {src : Source} (hw : src.WF) {cd cc : Bool} {g : Graph} (h : src.build cd cc = .ok g) :
    IsGraphOf src cd g := by
  refine ⟨cc, g, h, rfl, rfl, rfl, rfl, ?_⟩
  obtain ⟨adj, h1, h2, h3, h4⟩ := build_adj src hw
  have hn : cc = true → 0 < src.n := by
    rintro rfl
    rcases Nat.eq_zero_or_pos src.n with h0 | h0
    · rw [build_panic_of_empty hw h0] at h; simp at h
    · exact h0
  rw [h4] at h
  exact (fromAdjacencySet_facts h1 h2 h3 cd cc hn g h).elen

example : ∃ g, IsGraphOf exEdges true g := by
  obtain ⟨g, hg⟩ := C01_without_check exEdges exEdges_wf true
  exact ⟨g, isGraphOf_of_build exEdges_wf hg⟩

/-! ## C02 -/

/-- **C02.** `calc_distance(root)`, called on a graph object at any moment of its life: it succeeds, leaves the graph itself
unchanged, stores for each node reachable from `root` the smallest number of steps of a walk from `root`, stores 0 for
every unreachable node, and returns the largest stored value. -/
theorem C02_calc_distance (src : Source) (hw : src.WF) (cd : Bool) (g : Graph) (hg : IsGraphOf src cd g)
    (root : Nat) (hr : root < src.n) :
    ∃ g' depth, calcDistance g root = .ok (g', depth) ∧ IsGraphOf src cd g' ∧ g'.distance.length = src.n ∧
      (∀ u, u < src.n → ∃ d, g'.distance[u]? = some d ∧ d ≤ depth ∧
        (Reach src.Adj root u → IsDistance src.Adj root u d) ∧ (¬ Reach src.Adj root u → d = 0)) ∧
      ∃ u, u < src.n ∧ g'.distance[u]? = some depth := by
  have F := hg.facts hw
  obtain ⟨l, e, hl, he, hrun⟩ := calcDistance_eq F hr
  obtain ⟨m1, m2, m3⟩ := foldl_max_spec ((List.range src.n).map (gDist l)) 0
  refine ⟨_, _, hrun, ?_, by simp, ?_, ?_⟩
  · obtain ⟨cc, g0, hb, e1, e2, e3, e4, _⟩ := hg
    exact ⟨cc, g0, hb, e1, e2, e3, e4, he⟩
  · intro u hu
    refine ⟨gDist l u, by simp [hu], m2 _ (List.mem_map_of_mem (List.mem_range.2 hu)), ?_, ?_⟩
    · rw [← edge_eq F]; intro h; exact hl.isDistance (hl.mem_iff.2 h)
    · rw [← edge_eq F, ← hl.mem_iff]
      intro h; exact gDist_notMem (fun h' => h (List.mem_cons_of_mem _ h'))
  · rcases m3 with m3 | m3
    · refine ⟨root, hr, ?_⟩
      simp only
      rw [m3]; simp [hr, hl.root]
    · obtain ⟨u, hu, hu'⟩ := List.mem_map.1 m3
      have hu := List.mem_range.1 hu
      exact ⟨u, hu, by simp [hu, hu']⟩

/-! ## C03 -/

/-- **C03.** `shortest_path_bfs(source, destination)` terminates; for a reachable destination it returns a walk from source
to destination along edges of the graph that no other walk beats. -/
theorem C03_shortest_path (src : Source) (hw : src.WF) (cd : Bool) (g : Graph) (hg : IsGraphOf src cd g)
    (s d : Nat) (hs : s < src.n) (hreach : Reach src.Adj s d) :
    ∃ g' path, shortestPathBfs g s d = some (.ok (g', path)) ∧ IsGraphOf src cd g' ∧
      IsWalk src.Adj path s d ∧ ∀ w, IsWalk src.Adj w s d → path.length ≤ w.length := by
  have F := hg.facts hw
  have hs' : s < g.adjacency.length := by rw [F.len]; exact hs
  obtain ⟨l, e, hl, he, _, hrun⟩ := bfs_log F.sym.ok hs'
  rw [← edge_eq F] at hreach ⊢
  have hd := hl.mem_iff.2 hreach
  have hfuel : gDist l d ≤ g.adjacency.length := by
    have := gDist_le_length l d; have := hl.length; omega
  obtain ⟨w, hw1, hw2, hw3⟩ := backtrack_walk hl g.adjacency.length d [d] hd hfuel
  refine ⟨{ g with explored := e, queue := [], distance := (List.range g.adjacency.length).map (gDist l), parent := (List.range g.adjacency.length).map (gPar l) },
    w ++ [d], ?_, ?_, hw2, ?_⟩
  · unfold shortestPathBfs
    simp only
    rw [if_neg (by rw [F.elen]; omega), hrun, replay_path l hl.bounds]
    simp only [Res.bind_ok]
    rw [hw1]
  · obtain ⟨cc, g0, hb, e1, e2, e3, e4, _⟩ := hg
    exact ⟨cc, g0, hb, e1, e2, e3, e4, he⟩
  · intro w' hw'
    have := (hl.isDistance hd).2 w' hw'
    simp [hw3]; omega

/-- **C03, unreachable destination.** The function does not report an error: it returns the one-element path
`[destination]`, which a caller can only tell apart by looking at its first entry. -/
theorem C03_unreachable (src : Source) (hw : src.WF) (cd : Bool) (g : Graph) (hg : IsGraphOf src cd g)
    (s d : Nat) (hs : s < src.n) (hd : d < src.n) (hreach : ¬ Reach src.Adj s d) :
    ∃ g', shortestPathBfs g s d = some (.ok (g', [d])) ∧ IsGraphOf src cd g' := by
  have F := hg.facts hw
  have hs' : s < g.adjacency.length := by rw [F.len]; exact hs
  obtain ⟨l, e, hl, he, _, hrun⟩ := bfs_log F.sym.ok hs'
  rw [← edge_eq F, ← hl.mem_iff] at hreach
  refine ⟨{ g with explored := e, queue := [], distance := (List.range g.adjacency.length).map (gDist l), parent := (List.range g.adjacency.length).map (gPar l) },
    ?_, ?_⟩
  · unfold shortestPathBfs
    simp only
    rw [if_neg (by rw [F.elen]; omega), hrun, replay_path l hl.bounds]
    simp only [Res.bind_ok]
    rw [backtrack_unreached _ _ _ hreach (by rw [F.len]; exact hd)]
  · obtain ⟨cc, g0, hb, e1, e2, e3, e4, _⟩ := hg
    exact ⟨cc, g0, hb, e1, e2, e3, e4, he⟩

/-- The hypotheses are met, and the answer is not trivial: from node 0 to node 4 of the example graph. -/
example : ((exEdges.build true true).bind fun g =>
    match shortestPathBfs g 0 4 with
    | some (.ok (_, path)) => .ok path
    | _ => .panic) = .ok [0, 1, 3, 4] := by decide +kernel

/-! ## C49 -/

theorem ecc_of_log {src : Source} {cd : Bool} {g : Graph} (F : Facts src cd g) (hc : Connected src.Adj src.n) {root : Nat}
    (hr : root < src.n) {l : List (Nat × Nat)} (hl : LogSpec g.adjacency root l) :
    IsEccentricity src.Adj src.n root (((List.range src.n).map (gDist l)).foldl (fun m d => if d > m then d else m) 0) ∧
    ∀ u, u < src.n → IsDistance src.Adj root u (gDist l u) := by
  have hd : ∀ u, u < src.n → IsDistance src.Adj root u (gDist l u) := by
    intro u hu
    rw [← edge_eq F]
    apply hl.isDistance
    rw [hl.mem_iff, edge_eq F]; exact hc root u hr hu
  obtain ⟨m1, m2, m3⟩ := foldl_max_spec ((List.range src.n).map (gDist l)) 0
  refine ⟨⟨?_, ?_⟩, hd⟩
  · rcases m3 with m3 | m3
    · refine ⟨root, hr, ?_⟩
      rw [m3]; have := hd root hr; rwa [hl.root] at this
    · obtain ⟨u, hu, hu'⟩ := List.mem_map.1 m3
      have hu := List.mem_range.1 hu
      exact ⟨u, hu, by rw [← hu']; exact hd u hu⟩
  · intro u d hu hud
    rw [isDistance_unique hud (hd u hu)]
    exact m2 _ (List.mem_map_of_mem (List.mem_range.2 hu))

theorem ppLoop_spec {src : Source} (hw : src.WF) (hc : Connected src.Adj src.n) (n : Nat) :
    ∀ (g : Graph) (root maxD : Nat), IsGraphOf src true g → root < src.n → IsEccentricity src.Adj src.n root maxD →
      g.distance.length = src.n → (∀ u, u < src.n → ∃ d, g.distance[u]? = some d ∧ IsDistance src.Adj root u d) →
      ppLoop n g root maxD ≠ .panic ∧
      ∀ g' r, ppLoop n g root maxD = .ok (g', r) → IsGraphOf src true g' ∧ r < src.n ∧
        ∃ prev k, prev < src.n ∧ maxD ≤ k ∧ IsEccentricity src.Adj src.n prev k ∧ IsEccentricity src.Adj src.n r k ∧
          IsDistance src.Adj prev r k ∧
          ∀ v dr dv, v < src.n → IsDistance src.Adj prev v k → getDegree g r = .ok dr → getDegree g v = .ok dv → dr ≤ dv := by
  induction n with
  | zero => intro g root maxD _ _ _ _ _; simp [ppLoop]
  | succ n ih =>
    intro g root maxD hg hr hecc hlen hdist
    have F := hg.facts hw
    have hdl : g.degree.length = src.n := by rw [F.deg]; simp [F.len]
    have hsym : ∀ x y, src.Adj x y → src.Adj y x := by
      intro x y; rw [← F.mem, ← F.mem]; exact F.sym.symm x y
    unfold ppLoop
    cases hnr : nextRoot g.distance g.degree maxD with
    | none =>
      exfalso
      obtain ⟨u, hu, hud⟩ := hecc.1
      obtain ⟨d, hd1, hd2⟩ := hdist u hu
      rw [isDistance_unique hd2 hud] at hd1
      exact nextRoot_none (by rw [hlen, hdl]) hnr u hd1
    | some r =>
      simp only
      obtain ⟨hr1, m, hr2, hr3⟩ := nextRoot_some hnr
      have hrn : r < src.n := by rw [← hlen]; exact (List.getElem?_eq_some_iff.1 hr1).1
      obtain ⟨l, e, hl, he, hrun⟩ := calcDistance_eq F hrn
      obtain ⟨hecc', hd'⟩ := ecc_of_log F hc hrn hl
      rw [hrun]
      simp only
      generalize hD : List.foldl (fun m d => if d > m then d else m) 0 ((List.range src.n).map (gDist l)) = D at *
      have hg' : IsGraphOf src true { g with explored := e, queue := [], distance := (List.range src.n).map (gDist l) } := by
        obtain ⟨cc, g0, hb, e1, e2, e3, e4, _⟩ := hg
        exact ⟨cc, g0, hb, e1, e2, e3, e4, he⟩
      have hdr : IsDistance src.Adj root r maxD := by
        obtain ⟨d, hd1, hd2⟩ := hdist r hrn
        rw [hr1] at hd1; injection hd1 with hd1; subst hd1; exact hd2
      have hle : maxD ≤ D := hecc'.2 root maxD hr (isDistance_symm hsym hdr)
      by_cases hDm : D = maxD
      · rw [if_pos hDm]
        refine ⟨by simp, ?_⟩
        intro g' r' h
        simp only [Res.ok.injEq, Prod.mk.injEq] at h
        obtain ⟨h1, h2⟩ := h
        subst h1; subst h2
        refine ⟨hg', hrn, root, maxD, hr, Nat.le_refl _, hecc, by rw [← hDm]; exact hecc', hdr, ?_⟩
        intro v dr dv hv hvk hdr' hdv'
        have gd : ∀ x d, x < src.n → getDegree g x = .ok d → g.degree[x]? = some d := by
          intro x d hx h
          unfold getDegree at h
          rw [if_neg (by simp [hdl, F.len]), if_neg (by rw [F.len]; omega)] at h
          simpa using h
        have h1 := gd _ _ hrn hdr'
        have h2 := gd _ _ hv hdv'
        rw [hr2] at h1; injection h1 with h1; subst h1
        refine hr3 v dv ?_ h2
        obtain ⟨d, hd1, hd2⟩ := hdist v hv
        rw [isDistance_unique hd2 hvk] at hd1; exact hd1
      · rw [if_neg hDm]
        have := ih { g with explored := e, queue := [], distance := (List.range src.n).map (gDist l) } r D hg' hrn hecc'
          (by simp) (fun u hu => ⟨gDist l u, by simp [hu], hd' u hu⟩)
        refine ⟨this.1, ?_⟩
        intro g' r' h
        obtain ⟨h1, h2, prev, k, h3, h4, h5, h6, h7, h8⟩ := this.2 g' r' h
        exact ⟨h1, h2, prev, k, h3, by omega, h5, h6, h7, h8⟩

/-- **C49.** On a connected graph with degrees, `pseudo_peripheral(start)` never panics, and when it returns a node `r`
(it may also give up with an error after ten iterations) then the eccentricity of `r` is at least that of the start node;
moreover `r` lies at the eccentric distance `k` of a node `prev` which has the same eccentricity `k`, and no node at that
distance from `prev` has a smaller degree. -/
theorem C49_pseudo_peripheral (src : Source) (hw : src.WF) (hn : 0 < src.n) (hc : Connected src.Adj src.n) (g : Graph)
    (hg : IsGraphOf src true g) (start : Option Nat) (hstart : ∀ s, start = some s → s < src.n) :
    pseudoPeripheral g start ≠ .panic ∧
    ∀ g' r, pseudoPeripheral g start = .ok (g', r) → IsGraphOf src true g' ∧ r < src.n ∧
      ∃ prev k, prev < src.n ∧ IsEccentricity src.Adj src.n prev k ∧ IsEccentricity src.Adj src.n r k ∧
        IsDistance src.Adj prev r k ∧
        (∀ k0, IsEccentricity src.Adj src.n (start.getD g.pMinDegree) k0 → k0 ≤ k) ∧
        ∀ v dr dv, v < src.n → IsDistance src.Adj prev v k → getDegree g r = .ok dr → getDegree g v = .ok dv → dr ≤ dv := by
  have F := hg.facts hw
  have hdl : g.degree.length = src.n := by rw [F.deg]; simp [F.len]
  have hroot : start.getD g.pMinDegree < src.n := by
    cases start with
    | some s => exact hstart s rfl
    | none =>
      simp only [Option.getD_none]
      rw [F.pmin]
      obtain ⟨m, h1, _⟩ := pMinDegree_spec g.degree (by intro h; rw [h] at hdl; simp at hdl; omega)
      rw [← hdl]; exact (List.getElem?_eq_some_iff.1 h1).1
  unfold pseudoPeripheral
  rw [if_neg (by simp [hdl, F.len])]
  simp only
  generalize start.getD g.pMinDegree = root at *
  obtain ⟨l, e, hl, he, hrun⟩ := calcDistance_eq F hroot
  obtain ⟨hecc', hd'⟩ := ecc_of_log F hc hroot hl
  rw [hrun]
  simp only
  generalize hD : List.foldl (fun m d => if d > m then d else m) 0 ((List.range src.n).map (gDist l)) = D at *
  have hg' : IsGraphOf src true { g with explored := e, queue := [], distance := (List.range src.n).map (gDist l) } := by
    obtain ⟨cc, g0, hb, e1, e2, e3, e4, _⟩ := hg
    exact ⟨cc, g0, hb, e1, e2, e3, e4, he⟩
  have := ppLoop_spec hw hc 10 { g with explored := e, queue := [], distance := (List.range src.n).map (gDist l) } root D
    hg' hroot hecc' (by simp) (fun u hu => ⟨gDist l u, by simp [hu], hd' u hu⟩)
  refine ⟨this.1, ?_⟩
  intro g' r h
  obtain ⟨h1, h2, prev, k, h3, h4, h5, h6, h7, h8⟩ := this.2 g' r h
  refine ⟨h1, h2, prev, k, h3, h5, h6, h7, ?_, h8⟩
  intro k0 hk0
  obtain ⟨u, hu, hud⟩ := hk0.1
  have := hecc'.2 u k0 hu hud
  omega

/-! ## C04 -/

/-- **C04.** On a connected graph with degrees, `cuthill_mckee(start)` never panics; with an explicit start node it always
succeeds (without one, it can only fail with the error of `pseudo_peripheral`); and every ordering it returns is a permutation
of all node ids. -/
theorem C04_cuthill_mckee_permutation (src : Source) (hw : src.WF) (hn : 0 < src.n) (hc : Connected src.Adj src.n) (g : Graph)
    (hg : IsGraphOf src true g) (start : Option Nat) (hstart : ∀ s, start = some s → s < src.n) :
    cuthillMckee g start ≠ .panic ∧
    (∀ s, start = some s → ∃ g' ordering, cuthillMckee g start = .ok (g', ordering)) ∧
    (∀ m, cuthillMckee g start = .err m → start = none ∧ m = msgNoConvergence) ∧
    ∀ g' ordering, cuthillMckee g start = .ok (g', ordering) →
      IsGraphOf src true g' ∧ ordering.Perm (List.range src.n) := by
  have F := hg.facts hw
  have hdl : g.degree.length = src.n := by rw [F.deg]; simp [F.len]
  -- the second half, once a root is known
  have main : ∀ (g1 : Graph) (root : Nat), IsGraphOf src true g1 → root < src.n →
      ∃ g2 ordering, cmFrom g1 root = .ok (g2, ordering) ∧ IsGraphOf src true g2 ∧ ordering.Perm (List.range src.n) := by
    intro g1 root hg1 hroot
    have F1 := hg1.facts hw
    have hroot' : root < g1.adjacency.length := by rw [F1.len]; exact hroot
    obtain ⟨l, e, hl, he, _, hrun⟩ := bfs_log F1.sym.ok hroot'
    have hall : ∀ u, u < src.n → u ∈ root :: l.map Prod.fst := by
      intro u hu; rw [hl.mem_iff, edge_eq F1]; exact hc root u hroot hu
    have hperm : (root :: l.map Prod.fst).Perm (List.range src.n) := by
      rw [List.perm_ext_iff_of_nodup hl.nodup List.nodup_range]
      intro x
      constructor
      · intro hx; have := hl.lt x hx; rw [F1.len] at this; simpa using this
      · intro hx; exact hall x (by simpa using hx)
    have hll : l.length + 1 = src.n := by simpa using hperm.length_eq
    unfold cmFrom
    simp only
    rw [if_neg (by rw [F1.elen]; omega), if_pos hroot', hrun, replay_cm l (by rw [F1.len]; omega)]
    refine ⟨_, _, rfl, ?_, ?_⟩
    · obtain ⟨cc, g0, hb, e1, e2, e3, e4, _⟩ := hg1
      exact ⟨cc, g0, hb, e1, e2, e3, e4, he⟩
    · have h0 : g1.adjacency.length - (l.length + 1) = 0 := by rw [F1.len]; omega
      rw [h0]
      simp only [List.replicate_zero, List.append_nil]
      exact (List.reverse_perm _).trans hperm
  unfold cuthillMckee
  rw [if_neg (by simp [hdl, F.len])]
  cases start with
  | some s =>
    obtain ⟨g2, o, h1, h2, h3⟩ := main g s hg (hstart s rfl)
    simp only
    rw [h1]
    refine ⟨by simp, fun _ _ => ⟨_, _, rfl⟩, by simp, ?_⟩
    intro g' ordering h
    simp only [Res.ok.injEq, Prod.mk.injEq] at h
    obtain ⟨h4, h5⟩ := h
    subst h4; subst h5
    exact ⟨h2, h3⟩
  | none =>
    obtain ⟨hp, hok⟩ := C49_pseudo_peripheral src hw hn hc g hg none (by simp)
    cases hpp : pseudoPeripheral g none with
    | panic => exact absurd hpp hp
    | err m =>
      simp only
      refine ⟨by simp, by simp, ?_, by simp⟩
      intro m' h
      injection h with h
      subst h
      refine ⟨trivial, ?_⟩
      -- the only error of `pseudo_peripheral` with degrees available is non-convergence
      unfold pseudoPeripheral at hpp
      rw [if_neg (by simp [hdl, F.len])] at hpp
      have hcd : ∀ g r m, calcDistance g r ≠ .err m := by
        intro g r m h
        unfold calcDistance at h
        simp only at h
        split at h
        · simp at h
        · unfold bfs at h
          have herr : ∀ row a (s : Bfs (List Nat)), visitRow visitDist a row s ≠ .err m := by
            intro row
            induction row with
            | nil => intro a s h; simp [visitRow] at h
            | cons b bs ih =>
              intro a s h
              unfold visitRow at h
              split at h
              · simp at h
              · exact ih _ _ h
              · split at h
                · exact ih _ _ h
                · rename_i m' hv
                  unfold visitDist Res.idx Res.setIdx at hv
                  split at hv
                  · simp only [Res.bind_ok] at hv; split at hv <;> simp at hv
                  · simp at hv
                · simp at h
          have herr2 : ∀ (s : Bfs (List Nat)), bfsLoop visitDist g.adjacency s ≠ .err m := by
            intro s h
            fun_induction bfsLoop visitDist g.adjacency s with
            | case1 => simp at h
            | case2 => simp at h
            | case3 s a q hq row hrow s1 hr ih => exact ih h
            | case4 s a q hq row hrow m' hr =>
              injection h with h; subst h; exact herr _ _ _ hr
            | case5 => simp at h
          split at h
          · simp at h
          · rename_i m' hm
            injection h with h; subst h
            split at hm
            · exact herr2 _ hm
            · simp at hm
          · simp at h
      have hloop : ∀ n g r d m, ppLoop n g r d = .err m → m = msgNoConvergence := by
        intro n
        induction n with
        | zero => intro g r d m h; simp [ppLoop] at h; exact h.symm
        | succ n ih =>
          intro g r d m h
          unfold ppLoop at h
          split at h
          · simp at h
          · split at h
            · split at h
              · simp at h
              · exact ih _ _ _ _ h
            · rename_i hx; exact absurd hx (hcd _ _ _)
            · simp at h
      simp only at hpp
      split at hpp
      · exact hloop _ _ _ _ _ hpp
      · rename_i hx; exact absurd hx (hcd _ _ _)
      · simp at hpp
    | ok x =>
      obtain ⟨g1, root⟩ := x
      obtain ⟨hg1, hroot, _⟩ := hok g1 root hpp
      obtain ⟨g2, o, h1, h2, h3⟩ := main g1 root hg1 hroot
      simp only
      rw [h1]
      refine ⟨by simp, fun _ _ => ⟨_, _, rfl⟩, by simp, ?_⟩
      intro g' ordering h
      simp only [Res.ok.injEq, Prod.mk.injEq] at h
      obtain ⟨h4, h5⟩ := h
      subst h4; subst h5
      exact ⟨h2, h3⟩

/-- The connectedness hypothesis of C04 is needed: on a disconnected graph (accepted when the connectivity check is off)
the code returns `Ok` with an ordering that is not a permutation (node 0 appears three times, nodes 2 and 3 are missing). -/
theorem C04_disconnected_not_permutation :
    ((fromEdges [(0, 1), (2, 3)] true false).bind fun g => (cuthillMckee g (some 1)).bind fun r => .ok r.2) =
      .ok [0, 0, 0, 1] ∧ ¬ [0, 0, 0, 1].Perm (List.range 4) := by
  decide +kernel

/-- Non-vacuity: both ways of choosing the start node succeed on the example graphs. -/
example : ((exEdges.build true true).bind fun g => (cuthillMckee g none).bind fun r => .ok r.2) = .ok [0, 1, 2, 3, 4] ∧
    ((exMesh.build true true).bind fun g => (cuthillMckee g (some 3)).bind fun r => .ok r.2) = .ok [0, 2, 1, 3] := by
  decide +kernel

/-! ## C05 -/

/-- **C05.** For a permutation `ordering` of `0..n-1`, the old-to-new map exists (no panic), is again a permutation, and is the
inverse of `ordering` on both sides. -/
theorem C05_old_to_new_inverse (ordering : List Nat) (h : ordering.Perm (List.range ordering.length)) :
    ∃ m, getOldToNewMap ordering = .ok m ∧ m.Perm (List.range ordering.length) ∧
      (∀ i p : Nat, ordering[i]? = some p → m[p]? = some i) ∧
      (∀ j q : Nat, m[j]? = some q → ordering[q]? = some j) := by
  have hnd : ordering.Nodup := h.nodup_iff.2 List.nodup_range
  have hlt : ∀ x ∈ ordering, x < ordering.length := fun x hx => by simpa using h.mem_iff.1 hx
  -- loop invariant
  have key : ∀ (l pre : List Nat) (m : List Nat), ordering = pre ++ l → m.length = ordering.length →
      (∀ i p : Nat, pre[i]? = some p → m[p]? = some i) →
      ∃ m', (l.zipIdx pre.length).foldlM (fun m (on : Nat × Nat) => Res.setIdx m on.1 on.2) m = .ok m' ∧
        m'.length = ordering.length ∧ ∀ i p : Nat, ordering[i]? = some p → m'[p]? = some i := by
    intro l
    induction l with
    | nil =>
      intro pre m ho hm hinv
      refine ⟨m, rfl, hm, ?_⟩
      rw [ho]; simpa using hinv
    | cons x xs ih =>
      intro pre m ho hm hinv
      have hx : x < m.length := by rw [hm]; exact hlt x (by rw [ho]; simp)
      simp only [List.zipIdx_cons, List.foldlM_cons]
      rw [Res.setIdx_of_lt hx]
      simp only [Res.bind_ok]
      have := ih (pre ++ [x]) (m.set x pre.length) (by rw [ho]; simp) (by simpa using hm) ?_
      · simpa using this
      · intro i p hp
        rw [List.getElem?_append] at hp
        split at hp
        · rename_i hi
          have hne : x ≠ p := by
            rintro rfl
            rw [ho] at hnd
            rw [List.nodup_append] at hnd
            exact hnd.2.2 x (List.mem_of_getElem? hp) x (by simp) rfl
          rw [List.getElem?_set_ne hne]
          exact hinv i p hp
        · rename_i hi
          have := List.getElem?_eq_some_iff.1 hp
          simp at this
          obtain ⟨h1, h2⟩ := this
          subst h2
          rw [List.getElem?_set_self hx]
          congr 1; omega
  obtain ⟨m, h1, h2, h3⟩ := key ordering [] (List.replicate ordering.length 0) rfl (by simp) (by simp)
  have h4 : ∀ j q : Nat, m[j]? = some q → ordering[q]? = some j := by
    intro j q hj
    have hjl : j < ordering.length := by rw [← h2]; exact (List.getElem?_eq_some_iff.1 hj).1
    have hjm : j ∈ ordering := h.mem_iff.2 (by simpa using hjl)
    obtain ⟨i, hi⟩ := List.getElem?_of_mem hjm
    have := h3 i j hi
    rw [hj] at this; injection this with this; subst this; exact hi
  refine ⟨m, h1, ?_, h3, h4⟩
  have hmn : m.Nodup := by
    rw [List.nodup_iff_getElem?_ne_getElem?]
    intro i j hij hj heq
    have h5 := h4 j _ (List.getElem?_eq_getElem hj)
    rw [List.getElem?_eq_getElem hj] at heq
    have h6 := h4 i _ heq
    rw [h5] at h6; injection h6; omega
  apply perm_range_of_nodup hmn h2
  intro x hx
  obtain ⟨j, hj⟩ := List.getElem?_of_mem hx
  exact (List.getElem?_eq_some_iff.1 (h4 j x hj)).1

example : getOldToNewMap [2, 0, 3, 1] = .ok [1, 3, 0, 2] := by decide

/-! ## C07 -/

/-- **C07.** `calc_bandwidth` of a graph with at least one node is the half-bandwidth of its adjacency matrix including the
diagonal: one plus the largest `j - i` over adjacent `i < j` (so 1 if there is no such pair). -/
theorem C07_bandwidth (src : Source) (hw : src.WF) (hn : 0 < src.n) (cd : Bool) (g : Graph) (hg : IsGraphOf src cd g) :
    (∀ i j, src.Adj i j → i < j → (j - i) + 1 ≤ calcBandwidth g) ∧
    (calcBandwidth g = 1 ∨ ∃ i j, src.Adj i j ∧ i < j ∧ calcBandwidth g = (j - i) + 1) := by
  have F := hg.facts hw
  -- inner loop
  have inner : ∀ (row : List Nat) (i b0 : Nat),
      let b := row.foldl (fun bi j => if j > i then (if (j - i) + 1 > bi then (j - i) + 1 else bi) else bi) b0
      b0 ≤ b ∧ (∀ j ∈ row, i < j → (j - i) + 1 ≤ b) ∧ (b = b0 ∨ ∃ j ∈ row, i < j ∧ b = (j - i) + 1) := by
    intro row i
    induction row with
    | nil => simp
    | cons x xs ih =>
      intro b0
      simp only [List.foldl_cons]
      obtain ⟨h1, h2, h3⟩ := ih (if x > i then (if (x - i) + 1 > b0 then (x - i) + 1 else b0) else b0)
      generalize List.foldl _ _ xs = b at *
      refine ⟨?_, ?_, ?_⟩
      · split at h1
        · split at h1 <;> omega
        · exact h1
      · intro j hj hij
        rcases List.mem_cons.1 hj with rfl | hj
        · rw [if_pos hij] at h1
          split at h1 <;> omega
        · exact h2 j hj hij
      · rcases h3 with h3 | ⟨j, hj, h3⟩
        · split at h3
          · split at h3
            · right; exact ⟨x, by simp, by omega, h3⟩
            · left; exact h3
          · left; exact h3
        · right; exact ⟨j, by simp [hj], h3⟩
  -- outer loop
  have outer : ∀ (rows : List (List Nat × Nat)) (b0 : Nat),
      let b := rows.foldl (fun band (ri : List Nat × Nat) =>
        let bandI := ri.1.foldl (fun bi j =>
          if j > ri.2 then
            let delta := (j - ri.2) + 1
            if delta > bi then delta else bi
          else bi) 1
        if bandI > band then bandI else band) b0
      b0 ≤ b ∧ (rows ≠ [] → 1 ≤ b) ∧ (∀ ri ∈ rows, ∀ j ∈ ri.1, ri.2 < j → (j - ri.2) + 1 ≤ b) ∧
      (b = b0 ∨ b = 1 ∨ ∃ ri ∈ rows, ∃ j ∈ ri.1, ri.2 < j ∧ b = (j - ri.2) + 1) := by
    intro rows
    induction rows with
    | nil => simp
    | cons x xs ih =>
      intro b0
      simp only [List.foldl_cons]
      obtain ⟨i1, i2, i3⟩ := inner x.1 x.2 1
      generalize hbi : x.1.foldl (fun bi j =>
          if j > x.2 then (if (j - x.2) + 1 > bi then (j - x.2) + 1 else bi) else bi) 1 = bi at *
      obtain ⟨h1, h2, h3, h4⟩ := ih (if bi > b0 then bi else b0)
      simp only at h1 h2 h3 h4
      generalize List.foldl _ _ xs = b at *
      refine ⟨?_, ?_, ?_, ?_⟩
      · split at h1 <;> omega
      · intro _; split at h1 <;> omega
      · intro ri hri j hj hij
        rcases List.mem_cons.1 hri with rfl | hri
        · have := i2 j hj hij
          split at h1 <;> omega
        · exact h3 ri hri j hj hij
      · rcases h4 with h4 | h4 | ⟨ri, hri, h4⟩
        · split at h4
          · rcases i3 with i3 | ⟨j, hj, hij, i3⟩
            · right; left; omega
            · right; right; exact ⟨x, by simp, j, hj, hij, by omega⟩
          · left; exact h4
        · right; left; exact h4
        · right; right; exact ⟨ri, by simp [hri], h4⟩
  obtain ⟨_, h2, h3, h4⟩ := outer g.adjacency.zipIdx 0
  have hz : ∀ i, i < src.n → (nbr g.adjacency i, i) ∈ g.adjacency.zipIdx := by
    intro i hi
    rw [List.mem_zipIdx_iff_getElem?]
    exact nbr_eq (by rw [F.len]; exact hi)
  have hne : g.adjacency.zipIdx ≠ [] := by
    intro h; have := hz 0 hn; rw [h] at this; simp at this
  constructor
  · intro i j hij hlt
    rw [← F.mem] at hij
    have hi : i < src.n := by
      have := F.sym.ok j i (F.sym.symm _ _ hij); rwa [F.len] at this
    exact h3 _ (hz i hi) j hij hlt
  · rcases h4 with h4 | h4 | ⟨ri, hri, j, hj, hij, h4⟩
    · have := h2 hne; rw [h4] at this; omega
    · exact Or.inl h4
    · right
      refine ⟨ri.2, j, ?_, hij, h4⟩
      rw [← F.mem]
      have hri' : g.adjacency[ri.2]? = some ri.1 := List.mem_zipIdx_iff_getElem?.1 hri
      have hlt := (List.getElem?_eq_some_iff.1 hri').1
      rw [nbr_eq hlt] at hri'; injection hri' with hri'; rw [hri']; exact hj

example : ((exEdges.build false true).bind fun g => .ok (calcBandwidth g)) = .ok 3 := by decide +kernel

/-! ## C08 -/

/-- **C08 (adjacency queries).** `has_edge` answers exactly the adjacency of the input and is symmetric; the degree of a node is
the number of its neighbours (the length of a duplicate-free list of exactly the neighbours, sorted by (degree, id) when degrees
are computed and by id otherwise). -/
theorem C08_has_edge_and_degree (src : Source) (hw : src.WF) (cd : Bool) (g : Graph) (hg : IsGraphOf src cd g) :
    (∀ a b, hasEdge g a b = true ↔ src.Adj a b) ∧
    (∀ a b, hasEdge g a b = hasEdge g b a) ∧
    (∀ a, a < src.n → ∃ row : List Nat, g.adjacency[a]? = some row ∧ row.Nodup ∧ (∀ b, b ∈ row ↔ src.Adj a b) ∧
      (cd = true → getDegree g a = .ok row.length ∧
        ∀ i j p q : Nat, i < j → row[i]? = some p → row[j]? = some q →
          ∃ dp dq, getDegree g p = .ok dp ∧ getDegree g q = .ok dq ∧ (dp < dq ∨ (dp = dq ∧ p < q))) ∧
      (cd = false → row.Pairwise (· < ·) ∧ (getDegree g a).isErr = true)) := by
  have F := hg.facts hw
  have hE : ∀ a b, hasEdge g a b = true ↔ src.Adj a b := by
    intro a b
    unfold hasEdge
    rw [← F.mem]
    split
    · rename_i h
      simp only [Bool.false_eq_true, false_iff]
      intro hb
      have h1 := F.sym.ok a b hb
      have h2 := F.sym.ok b a (F.sym.symm _ _ hb)
      omega
    · simp [nbr]
  have hsym : ∀ x y, src.Adj x y ↔ src.Adj y x := by
    intro x y; rw [← F.mem, ← F.mem]; exact ⟨F.sym.symm x y, F.sym.symm y x⟩
  refine ⟨hE, ?_, ?_⟩
  · intro a b
    rw [Bool.eq_iff_iff, hE, hE]; exact hsym a b
  · intro a ha
    have ha' : a < g.adjacency.length := by rw [F.len]; exact ha
    have hnd : (nbr g.adjacency a).Pairwise (· ≠ ·) := F.sym.nodup a
    refine ⟨nbr g.adjacency a, nbr_eq ha', F.sym.nodup a, F.mem a, ?_, ?_⟩
    · rintro rfl
      have hdeg : ∀ p, p < src.n → getDegree g p = .ok (nbr g.adjacency p).length := by
        intro p hp
        unfold getDegree
        rw [if_neg (by simp [F.deg]), if_neg (by rw [F.len]; omega)]
        rw [Res.idx_eq_ok, F.deg]
        simp [nbr_eq (show p < g.adjacency.length by rw [F.len]; exact hp)]
      refine ⟨hdeg a ha, ?_⟩
      intro i j p q hij hp hq
      obtain ⟨hi, rfl⟩ := List.getElem?_eq_some_iff.1 hp
      obtain ⟨hj, rfl⟩ := List.getElem?_eq_some_iff.1 hq
      have hs := List.pairwise_iff_getElem.1 (F.sorted a) i j hi hj hij
      have hn := List.pairwise_iff_getElem.1 hnd i j hi hj hij
      have hpn := F.sym.ok a _ (List.getElem_mem hi)
      have hqn := F.sym.ok a _ (List.getElem_mem hj)
      refine ⟨_, _, hdeg _ (by rw [← F.len]; exact hpn), hdeg _ (by rw [← F.len]; exact hqn), ?_⟩
      generalize (nbr g.adjacency a)[i] = p at *
      generalize (nbr g.adjacency a)[j] = q at *
      simp only [if_true] at hs
      have hget : ∀ x, x < g.adjacency.length → g.degree.getD x 0 = (nbr g.adjacency x).length := by
        intro x hx
        rw [F.deg]
        simp [List.getD, nbr_eq hx]
      simp only [leByDegree, hget p hpn, hget q hqn, Bool.or_eq_true, Bool.and_eq_true, decide_eq_true_eq] at hs
      omega
    · rintro rfl
      constructor
      · have := F.sorted a
        simp only [Bool.false_eq_true, if_false] at this
        exact (this.and hnd).imp (fun h => by omega)
      · have hd : g.degree = [] := by rw [F.deg]; simp
        unfold getDegree
        rw [if_pos (by rw [hd]; simp; omega)]
        rfl

/-- **C08 (edge list).** `get_edges` lists every adjacent pair `a < b` exactly once, and nothing else; when no node is
adjacent to itself (always so for graphs of meshes), `get_nedge` is the number of those edges. -/
theorem C08_edge_list (src : Source) (hw : src.WF) (cd : Bool) (g : Graph) (hg : IsGraphOf src cd g) :
    (getEdges g).Nodup ∧ (∀ a b, (a, b) ∈ getEdges g ↔ a < b ∧ src.Adj a b) ∧
    ((∀ a, ¬ src.Adj a a) → g.nedge = (getEdges g).length) := by
  have F := hg.facts hw
  refine ⟨?_, ?_, ?_⟩
  · unfold getEdges
    rw [List.nodup_flatMap]
    constructor
    · intro ra hra
      apply List.Nodup.map
      · intro x y h; simpa using h
      · apply List.Nodup.filter
        obtain ⟨row, i⟩ := ra
        have hri' : g.adjacency[i]? = some row := List.mem_zipIdx_iff_getElem?.1 hra
        have hlt := (List.getElem?_eq_some_iff.1 hri').1
        rw [nbr_eq hlt] at hri'; injection hri' with hri'
        simp only
        rw [← hri']; exact F.sym.nodup i
    · rw [List.pairwise_iff_getElem]
      intro i j hi hj hij
      simp only [List.getElem_zipIdx, Function.onFun]
      rw [List.disjoint_left]
      rintro ⟨x, y⟩ h1 h2
      simp at h1 h2
      omega
  · intro a b
    unfold getEdges
    simp only [List.mem_flatMap, List.mem_map, List.mem_filter, decide_eq_true_eq, Prod.mk.injEq]
    constructor
    · rintro ⟨⟨row, i⟩, hri, j, ⟨hj, hlt⟩, rfl, rfl⟩
      simp only at hj hlt ⊢
      have hri' : g.adjacency[i]? = some row := List.mem_zipIdx_iff_getElem?.1 hri
      have hl := (List.getElem?_eq_some_iff.1 hri').1
      rw [nbr_eq hl] at hri'; injection hri' with hri'
      refine ⟨hlt, ?_⟩
      rw [← F.mem, hri']; exact hj
    · rintro ⟨hlt, hab⟩
      rw [← F.mem] at hab
      have ha : a < g.adjacency.length := F.sym.ok b a (F.sym.symm _ _ hab)
      refine ⟨(nbr g.adjacency a, a), ?_, b, ⟨hab, hlt⟩, rfl, rfl⟩
      rw [List.mem_zipIdx_iff_getElem?]; exact nbr_eq ha
  · intro hno
    rw [F.nedge, sum_row_lengths g.adjacency F.sym (fun a ha => hno a ((F.mem a a).1 ha))]
    unfold getEdges
    omega

/-- Graphs of meshes have no self-adjacent node, so the edge count of C08 applies to all of them. -/
theorem C08_mesh_no_self (npoint : Nat) (cells : List (List Nat)) (a : Nat) : ¬ (Source.mesh npoint cells).Adj a a := by
  rintro ⟨h, _⟩; exact h rfl

/-- **C08 (start node).** The stored node of minimum degree is the first node with the smallest number of neighbours. -/
theorem C08_min_degree (src : Source) (hw : src.WF) (hn : 0 < src.n) (g : Graph) (hg : IsGraphOf src true g) :
    g.pMinDegree < src.n ∧ ∃ m, getDegree g g.pMinDegree = .ok m ∧
      (∀ j d, getDegree g j = .ok d → m ≤ d) ∧ (∀ j d, j < g.pMinDegree → getDegree g j = .ok d → m < d) := by
  have F := hg.facts hw
  have hdl : g.degree.length = src.n := by rw [F.deg]; simp [F.len]
  obtain ⟨m, h1, h2, h3⟩ := pMinDegree_spec g.degree (by intro h; rw [h] at hdl; simp at hdl; omega)
  rw [← F.pmin] at h1 h3
  have hlt : g.pMinDegree < src.n := by rw [← hdl]; exact (List.getElem?_eq_some_iff.1 h1).1
  have gd : ∀ x d, getDegree g x = .ok d ↔ g.degree[x]? = some d := by
    intro x d
    unfold getDegree
    rw [if_neg (by simp [hdl, F.len])]
    split
    · rename_i h
      have : g.degree[x]? = none := by rw [List.getElem?_eq_none_iff, hdl, ← F.len]; exact h
      simp [this]
    · simp
  exact ⟨hlt, m, (gd _ _).2 h1, fun j d h => h2 j d ((gd _ _).1 h), fun j d hj h => h3 j d hj ((gd _ _).1 h)⟩

/-- A self loop is counted as half an edge by `get_nedge` (`nedge = 0` for the graph with the single edge 0–0), and
`get_edges` does not list it. -/
theorem C08_self_loop : ((fromEdges [(0, 0)] true true).bind fun g => .ok (g.nedge, getEdges g, hasEdge g 0 0)) =
    .ok (0, [], true) := by decide +kernel

end Gemlab.Props.GraphUnd
