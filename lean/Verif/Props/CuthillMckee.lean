import Verif.Proofs.CuthillMckee3
import Verif.Props.GraphUnd
import Verif.Props.Mesh

/-! # C89: the order computed by `cuthill_mckee`, and the bandwidth it leaves -/
namespace Gemlab.Props.GraphUnd
open Gemlab Gemlab.GraphUnd Gemlab.Spec

theorem cmFrom_order {src : Source} (hw : src.WF) (hc : Connected src.Adj src.n) {g g' : Graph}
    (hg : IsGraphOf src true g) {root : Nat} (hroot : root < src.n) {ordering : List Nat}
    (h : cmFrom g root = .ok (g', ordering)) : IsCuthillMckee src root ordering.reverse := by
  have F1 := hg.facts hw
  have hroot' : root < g.adjacency.length := by rw [F1.len]; exact hroot
  obtain ⟨l, e, hl, he, _, hrun⟩ := bfs_log F1.sym.ok hroot'
  have hall : ∀ u, u < src.n → u ∈ root :: l.map Prod.fst := by
    intro u hu; rw [hl.mem_iff, edge_eq F1]; exact hc root u hroot hu
  have hperm : (root :: l.map Prod.fst).Perm (List.range src.n) := by
    rw [List.perm_ext_iff_of_nodup hl.nodup List.nodup_range]
    intro x
    constructor
    · intro hx; have := hl.lt x hx; rw [F1.len] at this; simpa using this
    · intro hx; exact hall x (by simpa using hx)
  have hll : l.length + 1 = src.n := by simpa using hperm.length_eq
  unfold cmFrom at h
  simp only at h
  rw [if_neg (by rw [F1.elen]; omega), if_pos hroot', hrun, replay_cm l (by rw [F1.len]; omega)] at h
  have h0 : g.adjacency.length - (l.length + 1) = 0 := by rw [F1.len]; omega
  rw [h0] at h
  simp only [Res.bind_ok, List.replicate_zero, List.append_nil, Res.ok.injEq, Prod.mk.injEq] at h
  rw [← h.2, List.reverse_reverse]
  exact ordInv_isCuthillMckee F1 rfl hperm (bfs_log_ord F1.sym.ok hroot' hrun)

/-- **C89, order.** The ordering returned by `cuthill_mckee`, read backwards, is the order of Cuthill and McKee from the
given start node, or from the node returned by `pseudo_peripheral` when no start node is given: the root first, every other
node after its first neighbour, nodes sorted by the place of their first neighbour, then by degree, then by id. -/
theorem C89_order (src : Source) (hw : src.WF) (hn : 0 < src.n) (hc : Connected src.Adj src.n) (g : Graph)
    (hg : IsGraphOf src true g) (start : Option Nat) (hstart : ∀ s, start = some s → s < src.n) (g' : Graph)
    (ordering : List Nat) (h : cuthillMckee g start = .ok (g', ordering)) :
    ∃ root, root < src.n ∧ IsCuthillMckee src root ordering.reverse ∧
      (∀ s, start = some s → root = s) ∧
      (start = none → ∃ g1, pseudoPeripheral g none = .ok (g1, root)) := by
  have F := hg.facts hw
  have hdl : g.degree.length = src.n := by rw [F.deg]; simp [F.len]
  unfold cuthillMckee at h
  rw [if_neg (by simp [hdl, F.len])] at h
  cases start with
  | some s =>
    exact ⟨s, hstart s rfl, cmFrom_order hw hc hg (hstart s rfl) h, by rintro _ ⟨⟩; rfl, by simp⟩
  | none =>
    obtain ⟨_, hok⟩ := C49_pseudo_peripheral src hw hn hc g hg none (by simp)
    simp only at h
    cases hpp : pseudoPeripheral g none with
    | panic => rw [hpp] at h; simp at h
    | err m => rw [hpp] at h; simp at h
    | ok r =>
      obtain ⟨g1, root⟩ := r
      obtain ⟨hg1, hr, _⟩ := hok g1 root hpp
      rw [hpp] at h
      exact ⟨root, hr, cmFrom_order hw hc hg1 hr h, by simp, fun _ => ⟨g1, rfl⟩⟩

/-- **C89, only one.** The rule leaves no choice: two lists in the order of Cuthill and McKee from the same root are equal.
Hence the result of `cuthill_mckee` with a given start does not depend on the history of the graph object nor on the order
in which the hash sets were iterated. -/
theorem C89_unique (src : Source) (root : Nat) (s t : List Nat) (hs : IsCuthillMckee src root s)
    (ht : IsCuthillMckee src root t) : s = t := cm_unique hs ht

theorem C89_deterministic (src : Source) (hw : src.WF) (hn : 0 < src.n) (hc : Connected src.Adj src.n) (g1 g2 : Graph)
    (hg1 : IsGraphOf src true g1) (hg2 : IsGraphOf src true g2) (start : Nat) (hstart : start < src.n)
    (g1' g2' : Graph) (o1 o2 : List Nat) (h1 : cuthillMckee g1 (some start) = .ok (g1', o1))
    (h2 : cuthillMckee g2 (some start) = .ok (g2', o2)) : o1 = o2 := by
  obtain ⟨r1, _, c1, e1, _⟩ := C89_order src hw hn hc g1 hg1 _ (by rintro s ⟨⟩; exact hstart) g1' o1 h1
  obtain ⟨r2, _, c2, e2, _⟩ := C89_order src hw hn hc g2 hg2 _ (by rintro s ⟨⟩; exact hstart) g2' o2 h2
  have := e1 start rfl
  have := e2 start rfl
  subst_vars
  exact List.reverse_inj.1 (C89_unique src _ _ _ c1 c2)

theorem adj_lt {src : Source} (hw : src.WF) {g : Graph} {cd : Bool} (hg : IsGraphOf src cd g) :
    ∀ x y, src.Adj x y → x < src.n := by
  have F := hg.facts hw
  intro x y hxy
  have := F.sym.symm x y ((F.mem x y).2 hxy)
  have := F.sym.ok y x this
  rwa [F.len] at this

/-- **C89, level by level.** Along the reversed ordering the distance to the root never decreases: all nodes of one level
come before all nodes of the next. -/
theorem C89_levels (src : Source) (hw : src.WF) (g : Graph) (hg : IsGraphOf src true g) (root : Nat) (seq : List Nat)
    (h : IsCuthillMckee src root seq) (i j x y dx dy : Nat) (hij : i < j) (hx : seq[i]? = some x) (hy : seq[j]? = some y)
    (hdx : IsDistance src.Adj root x dx) (hdy : IsDistance src.Adj root y dy) : dx ≤ dy :=
  cm_sorted h (adj_lt hw hg) dy i j x y dx dy (by omega) hx hy hdx hdy (Nat.le_refl _)

/-- **C89, how far apart.** Two adjacent nodes are never farther apart in the ordering than two consecutive levels are
long together. -/
theorem C89_spread (src : Source) (hw : src.WF) (g : Graph) (hg : IsGraphOf src true g) (root : Nat) (seq : List Nat)
    (h : IsCuthillMckee src root seq) (i j x y : Nat) (hij : i < j) (hx : seq[i]? = some x) (hy : seq[j]? = some y)
    (hxy : src.Adj x y) : ∃ k, (j - i) + 1 ≤ src.levelSize root k + src.levelSize root (k + 1) := by
  obtain ⟨k, hk, _⟩ := cm_band h (adj_lt hw hg) hij hx hy hxy
  exact ⟨k, hk⟩

open Gemlab.Mesh Gemlab.Props.Mesh in
/-- **C89, bandwidth.** After `renumber_mesh` has succeeded, the bandwidth of the renumbered mesh, as `calc_bandwidth` reports
it, is at most the number of points of two consecutive levels around the pseudo-peripheral point from which the old mesh
was numbered. -/
theorem C89_bandwidth {K : Type} (m m' : Mesh K) (hco : GoodCoords m) (hg : GoodCells m) (hn : 0 < m.points.length)
    (hconn : Connected (Source.mesh m.points.length (m.cells.map (·.points))).Adj m.points.length) (check : Bool)
    (h : renumberMesh m check = (m', .ok ())) (cd : Bool) (g' : Graph)
    (hg' : IsGraphOf (.mesh m'.points.length (m'.cells.map (·.points))) cd g') :
    ∃ root k, root < m.points.length ∧
      (∃ g g1, fromMesh m.points.length (m.cells.map (·.points)) true check = .ok g ∧
        pseudoPeripheral g none = .ok (g1, root)) ∧
      calcBandwidth g' ≤ (Source.mesh m.points.length (m.cells.map (·.points))).levelSize root k +
        (Source.mesh m.points.length (m.cells.map (·.points))).levelSize root (k + 1) := by
  let src : Source := .mesh m.points.length (m.cells.map (·.points))
  let src' : Source := .mesh m'.points.length (m'.cells.map (·.points))
  have hw : src.WF := by
    intro c hcc p hp
    obtain ⟨c', hc', rfl⟩ := List.mem_map.1 hcc
    exact hg c' hc' p hp
  unfold renumberMesh at h
  cases hb : fromMesh m.points.length (m.cells.map (·.points)) true check with
  | panic => rw [hb] at h; simp at h
  | err e => rw [hb] at h; simp at h
  | ok g =>
  have hG : IsGraphOf src true g := isGraphOf_of_build hw hb
  rw [hb] at h
  simp only [Res.bind_ok] at h
  cases hcm : cuthillMckee g none with
  | panic => rw [hcm] at h; simp at h
  | err e => rw [hcm] at h; simp at h
  | ok r =>
  obtain ⟨g2, ordering⟩ := r
  rw [hcm] at h
  obtain ⟨root, hroot, hC, _, hpp⟩ := C89_order src hw hn hconn g hG none (by simp) g2 ordering hcm
  obtain ⟨g1, hpp⟩ := hpp rfl
  have hperm : ordering.Perm (List.range m.points.length) := (List.reverse_perm _).symm.trans hC.perm
  have hlen : ordering.length = m.points.length := by have := hperm.length_eq; rwa [List.length_range] at this
  obtain ⟨map, hm, hmp, hinv, hinv'⟩ := C05_old_to_new_inverse ordering (by rw [hlen]; exact hperm)
  rw [hlen] at hmp
  simp only [Res.bind_ok, hm] at h
  rcases renumberPoints_spec m hco hg map with ⟨_, m1, h1, R⟩ | ⟨hbad, _⟩
  swap
  · exact absurd hmp hbad
  rw [h1] at h
  simp only [Prod.mk.injEq, and_true] at h
  subst h
  have hmlen : map.length = m.points.length := by have := hmp.length_eq; rwa [List.length_range] at this
  have hw' : src'.WF := by
    intro c hcc p hp
    obtain ⟨c', hc', rfl⟩ := List.mem_map.1 hcc
    rw [R.cells] at hc'
    obtain ⟨c0, hc0, rfl⟩ := List.mem_map.1 hc'
    obtain ⟨q, hq, rfl⟩ := List.mem_map.1 hp
    have hq' := hg c0 hc0 q hq
    rw [R.npoint]
    have hmem : map.getD q 0 ∈ map := by
      rw [List.getD_eq_getElem?_getD, List.getElem?_eq_getElem (by rw [hmlen]; exact hq')]
      exact List.getElem_mem _
    exact List.mem_range.1 (hmp.mem_iff.1 hmem)
  have hn' : 0 < src'.n := by show 0 < m1.points.length; rw [R.npoint]; exact hn
  have hpos : ∀ k x : Nat, ordering[k]? = some x → ordering.reverse[m.points.length - 1 - k]? = some x := by
    intro k x hk
    have hkl := (List.getElem?_eq_some_iff.1 hk).1
    rw [List.getElem?_reverse (by omega)]
    rw [hlen]
    rw [hlen] at hkl
    rw [show m.points.length - 1 - (m.points.length - 1 - k) = k by omega]
    exact hk
  obtain ⟨_, hband⟩ := C07_bandwidth src' hw' hn' cd g' hg'
  have hex : ∃ k, calcBandwidth g' ≤ src.levelSize root k + src.levelSize root (k + 1) := by
    rcases hband with hband | ⟨i, j, hij, hlt, hband⟩
    · refine ⟨0, ?_⟩
      rw [hband]
      have : 0 < src.levelSize root 0 := by
        classical
        unfold Source.levelSize
        rw [List.countP_pos_iff]
        refine ⟨root, List.mem_range.2 hroot, ?_⟩
        obtain ⟨d, hd⟩ := cm_reach hC 0 root hC.head
        have := distance_self hd
        subst this
        simpa using hd
      omega
    · -- the old ids
      obtain ⟨hne, c, hc, hic, hjc⟩ := hij
      obtain ⟨c', hc', rfl⟩ := List.mem_map.1 hc
      rw [R.cells] at hc'
      obtain ⟨c0, hc0, rfl⟩ := List.mem_map.1 hc'
      obtain ⟨x, hx, hxi⟩ := List.mem_map.1 hic
      obtain ⟨y, hy, hyj⟩ := List.mem_map.1 hjc
      have hxl := hg c0 hc0 x hx
      have hyl := hg c0 hc0 y hy
      have hmx : map[x]? = some i := by
        rw [List.getD_eq_getElem?_getD, List.getElem?_eq_getElem (by omega)] at hxi
        rw [List.getElem?_eq_getElem (by omega)]
        exact congrArg some hxi
      have hmy : map[y]? = some j := by
        rw [List.getD_eq_getElem?_getD, List.getElem?_eq_getElem (by omega)] at hyj
        rw [List.getElem?_eq_getElem (by omega)]
        exact congrArg some hyj
      have ox := hinv' x i hmx
      have oy := hinv' y j hmy
      have hil := (List.getElem?_eq_some_iff.1 ox).1
      have hjl := (List.getElem?_eq_some_iff.1 oy).1
      rw [hlen] at hil hjl
      have hadj : src.Adj y x := by
        refine ⟨?_, c0.points, List.mem_map_of_mem hc0, hy, hx⟩
        rintro rfl
        rw [hmx] at hmy; injection hmy with hmy; omega
      obtain ⟨k, hk⟩ := C89_spread src hw g hG root _ hC (m.points.length - 1 - j) (m.points.length - 1 - i) y x (by omega)
        (hpos j y oy) (hpos i x ox) hadj
      refine ⟨k, ?_⟩
      rw [hband]
      omega
  obtain ⟨k, hk⟩ := hex
  exact ⟨root, k, hroot, ⟨g, g1, rfl, hpp⟩, hk⟩

/-- A strip of four triangles: the order from point 5, its levels, and the bandwidth after renumbering. -/
def exStrip : Source := .mesh 6 [[0, 3, 5], [3, 1, 5], [3, 4, 1], [1, 4, 2]]

theorem exStrip_wf : exStrip.WF := by intro c hc p hp; revert p; revert c; decide

/-- **C89, example.** From point 5: its neighbours 0, 1, 3 by degree and id, then 2 and 4, found from 1. With the
automatic start the bandwidth falls from 6 to 3. -/
theorem C89_example : ((exStrip.build true true).bind fun g => (cuthillMckee g (some 5)).bind fun r => .ok r.2) =
      .ok [4, 2, 3, 1, 0, 5] ∧
    ((exStrip.build true true).bind fun g => (cuthillMckee g none).bind fun r => .ok r.2) = .ok [0, 5, 3, 1, 4, 2] ∧
    ((exStrip.build true true).bind fun g => .ok (calcBandwidth g)) = .ok 6 ∧
    (((Source.mesh 6 [[0, 2, 1], [2, 3, 1], [2, 4, 3], [3, 4, 5]]).build true true).bind fun g => .ok (calcBandwidth g)) =
      .ok 3 := by
  decide +kernel

/-- The hypotheses are met: the order from point 5 of the strip is an order of Cuthill and McKee, the only one. -/
theorem C89_example_order : IsCuthillMckee exStrip 5 [5, 0, 1, 3, 2, 4] := by
  have hconn : Connected exStrip.Adj exStrip.n := by
    refine ((C01_connectivity_check_exact exStrip exStrip_wf (by decide) true).1).2 ?_
    have : (exStrip.build true true).isOk = true := by decide +kernel
    cases hb : exStrip.build true true with
    | ok g => exact ⟨g, rfl⟩
    | err e => rw [hb] at this; simp [Res.isOk] at this
    | panic => rw [hb] at this; simp [Res.isOk] at this
  obtain ⟨g, hb⟩ := C01_without_check exStrip exStrip_wf true
  have hG := isGraphOf_of_build exStrip_wf hb
  have hcm : ((exStrip.build true false).bind fun g => (cuthillMckee g (some 5)).bind fun r => .ok r.2) =
      .ok [4, 2, 3, 1, 0, 5] := by decide +kernel
  rw [hb] at hcm
  cases hr : cuthillMckee g (some 5) with
  | ok r =>
    obtain ⟨g', o⟩ := r
    obtain ⟨root, _, hC, he, _⟩ := C89_order exStrip exStrip_wf (by decide) hconn g hG (some 5) (by rintro s ⟨⟩; decide) g' o hr
    have := he 5 rfl
    subst this
    simp only [Res.bind, hr, Res.ok.injEq] at hcm
    subst hcm
    exact hC
  | err e => simp [Res.bind, hr] at hcm
  | panic => simp [Res.bind, hr] at hcm

open Gemlab.Mesh in
/-- A star: four bars meeting at point 2. -/
def exStar : Mesh Nat :=
  { ndim := 2
    points := [⟨0, 0, [0, 0]⟩, ⟨1, 0, [2, 0]⟩, ⟨2, 0, [1, 1]⟩, ⟨3, 0, [0, 2]⟩, ⟨4, 0, [2, 2]⟩]
    cells := [⟨0, 1, .lin2, [0, 2]⟩, ⟨1, 1, .lin2, [1, 2]⟩, ⟨2, 1, .lin2, [2, 3]⟩, ⟨3, 1, .lin2, [2, 4]⟩]
    markedEdges := []
    markedFaces := [] }

open Gemlab.Mesh in
/-- **C89, not always an improvement.** On a star of four bars whose centre has the middle number, `renumber_mesh`
increases the bandwidth from 3 to 4. -/
theorem C89_may_increase :
    ((fromMesh 5 (exStar.cells.map (·.points)) true true).bind fun g => .ok (calcBandwidth g)) = .ok 3 ∧
    (renumberMesh exStar true).2 = .ok () ∧
    ((fromMesh 5 ((renumberMesh exStar true).1.cells.map (·.points)) true true).bind fun g => .ok (calcBandwidth g)) = .ok 4 := by
  decide +kernel

end Gemlab.Props.GraphUnd
