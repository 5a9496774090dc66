import Verif.Props.Join
import Verif.Props.Mesh

/-!
# C52: `Mesh::check_overlapping_points`

`iter` gives, for every container of the search grid, the iteration order of its hash map (arbitrary).
-/
namespace Gemlab.Mesh
open Gemlab.Shapes Gemlab.Spec Gemlab.Props.Mesh Gemlab.Props.Features
noncomputable section
open Classical

/-- `search` returns the first close entry of the container, in iteration order. -/
theorem searchLoop_first {tolDist : ℝ} {q : List ℝ} (hq : q.length = 2 ∨ q.length = 3) {l : List (Nat × List ℝ)}
    (hl : ∀ e ∈ l, e.2.length = q.length) {id : Nat} (h : GridSearch.searchLoop tolDist q l = .ok (some id)) :
    ∃ (i : Nat) (x : List ℝ), l[i]? = some (id, x) ∧ d3 x q ≤ tolDist ∧
      ∀ (j : Nat) (e : Nat × List ℝ), j < i → l[j]? = some e → tolDist < d3 e.2 q := by
  induction l with
  | nil => simp [GridSearch.searchLoop] at h
  | cons e l ih =>
    obtain ⟨id0, xo⟩ := e
    have hlen := hl (id0, xo) (by simp)
    dsimp only at hlen
    unfold GridSearch.searchLoop at h
    rw [pointPointDistance_eq (by omega) (by omega), Res.bind_ok] at h
    by_cases hd : d3 xo q ≤ tolDist
    · rw [if_pos hd] at h
      simp only [Res.ok.injEq, Option.some.injEq] at h
      exact ⟨0, xo, by simp [h], hd, by omega⟩
    · rw [if_neg hd] at h
      obtain ⟨i, x, h1, h2, h3⟩ := ih (fun e he => hl e (List.mem_cons_of_mem _ he)) h
      refine ⟨i + 1, x, by simpa using h1, h2, ?_⟩
      intro j e hj he
      cases j with
      | zero => simp at he; subst he; exact not_le.1 hd
      | succ j => exact h3 j e (by omega) (by simpa using he)

theorem search_first {g : GridSearch} {hist : List (Nat × List ℝ)} (hi : GridSearch.Inv g hist)
    {iter : List (Nat × List ℝ) → List (Nat × List ℝ)} (hiter : IterOrder iter) {q : List ℝ} (hq : q.length = g.ndim)
    (hin : GridSearch.Inside g q) {id : Nat} (h : GridSearch.search iter g q = .ok (some id)) :
    ∃ c, g.containers.get (GridSearch.keyOf g q) = some c ∧ ∃ (i : Nat) (x : List ℝ), (iter c)[i]? = some (id, x) ∧ d3 x q ≤ g.tolDist ∧
      ∀ (j : Nat) (e : Nat × List ℝ), j < i → (iter c)[j]? = some e → g.tolDist < d3 e.2 q := by
  unfold GridSearch.search at h
  rw [if_neg (not_not.2 hq), GridSearch.calcContainerKey_eq, if_pos hin] at h
  dsimp only at h
  cases hg : g.containers.get (GridSearch.keyOf g q) with
  | none => rw [hg] at h; simp at h
  | some c =>
    rw [hg] at h
    dsimp only at h
    refine ⟨c, rfl, ?_⟩
    refine searchLoop_first (by rw [hq]; exact hi.wf.ndim) ?_ h
    intro e he
    rw [hq]
    exact (hi.sound _ _ _ ((GridSearch.mem_get2 hi.cwf hg).1 (hiter.mem.1 he))).2.1

/-- The search grid of the check can be built: `mn`, `mx` is the bounding box of the points and `GridSearch::new` accepts it with
this tolerance (see `C15_new_ok_iff`). -/
def Checkable (m : Mesh ℝ) (tol : ℝ) : Prop :=
  ∃ mn mx g, IsBoundingBox m.ndim (m.points.map (·.coords)) mn mx ∧ GridSearch.new mn mx none (some tol) none = .ok g

theorem box_unique {n : Nat} {xs : List (List ℝ)} {mn mx mn' mx' : List ℝ} (h : IsBoundingBox n xs mn mx) (h' : IsBoundingBox n xs mn' mx')
    (hl : ∀ x ∈ xs, x.length = n) : mn = mn' ∧ mx = mx' := by
  have half : ∀ {mn mx mn' mx' : List ℝ}, IsBoundingBox n xs mn mx → IsBoundingBox n xs mn' mx' →
      ∀ i (h1 : i < mn.length) (h2 : i < mn'.length), mn[i] ≤ mn'[i] := by
    intro mn mx mn' mx' h h' i h1 h2
    obtain ⟨x, hx, hv⟩ := h'.attainedMin i _ (List.getElem?_eq_getElem h2)
    exact (h.inside x hx i _ _ _ (List.getElem?_eq_getElem h1) hv
      (List.getElem?_eq_getElem (by rw [h.lenMax, ← h.lenMin]; exact h1))).1
  have half' : ∀ {mn mx mn' mx' : List ℝ}, IsBoundingBox n xs mn mx → IsBoundingBox n xs mn' mx' →
      ∀ i (h1 : i < mx.length) (h2 : i < mx'.length), mx'[i] ≤ mx[i] := by
    intro mn mx mn' mx' h h' i h1 h2
    obtain ⟨x, hx, hv⟩ := h'.attainedMax i _ (List.getElem?_eq_getElem h2)
    exact (h.inside x hx i _ _ _ (List.getElem?_eq_getElem (by rw [h.lenMin, ← h.lenMax]; exact h1)) hv
      (List.getElem?_eq_getElem h1)).2
  constructor
  · apply List.ext_getElem (by rw [h.lenMin, h'.lenMin])
    intro i h1 h2
    exact le_antisymm (half h h' i h1 h2) (half h' h i h2 h1)
  · apply List.ext_getElem (by rw [h.lenMax, h'.lenMax])
    intro i h1 h2
    exact le_antisymm (half' h' h i h2 h1) (half' h h' i h1 h2)

/-- The ids of a valid mesh are distinct and every point is current in the grid. -/
theorem current_of_valid {a : Mesh ℝ} (h : ValidMesh a) {p : Point ℝ} (hp : p ∈ a.points) :
    GridSearch.Current (a.points.map fun p => (p.id, p.coords)) p.id p.coords := by
  refine current_of_nodup ?_ (List.mem_map.2 ⟨p, hp, rfl⟩)
  rw [List.map_map]
  have : (fun x : Nat × List ℝ => x.1) ∘ (fun p : Point ℝ => (p.id, p.coords)) = fun p => p.id := rfl
  rw [this]
  have e : a.points.map (fun p => p.id) = List.range a.points.length := by
    apply List.ext_getElem
    · simp
    · intro i h1 h2
      rw [List.getElem_map, List.getElem_range]
      exact h.pointIds i _ (List.getElem?_eq_getElem (by simpa using h1))
  rw [e]; exact List.nodup_range

/-- Body of the second loop of the check. -/
def overlapBody (iter : Option Nat → List (Nat × List ℝ) → List (Nat × List ℝ)) (g : GridSearch) (p : Point ℝ) : Res Unit := do
  let found ← GridSearch.search (iter (GridSearch.calcContainerKey g p.coords)) g p.coords
  match found with
  | some id => if id ≠ p.id then .err "found overlapping points" else pure ()
  | none => pure ()

/-- Reduction of the check to its second loop. -/
theorem check_reduce {m : Mesh ℝ} (hm : ValidMesh m) (hlim : ∀ p ∈ m.points, ∀ v ∈ p.coords, -f64Max ≤ v ∧ v ≤ f64Max)
    (hne : m.points ≠ []) (iter : Option Nat → List (Nat × List ℝ) → List (Nat × List ℝ)) (tol : ℝ) :
    (¬ Checkable m tol ∧ ∃ e, checkOverlappingPoints iter m tol = .err e) ∨
    (Checkable m tol ∧ ∃ mn mx g, mn.length = m.ndim ∧ IsBoundingBox m.ndim (m.points.map (·.coords)) mn mx ∧ Reached mn mx none (some tol) none g (m.points.map fun p => (p.id, p.coords)) ∧
      (∀ p ∈ m.points, GridSearch.isOutside g p.coords = .ok false) ∧
      checkOverlappingPoints iter m tol = m.points.forM (overlapBody iter g)) := by
  obtain ⟨mn, mx, hl, hbb⟩ := C24_get_limits f64Max (-f64Max) m hm.coords hne hlim
  have hlen : ∀ x ∈ m.points.map (·.coords), x.length = m.ndim := by
    intro x hx; obtain ⟨p, hp, rfl⟩ := List.mem_map.1 hx; exact hm.coords p hp
  have red : checkOverlappingPoints iter m tol = (GridSearch.new mn mx none (some tol) none >>= fun grid0 =>
      m.points.foldlM (fun g p => GridSearch.insert g p.id p.coords) grid0 >>= fun grid => m.points.forM (overlapBody iter grid)) := by
    unfold checkOverlappingPoints
    rw [hl, Res.bind_ok]
    rfl
  cases hg0 : GridSearch.new mn mx none (some tol) none with
  | panic => exact absurd hg0 (GridSearch.new_ne_panic _ _ _ _ _)
  | err e =>
    left
    constructor
    · rintro ⟨mn', mx', g, h1, h2⟩
      obtain ⟨rfl, rfl⟩ := box_unique hbb h1 hlen
      rw [hg0] at h2; simp at h2
    · rw [red, hg0]; exact ⟨_, rfl⟩
  | ok g0 =>
    right
    refine ⟨⟨mn, mx, g0, hbb, hg0⟩, mn, mx, ?_⟩
    have cover : ∀ (pre : List (Nat × List ℝ)) (g : GridSearch), Reached mn mx none (some tol) none g pre → ∀ p ∈ m.points,
        GridSearch.isOutside g p.coords = .ok false := by
      intro pre g hr p hp
      refine C16_covers hr p.coords (by rw [hm.coords p hp, hbb.lenMin]) ?_
      intro i hi
      have h1 : i < mx.length := by rw [hbb.lenMax, ← hbb.lenMin]; exact hi
      have h2 : i < p.coords.length := by rw [hm.coords p hp, ← hbb.lenMin]; exact hi
      have b := hbb.inside p.coords (List.mem_map.2 ⟨p, hp, rfl⟩) i _ _ _ (List.getElem?_eq_getElem hi) (List.getElem?_eq_getElem h2)
        (List.getElem?_eq_getElem h1)
      simp only [List.getD_eq_getElem?_getD, List.getElem?_eq_getElem hi, List.getElem?_eq_getElem h1, List.getElem?_eq_getElem h2,
        Option.getD_some, Option.getD_none]
      constructor <;> linarith [b.1, b.2]
    obtain ⟨g, hg, hr⟩ := Res.foldlM_list (fun g (p : Point ℝ) => GridSearch.insert g p.id p.coords) m.points g0
      (fun pre g => Reached mn mx none (some tol) none g (pre.map fun p => (p.id, p.coords))) (.new hg0) (by
        intro pre p g hp _ H
        obtain ⟨g', hg'⟩ := (C16_insert_ok_iff H p.id p.coords).1 ⟨by rw [hm.coords p hp, hbb.lenMin], cover _ _ H p hp⟩
        refine ⟨g', hg', ?_⟩
        rw [List.map_append]
        exact .insert H hg')
    refine ⟨g, hbb.lenMin, hbb, hr, cover _ _ hr, ?_⟩
    rw [red, hg0, Res.bind_ok, hg, Res.bind_ok]

variable {m : Mesh ℝ} {iter : Option Nat → List (Nat × List ℝ) → List (Nat × List ℝ)} {tol : ℝ}

theorem body_cases (hit : ∀ k, IterOrder (iter k)) {mn mx : List ℝ} {g : GridSearch} (hm : ValidMesh m) (hn : mn.length = m.ndim)
    (hr : Reached mn mx none (some tol) none g (m.points.map fun p => (p.id, p.coords)))
    (hin : ∀ p ∈ m.points, GridSearch.isOutside g p.coords = .ok false) {p : Point ℝ} (hp : p ∈ m.points) :
    ∃ id, GridSearch.search (iter (GridSearch.calcContainerKey g p.coords)) g p.coords = .ok (some id) ∧
      (overlapBody iter g p = .ok () ↔ id = p.id) ∧ (id ≠ p.id → ∃ e, overlapBody iter g p = .err e) ∧
      ∃ q ∈ m.points, q.id = id ∧ euclid q.coords p.coords ≤ Real.sqrt m.ndim * tol := by
  have hlen : p.coords.length = mn.length := by rw [hm.coords p hp, hn]
  have htol : 0 < tol := by
    obtain ⟨hi, _⟩ := hr.inv
    have := hi.wf.tolPos
    rw [hr.params.2.2.1] at this
    simpa using this
  obtain ⟨id, h⟩ := C12_search_finds hr (hit (GridSearch.calcContainerKey g p.coords)) (current_of_valid hm hp) hlen (hin p hp)
    (by intro i _; simp [htol.le])
  obtain ⟨r, h1, h2⟩ := (C13_search_sound hr (hit (GridSearch.calcContainerKey g p.coords)) p.coords).1 ⟨hlen, hin p hp⟩
  rw [h] at h1
  simp only [Res.ok.injEq] at h1
  subst h1
  obtain ⟨x, hx, hd⟩ := h2 id rfl
  obtain ⟨q, hq, he⟩ := List.mem_map.1 hx
  simp only [Prod.mk.injEq] at he
  obtain ⟨rfl, rfl⟩ := he
  refine ⟨q.id, h, ?_, ?_, q, hq, rfl, ?_⟩
  · unfold overlapBody
    rw [h, Res.bind_ok]
    dsimp only
    by_cases hid : q.id = p.id
    · simp [hid]
    · simp [hid]
  · intro hne
    unfold overlapBody
    rw [h, Res.bind_ok]
    dsimp only
    rw [if_pos hne]
    exact ⟨_, rfl⟩
  · simpa [hn] using hd

/-- C52: the check of a valid mesh with at least one point never panics. If the search grid cannot be built it is an error. -/
theorem C52_total (hit : ∀ k, IterOrder (iter k)) (hm : ValidMesh m) (hlim : ∀ p ∈ m.points, ∀ v ∈ p.coords, -f64Max ≤ v ∧ v ≤ f64Max)
    (hne : m.points ≠ []) : checkOverlappingPoints iter m tol ≠ .panic ∧
      (¬ Checkable m tol → ∃ e, checkOverlappingPoints iter m tol = .err e) := by
  rcases check_reduce hm hlim hne iter tol with ⟨h1, e, he⟩ | ⟨h1, mn, mx, g, hn, hbox, hr, hin, he⟩
  · exact ⟨by rw [he]; simp, fun _ => ⟨e, he⟩⟩
  · refine ⟨?_, fun h => absurd h1 h⟩
    rw [he]
    apply Res.forM_ne_panic
    intro p hp
    obtain ⟨id, _, h2, h3, _⟩ := body_cases hit hm hn hr hin hp
    by_cases h : id = p.id
    · rw [h2.2 h]; simp
    · obtain ⟨e, he⟩ := h3 h; rw [he]; simp

/-- C52: no false alarms. If all pairs of different points are farther than `√ndim · tol`, the check succeeds. -/
theorem C52_separated_accepted (hit : ∀ k, IterOrder (iter k)) (hm : ValidMesh m)
    (hlim : ∀ p ∈ m.points, ∀ v ∈ p.coords, -f64Max ≤ v ∧ v ≤ f64Max) (hne : m.points ≠ []) (hc : Checkable m tol)
    (hfar : ∀ p ∈ m.points, ∀ q ∈ m.points, p.id ≠ q.id → Real.sqrt m.ndim * tol < euclid p.coords q.coords) :
    checkOverlappingPoints iter m tol = .ok () := by
  rcases check_reduce hm hlim hne iter tol with ⟨h1, _⟩ | ⟨h1, mn, mx, g, hn, hbox, hr, hin, he⟩
  · exact absurd hc h1
  · rw [he, Res.forM_ok_iff]
    intro p hp
    obtain ⟨id, _, h2, _, q, hq, rfl, hd⟩ := body_cases hit hm hn hr hin hp
    rw [h2]
    by_contra hne
    have := hfar q hq p hp hne
    linarith

/-- C52: an error (of a mesh whose search grid can be built) means that two different points are within `√ndim · tol`. -/
theorem C52_error_means_close (hit : ∀ k, IterOrder (iter k)) (hm : ValidMesh m)
    (hlim : ∀ p ∈ m.points, ∀ v ∈ p.coords, -f64Max ≤ v ∧ v ≤ f64Max) (hne : m.points ≠ []) (hc : Checkable m tol) {e : String}
    (h : checkOverlappingPoints iter m tol = .err e) :
    ∃ p ∈ m.points, ∃ q ∈ m.points, p.id ≠ q.id ∧ euclid p.coords q.coords ≤ Real.sqrt m.ndim * tol := by
  by_contra hcon
  push Not at hcon
  rw [C52_separated_accepted hit hm hlim hne hc hcon] at h
  simp at h

/-- C52: what success means. If the check succeeds, two different points lying in the same container of the search grid are
farther apart than the tolerance (in distance). -/
theorem C52_ok_same_container (hit : ∀ k, IterOrder (iter k)) (hm : ValidMesh m)
    (hlim : ∀ p ∈ m.points, ∀ v ∈ p.coords, -f64Max ≤ v ∧ v ≤ f64Max) (hne : m.points ≠ [])
    (h : checkOverlappingPoints iter m tol = .ok ()) :
    ∃ mn mx g, IsBoundingBox m.ndim (m.points.map (·.coords)) mn mx ∧ GridSearch.new mn mx none (some tol) none = .ok g ∧
      ∀ p ∈ m.points, ∀ q ∈ m.points, p.id ≠ q.id →
        GridSearch.calcContainerKey g p.coords = GridSearch.calcContainerKey g q.coords →
        Real.sqrt m.ndim * tol < euclid p.coords q.coords := by
  rcases check_reduce hm hlim hne iter tol with ⟨_, e, he⟩ | ⟨h1, mn, mx, g, hn, hbox, hr, hin, he⟩
  · rw [h] at he; simp at he
  obtain ⟨hi, g0, h0, cs, hgcs⟩ := hr.inv
  obtain ⟨hp1, hp2, hp3, hp4⟩ := hr.params
  refine ⟨mn, mx, g0, hbox, h0, ?_⟩
  intro p hp q hq hpq hkey
  by_contra hfar
  rw [not_lt] at hfar
  have hk : ∀ x, GridSearch.calcContainerKey g x = GridSearch.calcContainerKey g0 x := by intro x; rw [hgcs]; rfl
  have lenp : p.coords.length = g.ndim := by rw [hm.coords p hp, hp1, hn]
  have lenq : q.coords.length = g.ndim := by rw [hm.coords q hq, hp1, hn]
  have ins : ∀ r ∈ m.points, GridSearch.Inside g r.coords := by
    intro r hr'
    have := hin r hr'
    rw [GridSearch.isOutside_eq (by rw [hm.coords r hr', hp1, hn])] at this
    simpa using this
  have hkk : GridSearch.keyOf g p.coords = GridSearch.keyOf g q.coords := by
    rw [← hk, ← hk, GridSearch.calcContainerKey_eq, GridSearch.calcContainerKey_eq, if_pos (ins p hp), if_pos (ins q hq)] at hkey
    simpa using hkey
  rw [he, Res.forM_ok_iff] at h
  have res : ∀ r ∈ m.points, ∃ c, g.containers.get (GridSearch.keyOf g r.coords) = some c ∧
      ∃ (i : Nat), (iter (some (GridSearch.keyOf g r.coords)) c)[i]? = some (r.id, r.coords) ∧
      ∀ (j : Nat) (e : Nat × List ℝ), j < i → (iter (some (GridSearch.keyOf g r.coords)) c)[j]? = some e → g.tolDist < d3 e.2 r.coords := by
    intro r hr'
    obtain ⟨id, s1, s2, _, _⟩ := body_cases hit hm hn hr hin hr'
    have hid := s2.1 (h r hr')
    subst hid
    obtain ⟨c, c1, i, x, c2, c3, c4⟩ := search_first hi (hit _) (by rw [hm.coords r hr', hp1, hn]) (ins r hr') s1
    have hcc : GridSearch.calcContainerKey g r.coords = some (GridSearch.keyOf g r.coords) := by
      rw [GridSearch.calcContainerKey_eq, if_pos (ins r hr')]
    rw [hcc] at c2 c4
    have hx : GridSearch.get2 g.containers (GridSearch.keyOf g r.coords) r.id = some x :=
      (GridSearch.mem_get2 hi.cwf c1).1 ((hit _).mem.1 (List.mem_of_getElem? c2))
    have hx2 := (hi.cur _ _ (current_of_valid hm hr')).2.2 _ (Or.inl rfl)
    rw [hx] at hx2
    simp only [Option.some.injEq] at hx2
    subst hx2
    exact ⟨c, c1, i, c2, c4⟩
  obtain ⟨c, c1, i, c2, c3⟩ := res p hp
  obtain ⟨c', d1, j, d2, d3'⟩ := res q hq
  rw [← hkk] at d1 d2 d3'
  rw [c1] at d1
  simp only [Option.some.injEq] at d1
  subst d1
  have htd : g.tolDist = Real.sqrt m.ndim * tol := by rw [hp4, hn]; rfl
  have hd3 : d3 p.coords q.coords ≤ g.tolDist := by
    rw [htd, ← euclid_eq_d3 (by rw [lenp, hp1]; exact hp2) (by rw [lenp, lenq])]; exact hfar
  have hd3' : d3 q.coords p.coords ≤ g.tolDist := by
    have : d3 q.coords p.coords = d3 p.coords q.coords := by
      have e1 := euclid_eq_d3 (a := p.coords) (b := q.coords) (by rw [lenp, hp1]; exact hp2) (by rw [lenp, lenq])
      have e2 := euclid_eq_d3 (a := q.coords) (b := p.coords) (by rw [lenq, hp1]; exact hp2) (by rw [lenp, lenq])
      rw [← e1, ← e2]
      unfold euclid
      rw [lenp, lenq]
      congr 1
      exact Finset.sum_congr rfl fun i _ => by ring
    rw [this]; exact hd3
  rcases lt_trichotomy i j with hij | hij | hij
  · have := d3' i _ hij c2; dsimp only at this; linarith
  · subst hij
    rw [c2] at d2
    simp only [Option.some.injEq, Prod.mk.injEq] at d2
    exact hpq d2.1
  · have := c3 j _ hij d2; dsimp only at this; linarith

/-- C52: exact duplicates are always found. -/
theorem C52_duplicates_found (hit : ∀ k, IterOrder (iter k)) (hm : ValidMesh m)
    (hlim : ∀ p ∈ m.points, ∀ v ∈ p.coords, -f64Max ≤ v ∧ v ≤ f64Max) {p q : Point ℝ} (hp : p ∈ m.points) (hq : q ∈ m.points)
    (hpq : p.id ≠ q.id) (hx : p.coords = q.coords) : ∃ e, checkOverlappingPoints iter m tol = .err e := by
  have hne : m.points ≠ [] := List.ne_nil_of_mem hp
  cases h : checkOverlappingPoints iter m tol with
  | err e => exact ⟨e, rfl⟩
  | panic => exact absurd h (C52_total hit hm hlim hne).1
  | ok u =>
    obtain ⟨mn, mx, g, _, hg, hf⟩ := C52_ok_same_container hit hm hlim hne h
    have := hf p hp q hq hpq (by rw [hx])
    rw [hx] at this
    have h0 : euclid q.coords q.coords = 0 := by simp [euclid]
    rw [h0] at this
    have htol : 0 < tol := by
      obtain ⟨w, _, _, _, ht, _⟩ := GridSearch.new_ok hg
      have := w.tolPos
      rw [ht] at this; exact this
    have : 0 ≤ Real.sqrt m.ndim * tol := by positivity
    linarith

/-! ## Near points across a border may be missed -/

/-- Points 0 and 1 are `1e-5` apart, on both sides of a border between two containers. -/
def straddle : Mesh ℝ where
  ndim := 2
  points := [⟨0, 0, [49999 / 100000, 0]⟩, ⟨1, 0, [1 / 2, 0]⟩, ⟨2, 0, [0, 1]⟩, ⟨3, 0, [1, 1]⟩]
  cells := [⟨0, 1, .tri3, [2, 0, 3]⟩, ⟨1, 1, .tri3, [2, 1, 3]⟩]
  markedEdges := []
  markedFaces := []

theorem straddle_valid : ValidMesh straddle := by
  refine ⟨?_, ?_, ?_, ?_, ?_⟩
  · intro p hp; simp [straddle] at hp; rcases hp with rfl | rfl | rfl | rfl <;> rfl
  · intro i p hp
    have : i < 4 := by by_contra hc; rw [List.getElem?_eq_none (by simp [straddle]; omega)] at hp; simp at hp
    interval_cases i <;> simp [straddle] at hp <;> subst hp <;> rfl
  · intro i c hc
    have : i < 2 := by by_contra hc'; rw [List.getElem?_eq_none (by simp [straddle]; omega)] at hc; simp at hc
    interval_cases i <;> simp [straddle] at hc <;> subst hc <;> rfl
  · intro c hc; simp [straddle] at hc; rcases hc with rfl | rfl <;> rfl
  · intro c hc; simp [straddle] at hc; rcases hc with rfl | rfl <;> decide

/-- Iteration order used below: ids increasing in container 49, decreasing in the others. -/
def straddleOrder (k : Option Nat) (l : List (Nat × List ℝ)) : List (Nat × List ℝ) :=
  if k = some 49 then l.insertionSort (fun a b => a.1 ≤ b.1) else l.insertionSort (fun a b => b.1 ≤ a.1)

theorem straddleOrder_valid (k : Option Nat) : IterOrder (straddleOrder k) := by
  intro l
  unfold straddleOrder
  split <;> exact List.perm_insertionSort _ _

theorem abs_le_euclid {a b : List ℝ} {i : Nat} (hi : i < a.length) : |a.getD i 0 - b.getD i 0| ≤ euclid a b := by
  unfold euclid
  apply Real.abs_le_sqrt
  exact Finset.single_le_sum (f := fun i => (a.getD i 0 - b.getD i 0) ^ 2) (fun _ _ => sq_nonneg _) (Finset.mem_range.2 hi)

theorem straddle_tol : Real.sqrt (straddle.ndim : ℝ) * (1 / 10000) < 1 / 5000 := by
  have : Real.sqrt (straddle.ndim : ℝ) < 2 := by
    rw [Real.sqrt_lt' (by norm_num)]
    have : (straddle.ndim : ℝ) = 2 := by norm_num [straddle]
    rw [this]; norm_num
  linarith

theorem straddle_box : IsBoundingBox 2 (straddle.points.map (·.coords)) [0, 0] [1, 1] := by
  refine ⟨rfl, rfl, ?_, ?_, ?_⟩
  · intro x hx i a v b ha hv hb
    have : i < 2 := by by_contra hc; rw [List.getElem?_eq_none (by simp; omega)] at ha; simp at ha
    simp [straddle] at hx
    rcases hx with rfl | rfl | rfl | rfl <;> interval_cases i <;> simp at ha hv hb <;> subst ha <;> subst hv <;> subst hb <;> norm_num
  · intro i a ha
    have : i < 2 := by by_contra hc; rw [List.getElem?_eq_none (by simp; omega)] at ha; simp at ha
    interval_cases i <;> simp at ha <;> subst ha <;> simp [straddle]
  · intro i a ha
    have : i < 2 := by by_contra hc; rw [List.getElem?_eq_none (by simp; omega)] at ha; simp at ha
    interval_cases i <;> simp at ha <;> subst ha <;> simp [straddle]

theorem straddle_checkable : Checkable straddle (1 / 10000) := by
  have len : ∀ i < 2, boxLen [0, 0] [1, 1] i = 1 := by intro i hi; interval_cases i <;> simp [boxLen]
  obtain ⟨nd, hnd⟩ := (C15_ok_iff 1 100 [0, 0] [1, 1]).1 ⟨by norm_num, by norm_num, rfl, by simp, by
    intro i hi; rw [len i hi]; norm_num⟩
  have h100 := (C15_divisions hnd).2.2 0 ⟨by simp, by intro j hj; rw [len j hj, len 0 (by norm_num)]⟩
  obtain ⟨g, hg⟩ := (C15_new_ok_iff [0, 0] [1, 1] none (some (1 / 10000)) none).2.2 ⟨Or.inl rfl, rfl, by norm_num, by
    intro i hi; rw [len i hi]; norm_num, by norm_num, by norm_num, nd, hnd, 0, by simp, by
    rw [h100.1, len 0 (by norm_num)]; norm_num⟩
  exact ⟨_, _, g, straddle_box, hg⟩

/-- C52 (limit of the check, a defect): a valid mesh with two different points at distance `1e-5` (and tolerance `1e-4`) and a
possible iteration order of the hash maps for which the check succeeds: the two points are on both sides of a border between two
containers and each search finds the query point itself first. -/
theorem C52_near_points_may_be_missed : (∀ k, IterOrder (straddleOrder k)) ∧ ValidMesh straddle ∧
    (∀ i < 2, |(coordsOf straddle 0).getD i 0 - (coordsOf straddle 1).getD i 0| ≤ 1 / 100000) ∧
    checkOverlappingPoints straddleOrder straddle (1 / 10000) = .ok () := by
  refine ⟨straddleOrder_valid, straddle_valid, ?_, ?_⟩
  · intro i hi
    interval_cases i <;> norm_num [coordsOf, straddle, abs_le]
  have hlim : ∀ p ∈ straddle.points, ∀ v ∈ p.coords, -f64Max ≤ v ∧ v ≤ f64Max := by
    have hb : (1 : ℝ) ≤ f64Max := one_le_f64Max
    have h0 : ∀ v : ℝ, 0 ≤ v → v ≤ 1 → -f64Max ≤ v ∧ v ≤ f64Max := fun v h1 h2 => ⟨by linarith, by linarith⟩
    intro p hp v hv
    simp [straddle] at hp
    rcases hp with rfl | rfl | rfl | rfl <;> simp at hv
    · rcases hv with rfl | rfl <;> apply h0 <;> norm_num
    · rcases hv with rfl | rfl <;> apply h0 <;> norm_num
    · rcases hv with rfl | rfl <;> apply h0 <;> norm_num
    · subst hv; apply h0 <;> norm_num
  have hvm := straddle_valid
  rcases check_reduce straddle_valid hlim (by simp [straddle]) straddleOrder (1 / 10000) with ⟨h1, _⟩ | ⟨h1, mn, mx, g, hn, hbox, hr, hin, he⟩
  · exact absurd straddle_checkable h1
  obtain ⟨rfl, rfl⟩ := box_unique hbox straddle_box (by intro x hx; obtain ⟨p, hp, rfl⟩ := List.mem_map.1 hx; exact hvm.coords p hp)
  rw [he, Res.forM_ok_iff]
  obtain ⟨hi, g0, h0, cs, hgcs⟩ := hr.inv
  obtain ⟨hp1, hp2, hp3, hp4⟩ := hr.params
  obtain ⟨_, _, _, _, _, _, hnd, hmin, _, k, hk, hside⟩ := GridSearch.new_ok h0
  have len : ∀ i < 2, boxLen [0, 0] [1, 1] i = 1 := by intro i hi; interval_cases i <;> simp [boxLen]
  have n100 : ∀ i < 2, g.ndiv.getD i 0 = 100 := by
    intro i hi
    have := ((C15_divisions hnd).2.2 i ⟨hi, by intro j hj; rw [len j hj, len i hi]⟩).1
    rw [hgcs]; exact this
  have hd2 : g.ndim = 2 := hp1
  have hg0 : g0.ndim = 2 := by rw [hgcs] at hd2; exact hd2
  have hside' : g.sideLength = 102 / 10000 := by
    rw [hgcs]
    change g0.sideLength = _
    rw [hside]
    have hk2 : k < 2 := by rw [← hg0]; exact hk
    have nk : g0.ndiv.getD k 0 = 100 := by have := n100 k hk2; rw [hgcs] at this; exact this
    rw [nk]
    interval_cases k <;> norm_num [at']
  have hxm : ∀ i < 2, at' g.xmin i = - (1 / 100) := by
    intro i hi
    have := (hmin i (by rw [hg0]; exact hi)).1
    rw [hgcs]
    change at' g0.xmin i = _
    rw [this]
    interval_cases i <;> norm_num [at']
  have ins : ∀ r ∈ straddle.points, GridSearch.Inside g r.coords := by
    intro r hr'
    have := hin r hr'
    rw [GridSearch.isOutside_eq (by rw [hvm.coords r hr', hp1, hn])] at this
    simpa using this
  have key : ∀ (r : Nat) (v : ℝ), (r : ℝ) * (102 / 10000) ≤ v + 1 / 100 → v + 1 / 100 < ((r : ℝ) + 1) * (102 / 10000) → r < 100 → 0 ≤ v + 1/100 →
      GridSearch.keyOf g [v, 0] = r := by
    intro r v h1 h2 h3 h4
    rw [GridSearch.keyOf2 hi.wf hd2]
    unfold GridSearch.rIdx
    rw [n100 0 (by norm_num), n100 1 (by norm_num), hxm 0 (by norm_num), hxm 1 (by norm_num), hside']
    have f1 : ⌊((at' [0] 0 : ℝ) - -(1 / 100)) / (102 / 10000)⌋₊ = 0 := by
      rw [Nat.floor_eq_zero]; norm_num [at']
    have e0 : (at' [v, 0] 0 : ℝ) = v := by simp [at']
    have e1 : (at' [v, 0] 1 : ℝ) = 0 := by simp [at']
    have f0 : ⌊(v - -(1 / 100)) / (102 / 10000)⌋₊ = r := by
      rw [Nat.floor_eq_iff (by apply div_nonneg <;> linarith)]
      rw [le_div_iff₀ (by norm_num), div_lt_iff₀ (by norm_num)]
      constructor <;> linarith
    have f1 : ⌊((0 : ℝ) - -(1 / 100)) / (102 / 10000)⌋₊ = 0 := by
      rw [Nat.floor_eq_zero]; norm_num
    rw [e0, e1, f0, f1, if_neg (by omega), if_neg (by omega)]
    omega
  intro p hp
  obtain ⟨id, s1, s2, _, q, hq, hqid, hd⟩ := body_cases straddleOrder_valid hvm hn hr hin hp
  rw [s2]
  have hlt := straddle_tol
  have hnear : ∀ i < 2, |q.coords.getD i 0 - p.coords.getD i 0| < 1 / 5000 := by
    intro i hi
    have := abs_le_euclid (a := q.coords) (b := p.coords) (i := i) (by rw [hvm.coords q hq]; exact hi)
    linarith
  obtain ⟨c, c1, i, x, c2, c3, c4⟩ := search_first hi (straddleOrder_valid _) (by rw [hvm.coords p hp, hp1, hn]) (ins p hp) s1
  have hcc : GridSearch.calcContainerKey g p.coords = some (GridSearch.keyOf g p.coords) := by
    rw [GridSearch.calcContainerKey_eq, if_pos (ins p hp)]
  rw [hcc] at c2 c4
  have hself : (p.id, p.coords) ∈ straddleOrder (some (GridSearch.keyOf g p.coords)) c :=
    (straddleOrder_valid _).mem.2 ((GridSearch.mem_get2 hi.cwf c1).2 ((hi.cur _ _ (current_of_valid hvm hp)).2.2 _ (Or.inl rfl)))
  obtain ⟨j, hj⟩ := List.mem_iff_getElem?.1 hself
  have hij : i ≤ j := by
    by_contra hc
    have := c4 j _ (by omega) hj
    dsimp only at this
    have h0 : d3 p.coords p.coords ≤ g.tolDist := by
      refine GridSearch.d3_le_tolDist hi.wf (by rw [hvm.coords p hp, hp1, hn]) (by rw [hvm.coords p hp, hp1, hn]) ?_
      intro i _; simp [hi.wf.tolPos.le]
    linarith
  simp only [straddle, List.mem_cons, List.not_mem_nil, or_false] at hp hq
  have n0 := hnear 0 (by norm_num)
  have n1 := hnear 1 (by norm_num)
  rcases hp with rfl | rfl | rfl | rfl
  · have hkey : GridSearch.keyOf g [49999 / 100000, 0] = 49 := key 49 _ (by norm_num) (by norm_num) (by norm_num) (by norm_num)
    rw [hkey] at c2 hj
    unfold straddleOrder at c2 hj
    rw [if_pos rfl] at c2 hj
    have hs := List.pairwise_insertionSort (fun a b : Nat × List ℝ => a.1 ≤ b.1) c
    rcases Nat.lt_or_ge i j with h | h
    · obtain ⟨hi', ei⟩ := List.getElem?_eq_some_iff.1 c2
      obtain ⟨hj', ej⟩ := List.getElem?_eq_some_iff.1 hj
      have := List.pairwise_iff_getElem.1 hs i j hi' hj' h
      rw [ei, ej] at this
      simpa using this
    · have : i = j := by omega
      subst this
      rw [c2] at hj
      simp only [Option.some.injEq, Prod.mk.injEq] at hj
      exact hj.1
  · have hkey : GridSearch.keyOf g [1 / 2, 0] = 50 := key 50 _ (by norm_num) (by norm_num) (by norm_num) (by norm_num)
    rw [hkey] at c2 hj
    unfold straddleOrder at c2 hj
    rw [if_neg (by simp)] at c2 hj
    have hs := List.pairwise_insertionSort (fun a b : Nat × List ℝ => b.1 ≤ a.1) c
    have hid : 1 ≤ id := by
      rcases Nat.lt_or_ge i j with h | h
      · obtain ⟨hi', ei⟩ := List.getElem?_eq_some_iff.1 c2
        obtain ⟨hj', ej⟩ := List.getElem?_eq_some_iff.1 hj
        have := List.pairwise_iff_getElem.1 hs i j hi' hj' h
        rw [ei, ej] at this
        simpa using this
      · have : i = j := by omega
        subst this
        rw [c2] at hj
        simp only [Option.some.injEq, Prod.mk.injEq] at hj
        exact hj.1.ge
    rcases hq with rfl | rfl | rfl | rfl
    · simp at hqid; omega
    · exact hqid.symm
    · norm_num [abs_lt] at n1
    · norm_num [abs_lt] at n1
  · rcases hq with rfl | rfl | rfl | rfl
    · norm_num [abs_lt] at n1
    · norm_num [abs_lt] at n1
    · exact hqid.symm
    · norm_num [abs_lt] at n0
  · rcases hq with rfl | rfl | rfl | rfl
    · norm_num [abs_lt] at n1
    · norm_num [abs_lt] at n1
    · norm_num [abs_lt] at n0
    · exact hqid.symm

end
end Gemlab.Mesh
