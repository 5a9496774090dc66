import Verif.Model.Mesh
import Verif.Lib.ResList
import Verif.Props.GraphUnd
import Mathlib.Data.List.Sort
import Mathlib.Data.List.GetD

/-! # Properties of meshes: renumbering (C06), id check (C19), marker and limit queries (C24) -/
namespace Gemlab.Props.Mesh
open Gemlab Gemlab.Mesh Gemlab.Spec

variable {K : Type}

/-- Every point has `ndim` coordinates (as in every mesh the crate builds). -/
def GoodCoords (m : Mesh K) : Prop := ∀ p ∈ m.points, p.coords.length = m.ndim
/-- The points of the cells exist. -/
def GoodCells (m : Mesh K) : Prop := ∀ c ∈ m.cells, ∀ p ∈ c.points, p < m.points.length

/-! ## C06 -/

theorem copyCoords_eq (ndim : Nat) (src dst : List K) (hs : src.length = ndim) (hd : dst.length = ndim) :
    copyCoords ndim src dst = .ok src := by
  obtain ⟨s', h1, h2⟩ := Res.foldlM_range (fun (d : List K) k => do
      let v ← Res.idx src k
      Res.setIdx d k v) ndim dst
    (fun i d => d.length = ndim ∧ ∀ j : Nat, j < i → d[j]? = src[j]?) ⟨hd, by intro j hj; omega⟩ (by
      intro i d hi ⟨hl, hp⟩
      refine ⟨d.set i src[i], ?_, by simpa using hl, ?_⟩
      · rw [Res.idx_of_lt (by omega)]
        simp only [Res.bind_ok]
        exact Res.setIdx_of_lt (by omega)
      · intro j hj
        by_cases hji : j = i
        · subst hji; rw [List.getElem?_set_self (by omega)]; simp [hs, hi]
        · rw [List.getElem?_set_ne (by omega)]; exact hp j (by omega))
  have : s' = src := by
    apply List.ext_getElem? ; intro j
    by_cases hj : j < ndim
    · exact h2.2 j hj
    · rw [List.getElem?_eq_none (by omega), List.getElem?_eq_none (by omega)]
  rw [← this]; rw [this] at h1 ⊢; exact h1

/-- Outcome of one pass of the loop on well-formed data. -/
theorem renumberStep_ok {ndim : Nat} {orig : List (Point K)} {map : List Nat} {old new : Nat} {s : List (Point K) × List Bool}
    {src : Point K} (ho : ∀ p ∈ orig, p.coords.length = ndim) (hmap : map[old]? = some new) (hsrc : orig[old]? = some src)
    (hs : ∀ p ∈ s.1, p.coords.length = ndim) (hl1 : s.1.length = orig.length) (hl2 : s.2.length = orig.length)
    (hnew : new < orig.length) :
    renumberStep ndim orig map old s = .ok (s.1.set new { id := new, marker := src.marker, coords := src.coords }, s.2.set new true) := by
  unfold renumberStep
  rw [Res.idx_eq_ok.2 hmap]
  simp only [Res.bind_ok]
  rw [if_neg (by omega), Res.idx_eq_ok.2 hsrc, Res.idx_of_lt (by omega)]
  simp only [Res.bind_ok]
  rw [copyCoords_eq ndim _ _ (ho src (List.mem_of_getElem? hsrc)) (hs _ (List.getElem_mem _))]
  simp only [Res.bind_ok]
  rw [Res.setIdx_of_lt (by omega), Res.bind_ok, Res.setIdx_of_lt (by omega), Res.bind_ok]
  rfl

/-- State of the loop after the old ids `0..j-1`: the points at the new places, in the order of the last write. -/
structure LoopInv (ndim : Nat) (orig : List (Point K)) (map : List Nat) (j : Nat) (s : List (Point K) × List Bool) : Prop where
  len1 : s.1.length = orig.length
  len2 : s.2.length = orig.length
  coords : ∀ p ∈ s.1, p.coords.length = ndim
  flag : ∀ q : Nat, s.2[q]? = some true ↔ ∃ old : Nat, old < j ∧ map[old]? = some q
  range : ∀ old : Nat, old < j → ∀ q, map[old]? = some q → q < orig.length
  written : ∀ old : Nat, old < j → ∀ (q : Nat) (src : Point K), map[old]? = some q → orig[old]? = some src →
    (∀ old' : Nat, old < old' → old' < j → map[old']? ≠ some q) →
    s.1[q]? = some { id := q, marker := src.marker, coords := src.coords }

theorem LoopInv.step {ndim : Nat} {orig : List (Point K)} {map : List Nat} {j : Nat} {s : List (Point K) × List Bool}
    (hl : map.length = orig.length) (ho : ∀ p ∈ orig, p.coords.length = ndim) (H : LoopInv ndim orig map j s) (hj : j < orig.length) :
    (∀ new, map[j]? = some new → new < orig.length →
      ∃ s', renumberStep ndim orig map j s = .ok s' ∧ LoopInv ndim orig map (j + 1) s') ∧
    (∀ new, map[j]? = some new → orig.length ≤ new → renumberStep ndim orig map j s = .err "new point id is out of range") := by
  constructor
  · intro new hm hn
    obtain ⟨src, hsrc⟩ : ∃ src, orig[j]? = some src := ⟨orig[j], by simp [hj]⟩
    refine ⟨_, renumberStep_ok ho hm hsrc H.coords H.len1 H.len2 hn, ?_⟩
    refine ⟨by simpa using H.len1, by simpa using H.len2, ?_, ?_, ?_, ?_⟩
    · intro p hp
      rcases List.mem_or_eq_of_mem_set hp with h | rfl
      · exact H.coords p h
      · exact ho src (List.mem_of_getElem? hsrc)
    · intro q
      by_cases hq : q = new
      · subst hq
        simp only []
        rw [List.getElem?_set_self (by rw [H.len2]; exact hn)]
        exact ⟨fun _ => ⟨j, by omega, hm⟩, fun _ => rfl⟩
      · simp only []
        rw [List.getElem?_set_ne (by omega), H.flag q]
        constructor
        · rintro ⟨old, h1, h2⟩; exact ⟨old, by omega, h2⟩
        · rintro ⟨old, h1, h2⟩
          refine ⟨old, ?_, h2⟩
          rcases Nat.lt_succ_iff_lt_or_eq.1 h1 with h | h
          · exact h
          · subst h; rw [hm] at h2; simp only [Option.some.injEq] at h2; exact absurd h2.symm hq
    · intro old h1 q h2
      rcases Nat.lt_succ_iff_lt_or_eq.1 h1 with h | h
      · exact H.range old h q h2
      · subst h; rw [hm] at h2; simp only [Option.some.injEq] at h2; omega
    · intro old h1 q src' h2 h3 h4
      rcases Nat.lt_succ_iff_lt_or_eq.1 h1 with h | h
      · have hq : q ≠ new := by rintro rfl; exact h4 j h (by omega) hm
        simp only []
        rw [List.getElem?_set_ne (by omega)]
        exact H.written old h q src' h2 h3 (fun old' h5 h6 => h4 old' h5 (by omega))
      · subst h
        rw [hm] at h2; simp only [Option.some.injEq] at h2; subst h2
        rw [hsrc] at h3; simp only [Option.some.injEq] at h3; subst h3
        simp only []
        rw [List.getElem?_set_self (by rw [H.len1]; exact hn)]
  · intro new hm hn
    unfold renumberStep
    rw [Res.idx_eq_ok.2 hm]
    simp only [Res.bind_ok]
    rw [if_pos hn]

theorem loopInv_init (ndim : Nat) (orig : List (Point K)) (map : List Nat) (ho : ∀ p ∈ orig, p.coords.length = ndim) :
    LoopInv ndim orig map 0 (orig, List.replicate orig.length false) := by
  refine ⟨rfl, by simp, ho, ?_, by intro old h; omega, by intro old h; omega⟩
  intro q
  constructor
  · intro h
    simp only [List.getElem?_replicate] at h
    split at h <;> simp at h
  · rintro ⟨_, h, _⟩; omega

/-- The whole loop: succeeds with the invariant, or stops at the first out-of-range entry. -/
theorem renumberLoop_spec {ndim : Nat} {orig : List (Point K)} {map : List Nat} (hl : map.length = orig.length)
    (ho : ∀ p ∈ orig, p.coords.length = ndim) (n j : Nat) (s : List (Point K) × List Bool) (hn : j + n = orig.length)
    (H : LoopInv ndim orig map j s) :
    ((∀ x ∈ map, x < orig.length) ∧ ∃ s', renumberLoop ndim orig map (List.range' j n) s = (s', .ok ()) ∧
        LoopInv ndim orig map orig.length s') ∨
    ((∃ x ∈ map, orig.length ≤ x) ∧ ∃ s', renumberLoop ndim orig map (List.range' j n) s = (s', .err "new point id is out of range")) := by
  induction n generalizing j s with
  | zero =>
    left
    have : j = orig.length := by omega
    subst this
    refine ⟨?_, s, rfl, H⟩
    intro x hx
    obtain ⟨i, hi, rfl⟩ := List.mem_iff_getElem.1 hx
    exact H.range i (by omega) _ (by simp)
  | succ n ih =>
    have hj : j < orig.length := by omega
    obtain ⟨new, hnew⟩ : ∃ new, map[j]? = some new := ⟨map[j], by simp [hl, hj]⟩
    have hs := H.step hl ho hj
    rw [List.range'_succ]
    unfold renumberLoop
    by_cases hlt : new < orig.length
    · obtain ⟨s', h1, h2⟩ := hs.1 new hnew hlt
      rw [h1]
      exact ih (j + 1) s' (by omega) h2
    · right
      rw [hs.2 new hnew (by omega)]
      exact ⟨⟨new, List.mem_of_getElem? hnew, by omega⟩, s, rfl⟩

theorem renumberCells_ok {map : List Nat} {cells : List Cell} (h : ∀ c ∈ cells, ∀ p ∈ c.points, p < map.length) :
    renumberCells map cells = .ok (cells.map fun c => { c with points := c.points.map fun p => map.getD p 0 }) := by
  unfold renumberCells
  apply Res.mapM_eq_ok_of
  intro c hc
  have : (c.points.mapM fun p => Res.idx map p) = .ok (c.points.map fun p => map.getD p 0) := by
    apply Res.mapM_eq_ok_of
    intro p hp
    rw [Res.idx_of_lt (h c hc p hp), List.getD_eq_getElem (hn := h c hc p hp)]
  rw [this]; rfl

/-- A list of `n` numbers is a permutation of `0..n-1` iff all these numbers occur in it. -/
theorem perm_range_iff (l : List Nat) : l.Perm (List.range l.length) ↔ ∀ q < l.length, q ∈ l := by
  constructor
  · intro h q hq; exact h.mem_iff.2 (by simpa using hq)
  · intro h
    have hs : List.range l.length ⊆ l := by intro q hq; exact h q (by simpa using hq)
    have := (List.subperm_of_subset List.nodup_range hs).perm_of_length_le (by simp)
    exact this.symm

/-- What a successful renumbering does to the mesh. -/
structure Renumbered (m m' : Mesh K) (map : List Nat) : Prop where
  npoint : m'.points.length = m.points.length
  points : ∀ (old : Nat) (p : Point K), m.points[old]? = some p → ∃ new, map[old]? = some new ∧
    m'.points[new]? = some { id := new, marker := p.marker, coords := p.coords }
  cells : m'.cells = m.cells.map fun c => { c with points := c.points.map fun p => map.getD p 0 }
  ndim : m'.ndim = m.ndim
  markedEdges : m'.markedEdges = m.markedEdges
  markedFaces : m'.markedFaces = m.markedFaces

theorem renumberPoints_spec (m : Mesh K) (hc : GoodCoords m) (hg : GoodCells m) (map : List Nat) :
    (map.Perm (List.range m.points.length) ∧ ∃ m', renumberPoints m map = (m', .ok ()) ∧ Renumbered m m' map) ∨
    (¬ map.Perm (List.range m.points.length) ∧ ∃ m' e, renumberPoints m map = (m', .err e)) := by
  by_cases hl : map.length = m.points.length
  · unfold renumberPoints
    rw [if_neg (by simpa using hl)]
    have key := renumberLoop_spec hl hc m.points.length 0 _ (by omega) (loopInv_init m.ndim m.points map hc)
    rw [← List.range_eq_range'] at key
    rcases key with
      ⟨hr, s', h1, H⟩ | ⟨⟨x, hx, hx2⟩, s', h1⟩
    · rw [h1]
      simp only []
      have hall : s'.2.all id = true ↔ map.Perm (List.range m.points.length) := by
        rw [← hl, perm_range_iff, hl]
        simp only [List.all_eq_true, id_eq]
        constructor
        · intro h q hq
          have : s'.2[q]? = some true := by
            have hq2 : q < s'.2.length := by rw [H.len2]; exact hq
            rw [List.getElem?_eq_getElem hq2, h _ (List.getElem_mem hq2)]
          obtain ⟨old, _, h3⟩ := (H.flag q).1 this
          exact List.mem_of_getElem? h3
        · intro h b hb
          obtain ⟨q, hq, rfl⟩ := List.mem_iff_getElem.1 hb
          obtain ⟨old, ho, h3⟩ := List.mem_iff_getElem.1 (h q (by rw [← H.len2]; exact hq))
          have := (H.flag q).2 ⟨old, by omega, by rw [List.getElem?_eq_getElem ho, h3]⟩
          rw [List.getElem?_eq_getElem hq] at this
          simpa using this
      by_cases hp : map.Perm (List.range m.points.length)
      · left
        refine ⟨hp, ?_⟩
        rw [if_pos (hall.2 hp), renumberCells_ok (by rw [hl]; exact hg)]
        refine ⟨_, rfl, ⟨H.len1, ?_, rfl, rfl, rfl, rfl⟩⟩
        intro old p hold
        have holt : old < m.points.length := by
          by_contra hge; rw [List.getElem?_eq_none (by omega)] at hold; simp at hold
        refine ⟨map[old]'(by omega), by simp [hl, holt], ?_⟩
        apply H.written old holt _ p (by simp [hl, holt]) hold
        intro old' h2 h3 h4
        have hnd : map.Nodup := hp.nodup_iff.2 List.nodup_range
        rw [List.getElem?_eq_getElem (by omega), Option.some.injEq] at h4
        have := (List.nodup_iff_injective_getElem.1 hnd) (a₁ := ⟨old', by omega⟩) (a₂ := ⟨old, by omega⟩) h4
        simp only [Fin.mk.injEq] at this
        omega
      · right
        rw [if_neg (by rw [hall]; exact hp)]
        exact ⟨hp, _, _, rfl⟩
    · right
      rw [h1]
      refine ⟨?_, _, _, rfl⟩
      intro hp
      have := hp.mem_iff.1 hx
      rw [List.mem_range] at this; omega
  · right
    refine ⟨?_, m, "old_to_new.len() must be equal to the number of points", ?_⟩
    · intro hp; exact hl (by simpa using hp.length_eq)
    · unfold renumberPoints; rw [if_pos hl]

/-- **C06.** `renumber_points(map)` never panics; it succeeds exactly when `map` is a permutation of the point ids. -/
theorem C06_ok_iff_permutation (m : Mesh K) (hc : GoodCoords m) (hg : GoodCells m) (map : List Nat) :
    ((renumberPoints m map).2 = .ok () ↔ map.Perm (List.range m.points.length)) ∧ (renumberPoints m map).2 ≠ .panic := by
  rcases renumberPoints_spec m hc hg map with ⟨h, m', h1, _⟩ | ⟨h, m', e, h1⟩ <;> rw [h1] <;> simp [h]

/-- **C06.** After a successful renumbering the number of points is unchanged, ids are sequential, and point `map[old]` has
the marker and the coordinates of the old point `old`. -/
theorem C06_points (m m' : Mesh K) (hc : GoodCoords m) (hg : GoodCells m) (map : List Nat)
    (h : renumberPoints m map = (m', .ok ())) :
    m'.points.length = m.points.length ∧ (∀ (i : Nat) (p : Point K), m'.points[i]? = some p → p.id = i) ∧
    ∀ (old : Nat) (p : Point K), m.points[old]? = some p →
      ∃ new p', map[old]? = some new ∧ m'.points[new]? = some p' ∧ p'.marker = p.marker ∧ p'.coords = p.coords := by
  rcases renumberPoints_spec m hc hg map with ⟨hp, m1, h1, R⟩ | ⟨_, m1, e, h1⟩
  · rw [h1] at h
    simp only [Prod.mk.injEq, and_true] at h
    subst h
    have hl : map.length = m.points.length := by simpa using hp.length_eq
    refine ⟨R.npoint, ?_, ?_⟩
    · intro i p hi
      have hi2 : i < m.points.length := by
        rw [← R.npoint]; by_contra hge; rw [List.getElem?_eq_none (by omega)] at hi; simp at hi
      obtain ⟨old, ho, h3⟩ := List.mem_iff_getElem.1 (hp.mem_iff.2 (List.mem_range.2 hi2))
      obtain ⟨new, h4, h5⟩ := R.points old (m.points[old]'(by omega)) (by simp)
      rw [List.getElem?_eq_getElem ho, h3] at h4
      simp only [Option.some.injEq] at h4; subst h4
      rw [hi] at h5; simp only [Option.some.injEq] at h5; rw [h5]
    · intro old p ho
      obtain ⟨new, h4, h5⟩ := R.points old p ho
      exact ⟨new, _, h4, h5, rfl, rfl⟩
  · rw [h1] at h; simp at h

/-- **C06.** Every cell keeps its id, marker and kind and, node by node, the coordinates and the marker of its points: the
`i`-th point of cell `c` in the new mesh is a copy of the `i`-th point of cell `c` in the old mesh. -/
theorem C06_cells (m m' : Mesh K) (hc : GoodCoords m) (hg : GoodCells m) (map : List Nat)
    (h : renumberPoints m map = (m', .ok ())) :
    m'.cells.length = m.cells.length ∧ m'.ndim = m.ndim ∧
    ∀ (j : Nat) (c : Cell), m.cells[j]? = some c → ∃ c', m'.cells[j]? = some c' ∧ c'.id = c.id ∧ c'.marker = c.marker ∧
      c'.kind = c.kind ∧ c'.points.length = c.points.length ∧
      ∀ (i p : Nat) (pt : Point K), c.points[i]? = some p → m.points[p]? = some pt →
        ∃ (q : Nat) (qt : Point K), c'.points[i]? = some q ∧ m'.points[q]? = some qt ∧ qt.coords = pt.coords ∧ qt.marker = pt.marker := by
  rcases renumberPoints_spec m hc hg map with ⟨hp, m1, h1, R⟩ | ⟨_, m1, e, h1⟩
  · rw [h1] at h
    simp only [Prod.mk.injEq, and_true] at h
    subst h
    refine ⟨by rw [R.cells]; simp, R.ndim, ?_⟩
    intro j c hj
    refine ⟨{ c with points := c.points.map fun p => map.getD p 0 }, by rw [R.cells, List.getElem?_map, hj]; rfl, rfl, rfl, rfl, by simp, ?_⟩
    intro i p pt hi hpt
    obtain ⟨new, h4, h5⟩ := R.points p pt hpt
    refine ⟨new, _, ?_, h5, rfl, rfl⟩
    simp only [List.getElem?_map, hi, Option.map_some, List.getD_eq_getElem?_getD, h4, Option.getD_some]
  · rw [h1] at h; simp at h

/-- **C06, limitation of the code.** The lists of marked edges and faces are left untouched: they still hold the old ids. -/
theorem C06_marked_entities_not_renumbered (m m' : Mesh K) (hc : GoodCoords m) (hg : GoodCells m) (map : List Nat)
    (h : renumberPoints m map = (m', .ok ())) : m'.markedEdges = m.markedEdges ∧ m'.markedFaces = m.markedFaces := by
  rcases renumberPoints_spec m hc hg map with ⟨hp, m1, h1, R⟩ | ⟨_, m1, e, h1⟩
  · rw [h1] at h
    simp only [Prod.mk.injEq, and_true] at h
    subst h
    exact ⟨R.markedEdges, R.markedFaces⟩
  · rw [h1] at h; simp at h

/-- A triangle and a marked edge. -/
def exMesh : Mesh Nat :=
  { ndim := 2
    points := [⟨0, -1, [0, 0]⟩, ⟨1, -2, [4, 0]⟩, ⟨2, -3, [0, 3]⟩, ⟨3, -4, [4, 3]⟩]
    cells := [⟨0, 1, .tri3, [0, 1, 2]⟩, ⟨1, 2, .tri3, [1, 3, 2]⟩]
    markedEdges := [(-10, 0, 1)]
    markedFaces := [] }

example : GoodCoords exMesh ∧ GoodCells exMesh := by unfold GoodCoords GoodCells; decide
example : renumberPoints exMesh [2, 0, 3, 1] = ({ exMesh with
    points := [⟨0, -2, [4, 0]⟩, ⟨1, -4, [4, 3]⟩, ⟨2, -1, [0, 0]⟩, ⟨3, -3, [0, 3]⟩]
    cells := [⟨0, 1, .tri3, [2, 0, 3]⟩, ⟨1, 2, .tri3, [0, 1, 3]⟩] }, .ok ()) := by decide +kernel

/-- **C06, defect.** After the renumbering above, the marked edge `(0, 1)` joins the points (4,0) and (4,3) instead of (0,0) and (4,0). -/
theorem C06_marked_edge_moves : ∃ (m : Mesh Nat) (map : List Nat), GoodCoords m ∧ GoodCells m ∧ map.Perm (List.range m.points.length) ∧
    (∃ e ∈ m.markedEdges, (renumberPoints m map).1.markedEdges = [e] ∧
      (m.points.getD e.2.1 ⟨0, 0, []⟩).coords = [0, 0] ∧ (m.points.getD e.2.2 ⟨0, 0, []⟩).coords = [4, 0] ∧
      ((renumberPoints m map).1.points.getD e.2.1 ⟨0, 0, []⟩).coords = [4, 0] ∧
      ((renumberPoints m map).1.points.getD e.2.2 ⟨0, 0, []⟩).coords = [4, 3]) := by
  refine ⟨exMesh, [2, 0, 3, 1], ?_, ?_, ?_, ?_⟩
  · unfold GoodCoords; decide
  · unfold GoodCells; decide
  · decide
  · exact ⟨(-10, 0, 1), by decide, by decide +kernel, by decide, by decide, by decide +kernel, by decide +kernel⟩

/-- **C06, defect.** A map that is not a permutation is rejected, but the mesh has already been modified. -/
theorem C06_error_leaves_mesh_modified :
    (renumberPoints exMesh [1, 1, 2, 3]).2 = .err "not all points have been updated" ∧ (renumberPoints exMesh [1, 1, 2, 3]).1 = exMesh ∧
    (renumberPoints exMesh [0, 0, 2, 3]).2 = .err "not all points have been updated" ∧ (renumberPoints exMesh [0, 0, 2, 3]).1 ≠ exMesh := by
  decide +kernel

/-! ### Renumbering with the graph -/

/-- **C06.** `renumber_mesh` on a mesh whose points are connected through the cells: it never panics, with or without the check;
if it returns an error (iterations of `pseudo_peripheral`) the mesh is unchanged; otherwise the mesh was renumbered with a permutation. -/
theorem C06_renumber_mesh (m : Mesh K) (hc : GoodCoords m) (hg : GoodCells m) (hn : 0 < m.points.length)
    (hconn : Connected (Source.mesh m.points.length (m.cells.map (·.points))).Adj m.points.length) (check : Bool) :
    (∃ e, renumberMesh m check = (m, .err e)) ∨
    ∃ map m', map.Perm (List.range m.points.length) ∧ renumberMesh m check = (m', .ok ()) ∧ renumberPoints m map = (m', .ok ()) := by
  let src : Source := .mesh m.points.length (m.cells.map (·.points))
  have hw : src.WF := by
    intro c hcc p hp
    obtain ⟨c', hc', rfl⟩ := List.mem_map.1 hcc
    exact hg c' hc' p hp
  have hb : ∃ g, src.build true check = .ok g := by
    cases check with
    | false => exact GraphUnd.C01_without_check src hw true
    | true => exact ((GraphUnd.C01_connectivity_check_exact src hw hn true).1).1 hconn
  obtain ⟨g, hgb⟩ := hb
  have hG : IsGraphOf src true g := GraphUnd.isGraphOf_of_build hw hgb
  have hgb' : GraphUnd.fromMesh m.points.length (m.cells.map (·.points)) true check = .ok g := hgb
  obtain ⟨c1, _, _, c4⟩ := GraphUnd.C04_cuthill_mckee_permutation src hw hn hconn g hG none (by simp)
  unfold renumberMesh
  rw [hgb']
  simp only [Res.bind_ok]
  cases hcm : GraphUnd.cuthillMckee g none with
  | panic => exact absurd hcm c1
  | err e => left; exact ⟨e, rfl⟩
  | ok r =>
    obtain ⟨g', ordering⟩ := r
    obtain ⟨_, hperm⟩ := c4 g' ordering hcm
    have hlen : ordering.length = m.points.length := by have := hperm.length_eq; rwa [List.length_range] at this
    obtain ⟨map, hm, hmp, _⟩ := GraphUnd.C05_old_to_new_inverse ordering (by rw [hlen]; exact hperm)
    right
    rw [hlen] at hmp
    simp only [Res.bind_ok, hm]
    rcases renumberPoints_spec m hc hg map with ⟨_, m', h1, _⟩ | ⟨h, _⟩
    · exact ⟨map, m', hmp, h1, h1⟩
    · exact absurd hmp h

example : (renumberMesh exMesh true).2 = .ok () ∧ (renumberMesh exMesh true).1 ≠ exMesh := by decide +kernel

/-! ## C19 -/

/-- **C19.** The id check returns `Ok` if and only if the point ids are `0, 1, …`, the cell ids are `0, 1, …`, every cell has as many
points as its kind prescribes, and these points exist. (The code does not look at the space dimension, nor at the length
of the coordinates, nor at the marked edges and faces.) -/
theorem C19_check_ids_and_kind (m : Mesh K) :
    checkIdsAndKind m = .ok () ↔
      (∀ (i : Nat) (p : Point K), m.points[i]? = some p → p.id = i) ∧
      (∀ (i : Nat) (c : Cell), m.cells[i]? = some c → c.id = i ∧ c.points.length = c.kind.nnode ∧ ∀ p ∈ c.points, p < m.points.length) := by
  have h1 : checkPointIds m.points = .ok () ↔ ∀ (i : Nat) (p : Point K), m.points[i]? = some p → p.id = i := by
    unfold checkPointIds
    rw [Res.forM_ok_iff]
    simp only [List.mem_range]
    constructor
    · intro h i p hp
      have hi : i < m.points.length := by
        by_contra hge; rw [List.getElem?_eq_none (by omega)] at hp; simp at hp
      have := h i hi
      rw [Res.idx_eq_ok.2 hp] at this
      simp only [Res.bind_ok] at this
      by_contra hne
      rw [if_pos hne] at this
      simp at this
    · intro h i hi
      rw [Res.idx_of_lt hi]
      simp only [Res.bind_ok]
      rw [if_neg (by simpa using h i m.points[i] (by simp))]; rfl
  have h2 : checkCells m.points.length m.cells = .ok () ↔
      ∀ (i : Nat) (c : Cell), m.cells[i]? = some c → c.id = i ∧ c.points.length = c.kind.nnode ∧ ∀ p ∈ c.points, p < m.points.length := by
    unfold checkCells
    rw [Res.forM_ok_iff]
    simp only [List.mem_range]
    constructor
    · intro h i c hc
      have hi : i < m.cells.length := by
        by_contra hge; rw [List.getElem?_eq_none (by omega)] at hc; simp at hc
      have := h i hi
      rw [Res.idx_eq_ok.2 hc] at this
      simp only [Res.bind_ok] at this
      split at this
      · simp at this
      · rename_i hid
        split at this
        · simp at this
        · rename_i hlen
          refine ⟨by simpa using hid, by simpa using hlen, ?_⟩
          intro p hp
          have := (Res.forM_ok_iff _ _).1 this p hp
          by_contra hge
          rw [if_pos (by omega)] at this
          simp at this
    · intro h i hi
      obtain ⟨h3, h4, h5⟩ := h i m.cells[i] (by simp)
      rw [Res.idx_of_lt hi]
      simp only [Res.bind_ok]
      rw [if_neg (by simpa using h3), if_neg (by simpa using h4), Res.forM_ok_iff]
      intro p hp
      rw [if_neg (by have := h5 p hp; omega)]; rfl
  unfold checkIdsAndKind
  constructor
  · intro h
    obtain ⟨_, h3, h4⟩ := Res.bind_eq_ok.1 h
    exact ⟨h1.1 h3, h2.1 h4⟩
  · rintro ⟨h3, h4⟩
    rw [h1.2 h3]
    exact h2.2 h4

/-- **C19.** The check never panics. -/
theorem C19_check_never_panics (m : Mesh K) : checkIdsAndKind m ≠ .panic := by
  have h1 : checkPointIds m.points ≠ .panic := by
    unfold checkPointIds
    apply Res.forM_ne_panic
    intro i hi
    rw [Res.idx_of_lt (by simpa using hi)]
    simp only [Res.bind_ok]
    split <;> simp
  unfold checkIdsAndKind
  cases h : checkPointIds m.points with
  | panic => exact absurd h h1
  | err e => simp
  | ok u =>
    simp only [Res.bind_ok]
    unfold checkCells
    apply Res.forM_ne_panic
    intro i hi
    rw [Res.idx_of_lt (by simpa using hi)]
    simp only [Res.bind_ok]
    split
    · simp
    · split
      · simp
      · apply Res.forM_ne_panic
        intro p _
        split <;> simp

/-- A mesh accepted by the check is a mesh on which `renumber_points` works (as far as the cells are concerned). -/
theorem C19_good_cells (m : Mesh K) (h : checkIdsAndKind m = .ok ()) : GoodCells m := by
  have := ((C19_check_ids_and_kind m).1 h).2
  intro c hc p hp
  obtain ⟨i, hi, rfl⟩ := List.mem_iff_getElem.1 hc
  exact (this i m.cells[i] (by simp)).2.2 p hp

/-- **C19.** `new_zero_homogeneous` returns a mesh that passes the check, or an error for the wrong arguments; never a panic. -/
theorem C19_new_zero_homogeneous [Zero K] (ndim npoint ncell : Nat) (kind : GeoKind) :
    ((2 ≤ ndim ∧ ndim ≤ 3 ∧ 2 ≤ npoint ∧ 1 ≤ ncell ∧ kind.ndim ≤ ndim) →
      ∃ m : Mesh K, newZeroHomogeneous ndim npoint ncell kind = .ok m ∧ checkIdsAndKind m = .ok () ∧ GoodCoords m ∧
        m.points.length = npoint ∧ m.cells.length = ncell ∧ m.ndim = ndim ∧ ∀ c ∈ m.cells, c.kind = kind) ∧
    (¬ (2 ≤ ndim ∧ ndim ≤ 3 ∧ 2 ≤ npoint ∧ 1 ≤ ncell ∧ kind.ndim ≤ ndim) →
      ∃ e, (newZeroHomogeneous ndim npoint ncell kind : Res (Mesh K)) = .err e) := by
  constructor
  · rintro ⟨h1, h2, h3, h4, h5⟩
    unfold newZeroHomogeneous
    rw [if_neg (by simp; omega), if_neg (by omega), if_neg (by omega), if_neg (by omega)]
    refine ⟨_, rfl, ?_, ?_, by simp, by simp, rfl, ?_⟩
    · rw [C19_check_ids_and_kind]
      constructor
      · intro i p hp
        simp only [List.getElem?_map, Option.map_eq_some_iff] at hp
        obtain ⟨a, ha, rfl⟩ := hp
        rw [List.getElem?_range] at ha
        · simp only [Option.some.injEq] at ha; simp [ha]
        · by_contra hge; rw [List.getElem?_eq_none (by simpa using hge)] at ha; simp at ha
      · intro i p hp
        simp only [List.getElem?_map, Option.map_eq_some_iff] at hp
        obtain ⟨a, ha, rfl⟩ := hp
        rw [List.getElem?_range] at ha
        · simp only [Option.some.injEq] at ha
          refine ⟨by simp [ha], by simp, ?_⟩
          intro q hq
          simp only [List.mem_replicate] at hq
          rw [hq.2]; simp only [List.length_map, List.length_range]; omega
        · by_contra hge; rw [List.getElem?_eq_none (by simpa using hge)] at ha; simp at ha
    · intro p hp
      simp only [List.mem_map] at hp
      obtain ⟨a, _, rfl⟩ := hp
      simp
    · intro c hc
      simp only [List.mem_map] at hc
      obtain ⟨a, _, rfl⟩ := hc
      rfl
  · intro h
    unfold newZeroHomogeneous
    split
    · exact ⟨_, rfl⟩
    · split
      · exact ⟨_, rfl⟩
      · split
        · exact ⟨_, rfl⟩
        · split
          · exact ⟨_, rfl⟩
          · exfalso
            rename_i a b c d
            simp only [Bool.or_eq_true, decide_eq_true_eq] at a
            apply h; omega

example : checkIdsAndKind exMesh = .ok () := by decide +kernel
example : checkIdsAndKind { exMesh with cells := [⟨0, 1, .tri3, [0, 1, 4]⟩] } =
    .err "the id of a point specified in the points list of a cell is out of bounds" := by decide +kernel
/-- The space dimension is not checked: a tetrahedron in 2D passes. -/
example : checkIdsAndKind { exMesh with cells := [⟨0, 1, .tet4, [0, 1, 2, 3]⟩] } = .ok () := by decide +kernel

/-! ## C24 -/

/-- **C24.** `search_marked_points` returns, in non-decreasing order, exactly the ids of the points with the marker that pass the
filter, one entry per point; it returns the error exactly when there is none. -/
theorem C24_search_marked_points (m : Mesh K) (marker : Int) (filter : List K → Bool) :
    (∀ ids, searchMarkedPoints m marker filter = .ok ids →
      ids.Pairwise (· ≤ ·) ∧ (∀ i, i ∈ ids ↔ ∃ p ∈ m.points, p.id = i ∧ p.marker = marker ∧ filter p.coords = true) ∧
      ids.Perm ((m.points.filter fun p => p.marker = marker && filter p.coords).map (·.id))) ∧
    (searchMarkedPoints m marker filter = .err msgNoMarkedPoint ↔ ∀ p ∈ m.points, p.marker = marker → filter p.coords = false) ∧
    searchMarkedPoints m marker filter ≠ .panic := by
  have he : (m.points.filterMap fun p => if p.marker = marker && filter p.coords then some p.id else none)
      = (m.points.filter fun p => p.marker = marker && filter p.coords).map (·.id) := by
    rw [← List.filterMap_eq_map, List.filterMap_filter]
    apply List.filterMap_congr; intro p _
    simp
  unfold searchMarkedPoints
  rw [he]
  simp only []
  refine ⟨?_, ?_, ?_⟩
  · intro ids h
    split at h
    · simp at h
    · simp only [Res.ok.injEq] at h
      subst h
      have hperm := List.perm_insertionSort (· ≤ ·) ((m.points.filter fun p => p.marker = marker && filter p.coords).map (·.id))
      refine ⟨List.pairwise_insertionSort _ _, ?_, hperm⟩
      intro i
      rw [hperm.mem_iff]
      simp only [List.mem_map, List.mem_filter, Bool.and_eq_true, decide_eq_true_eq]
      constructor
      · rintro ⟨p, ⟨h1, h2, h3⟩, h4⟩; exact ⟨p, h1, h4, h2, h3⟩
      · rintro ⟨p, h1, h4, h2, h3⟩; exact ⟨p, ⟨h1, h2, h3⟩, h4⟩
  · constructor
    · intro h
      split at h
      · rename_i h0
        simp only [List.length_map, List.length_eq_zero_iff, List.filter_eq_nil_iff, Bool.and_eq_true, decide_eq_true_eq] at h0
        intro p hp hm
        have := h0 p hp
        cases hf : filter p.coords
        · rfl
        · exact absurd ⟨hm, hf⟩ this
      · simp at h
    · intro h
      rw [if_pos]
      simp only [List.length_map, List.length_eq_zero_iff, List.filter_eq_nil_iff, Bool.and_eq_true, decide_eq_true_eq]
      rintro p hp ⟨h1, h2⟩
      rw [h p hp h1] at h2; simp at h2
  · split <;> simp

/-- **C24.** With distinct point ids (as checked by `check_ids_and_kind`) the result is strictly increasing: sorted and unique. -/
theorem C24_search_marked_points_unique (m : Mesh K) (hid : (m.points.map (·.id)).Nodup) (marker : Int) (filter : List K → Bool)
    (ids : List Nat) (h : searchMarkedPoints m marker filter = .ok ids) : ids.Pairwise (· < ·) := by
  obtain ⟨h1, _, h3⟩ := (C24_search_marked_points m marker filter).1 ids h
  have hnd : ids.Nodup := h3.nodup_iff.2 (hid.sublist (List.Sublist.map _ List.filter_sublist))
  exact (h1.and hnd).imp (fun {a b} h => lt_of_le_of_ne h.1 h.2)

/-- **C24.** `search_first_marked_point` returns the id of the first such point, and the error exactly when there is none. -/
theorem C24_search_first_marked_point (m : Mesh K) (marker : Int) (filter : List K → Bool) :
    (∀ i, searchFirstMarkedPoint m marker filter = .ok i →
      ∃ (j : Nat) (p : Point K), m.points[j]? = some p ∧ p.id = i ∧ p.marker = marker ∧ filter p.coords = true ∧
        ∀ (j' : Nat) (p' : Point K), j' < j → m.points[j']? = some p' → p'.marker = marker → filter p'.coords = false) ∧
    (searchFirstMarkedPoint m marker filter = .err msgNoMarkedPoint ↔ ∀ p ∈ m.points, p.marker = marker → filter p.coords = false) := by
  unfold searchFirstMarkedPoint
  constructor
  · intro i h
    split at h
    · rename_i p hp
      simp only [Res.ok.injEq] at h
      obtain ⟨h1, as, bs, h2, h3⟩ := List.find?_eq_some_iff_append.1 hp
      simp only [Bool.and_eq_true, decide_eq_true_eq] at h1
      refine ⟨as.length, p, by rw [h2]; simp, h, h1.1, h1.2, ?_⟩
      intro j' p' hj hp' hm
      rw [h2, List.getElem?_append_left hj] at hp'
      have := h3 p' (List.mem_of_getElem? hp')
      simpa [hm] using this
    · simp at h
  · constructor
    · intro h
      split at h
      · simp at h
      · rename_i hn
        intro p hp hm
        have := List.find?_eq_none.1 hn p hp
        simpa [hm] using this
    · intro h
      have : m.points.find? (fun p => p.marker = marker && filter p.coords) = none := by
        rw [List.find?_eq_none]
        intro p hp
        simp only [Bool.and_eq_true, decide_eq_true_eq, not_and, Bool.not_eq_true]
        exact h p hp
      rw [this]

section Limits
variable [LinearOrder K]

/-- `(mn, mx)` is the component-wise minimum and maximum of `big`/`low` and the given coordinates. -/
structure IsLimits (big low : K) (ndim : Nat) (xs : List (List K)) (mm : List K × List K) : Prop where
  lenMin : mm.1.length = ndim
  lenMax : mm.2.length = ndim
  minLe : ∀ (i : Nat) (a : K), mm.1[i]? = some a → a ≤ big ∧ ∀ x ∈ xs, ∀ v, x[i]? = some v → a ≤ v
  minMem : ∀ (i : Nat) (a : K), mm.1[i]? = some a → a = big ∨ ∃ x ∈ xs, x[i]? = some a
  maxGe : ∀ (i : Nat) (a : K), mm.2[i]? = some a → low ≤ a ∧ ∀ x ∈ xs, ∀ v, x[i]? = some v → v ≤ a
  maxMem : ∀ (i : Nat) (a : K), mm.2[i]? = some a → a = low ∨ ∃ x ∈ xs, x[i]? = some a

theorem updateLimits_eq (ndim : Nat) (x : List K) (mm : List K × List K) (hx : x.length = ndim) (h1 : mm.1.length = ndim)
    (h2 : mm.2.length = ndim) : ∃ r : List K × List K, updateLimits ndim x mm = .ok r ∧ r.1.length = ndim ∧ r.2.length = ndim ∧
      ∀ (i : Nat) (a b v : K), mm.1[i]? = some a → mm.2[i]? = some b → x[i]? = some v →
        r.1[i]? = some (min a v) ∧ r.2[i]? = some (max b v) := by
  obtain ⟨r, hr, hP⟩ := Res.foldlM_range (fun (mm : List K × List K) i => do
      let a ← Res.idx mm.1 i
      let b ← Res.idx mm.2 i
      let x ← Res.idx x i
      let mn ← Res.setIdx mm.1 i (min a x)
      let mx ← Res.setIdx mm.2 i (max b x)
      pure (mn, mx)) ndim mm
    (fun j r => r.1.length = ndim ∧ r.2.length = ndim ∧
      (∀ (i : Nat), j ≤ i → r.1[i]? = mm.1[i]? ∧ r.2[i]? = mm.2[i]?) ∧
      ∀ (i : Nat) (a b v : K), i < j → mm.1[i]? = some a → mm.2[i]? = some b → x[i]? = some v →
        r.1[i]? = some (min a v) ∧ r.2[i]? = some (max b v))
    ⟨h1, h2, fun _ _ => ⟨rfl, rfl⟩, by intro i _ _ _ hi; omega⟩ (by
      intro j r hj ⟨l1, l2, hge, hlt⟩
      refine ⟨(r.1.set j (min r.1[j] x[j]), r.2.set j (max r.2[j] x[j])), ?_, by simpa using l1, by simpa using l2, ?_, ?_⟩
      · rw [Res.idx_of_lt (by omega), Res.idx_of_lt (by omega), Res.idx_of_lt (by omega)]
        simp only [Res.bind_ok]
        rw [Res.setIdx_of_lt (by omega), Res.setIdx_of_lt (by omega)]
        rfl
      · intro i hi
        simp only []
        rw [List.getElem?_set_ne (by omega), List.getElem?_set_ne (by omega)]
        exact hge i (by omega)
      · intro i a b v hi ha hb hv
        simp only []
        by_cases hij : i = j
        · subst hij
          rw [List.getElem?_set_self (by omega), List.getElem?_set_self (by omega)]
          have e1 := (hge i (le_refl _)).1
          have e2 := (hge i (le_refl _)).2
          rw [ha, List.getElem?_eq_getElem (by omega)] at e1
          rw [hb, List.getElem?_eq_getElem (by omega)] at e2
          rw [List.getElem?_eq_getElem (by omega)] at hv
          simp only [Option.some.injEq] at e1 e2 hv
          rw [e1, e2, hv]
          exact ⟨rfl, rfl⟩
        · rw [List.getElem?_set_ne (by omega), List.getElem?_set_ne (by omega)]
          exact hlt i a b v (by omega) ha hb hv)
  refine ⟨r, hr, hP.1, hP.2.1, ?_⟩
  intro i a b v ha hb hv
  have hi : i < ndim := by
    by_contra hge; rw [List.getElem?_eq_none (by omega)] at ha; simp at ha
  exact hP.2.2.2 i a b v hi ha hb hv

theorem IsLimits.init (big low : K) (ndim : Nat) : IsLimits big low ndim [] (List.replicate ndim big, List.replicate ndim low) := by
  refine ⟨by simp, by simp, ?_, ?_, ?_, ?_⟩ <;> intro i a h <;> simp only [List.getElem?_replicate] at h <;> split at h <;>
    simp at h <;> subst h <;> simp

theorem IsLimits.snoc {big low : K} {ndim : Nat} {xs : List (List K)} {mm : List K × List K} (H : IsLimits big low ndim xs mm)
    (x : List K) (hx : x.length = ndim) : ∃ r, updateLimits ndim x mm = .ok r ∧ IsLimits big low ndim (xs ++ [x]) r := by
  obtain ⟨r, h0, h1, h2, h3⟩ := updateLimits_eq ndim x mm hx H.lenMin H.lenMax
  have get : ∀ i : Nat, i < ndim → ∃ a b v, mm.1[i]? = some a ∧ mm.2[i]? = some b ∧ x[i]? = some v ∧
      r.1[i]? = some (min a v) ∧ r.2[i]? = some (max b v) := by
    intro i hi
    have ha : mm.1[i]? = some (mm.1[i]'(by rw [H.lenMin]; exact hi)) := by simp
    have hb : mm.2[i]? = some (mm.2[i]'(by rw [H.lenMax]; exact hi)) := by simp
    have hv : x[i]? = some (x[i]'(by omega)) := by simp
    exact ⟨_, _, _, ha, hb, hv, h3 i _ _ _ ha hb hv⟩
  have lt1 : ∀ (i : Nat) (a : K), r.1[i]? = some a → i < ndim := by
    intro i a h; by_contra hge; rw [List.getElem?_eq_none (by omega)] at h; simp at h
  have lt2 : ∀ (i : Nat) (a : K), r.2[i]? = some a → i < ndim := by
    intro i a h; by_contra hge; rw [List.getElem?_eq_none (by omega)] at h; simp at h
  refine ⟨r, h0, ⟨h1, h2, ?_, ?_, ?_, ?_⟩⟩
  · intro i a' h
    obtain ⟨a, b, v, ha, hb, hv, hr1, hr2⟩ := get i (lt1 i a' h)
    rw [h, Option.some.injEq] at hr1; subst hr1
    refine ⟨le_trans (min_le_left _ _) (H.minLe i a ha).1, ?_⟩
    intro y hy w hw
    rcases List.mem_append.1 hy with hy | hy
    · exact le_trans (min_le_left _ _) ((H.minLe i a ha).2 y hy w hw)
    · simp only [List.mem_singleton] at hy; subst hy
      rw [hv, Option.some.injEq] at hw; subst hw
      exact min_le_right _ _
  · intro i a' h
    obtain ⟨a, b, v, ha, hb, hv, hr1, hr2⟩ := get i (lt1 i a' h)
    rw [h, Option.some.injEq] at hr1; subst hr1
    rcases min_choice a v with e | e <;> rw [e]
    · rcases H.minMem i a ha with h | ⟨y, hy, hw⟩
      · exact .inl h
      · exact .inr ⟨y, by simp [hy], hw⟩
    · exact .inr ⟨x, by simp, hv⟩
  · intro i a' h
    obtain ⟨a, b, v, ha, hb, hv, hr1, hr2⟩ := get i (lt2 i a' h)
    rw [h, Option.some.injEq] at hr2; subst hr2
    refine ⟨le_trans (H.maxGe i b hb).1 (le_max_left _ _), ?_⟩
    intro y hy w hw
    rcases List.mem_append.1 hy with hy | hy
    · exact le_trans ((H.maxGe i b hb).2 y hy w hw) (le_max_left _ _)
    · simp only [List.mem_singleton] at hy; subst hy
      rw [hv, Option.some.injEq] at hw; subst hw
      exact le_max_right _ _
  · intro i a' h
    obtain ⟨a, b, v, ha, hb, hv, hr1, hr2⟩ := get i (lt2 i a' h)
    rw [h, Option.some.injEq] at hr2; subst hr2
    rcases max_choice b v with e | e <;> rw [e]
    · rcases H.maxMem i b hb with h | ⟨y, hy, hw⟩
      · exact .inl h
      · exact .inr ⟨y, by simp [hy], hw⟩
    · exact .inr ⟨x, by simp, hv⟩

/-- The tight bounding box of a set of points: the bounds hold for all points and are attained. -/
structure IsBoundingBox (ndim : Nat) (xs : List (List K)) (mn mx : List K) : Prop where
  lenMin : mn.length = ndim
  lenMax : mx.length = ndim
  inside : ∀ x ∈ xs, ∀ (i : Nat) (a v b : K), mn[i]? = some a → x[i]? = some v → mx[i]? = some b → a ≤ v ∧ v ≤ b
  attainedMin : ∀ (i : Nat) (a : K), mn[i]? = some a → ∃ x ∈ xs, x[i]? = some a
  attainedMax : ∀ (i : Nat) (b : K), mx[i]? = some b → ∃ x ∈ xs, x[i]? = some b

theorem IsLimits.box {big low : K} {ndim : Nat} {xs : List (List K)} {mm : List K × List K} (H : IsLimits big low ndim xs mm)
    (hne : xs ≠ []) (hlen : ∀ x ∈ xs, x.length = ndim) (hb : ∀ x ∈ xs, ∀ v ∈ x, low ≤ v ∧ v ≤ big) :
    IsBoundingBox ndim xs mm.1 mm.2 := by
  obtain ⟨x0, hx0⟩ := List.exists_mem_of_ne_nil xs hne
  refine ⟨H.lenMin, H.lenMax, ?_, ?_, ?_⟩
  · intro x hx i a v b ha hv hb
    exact ⟨(H.minLe i a ha).2 x hx v hv, (H.maxGe i b hb).2 x hx v hv⟩
  · intro i a ha
    rcases H.minMem i a ha with h | h
    · have hi : i < ndim := by
        by_contra hge; rw [List.getElem?_eq_none (by rw [H.lenMin]; omega)] at ha; simp at ha
      have hv : x0[i]? = some (x0[i]'(by rw [hlen x0 hx0]; exact hi)) := by simp
      have h1 := (H.minLe i a ha).2 x0 hx0 _ hv
      have h2 := (hb x0 hx0 _ (List.mem_of_getElem? hv)).2
      refine ⟨x0, hx0, ?_⟩
      rw [hv, Option.some.injEq]
      subst h
      exact le_antisymm h2 h1
    · exact h
  · intro i a ha
    rcases H.maxMem i a ha with h | h
    · have hi : i < ndim := by
        by_contra hge; rw [List.getElem?_eq_none (by rw [H.lenMax]; omega)] at ha; simp at ha
      have hv : x0[i]? = some (x0[i]'(by rw [hlen x0 hx0]; exact hi)) := by simp
      have h1 := (H.maxGe i a ha).2 x0 hx0 _ hv
      have h2 := (hb x0 hx0 _ (List.mem_of_getElem? hv)).1
      refine ⟨x0, hx0, ?_⟩
      rw [hv, Option.some.injEq]
      subst h
      exact le_antisymm h1 h2
    · exact h

theorem getLimits_spec (big low : K) (m : Mesh K) (hc : GoodCoords m) :
    ∃ mm, getLimits big low m = .ok mm ∧ IsLimits big low m.ndim (m.points.map (·.coords)) mm := by
  obtain ⟨mm, h1, h2⟩ := Res.foldlM_list (fun mm (p : Point K) => updateLimits m.ndim p.coords mm) m.points
    (List.replicate m.ndim big, List.replicate m.ndim low) (fun pre mm => IsLimits big low m.ndim (pre.map (·.coords)) mm)
    (IsLimits.init big low m.ndim) (by
      intro pre p mm hp _ H
      obtain ⟨r, h3, h4⟩ := H.snoc p.coords (hc p hp)
      exact ⟨r, h3, by simpa using h4⟩)
  exact ⟨mm, h1, h2⟩

/-- **C24.** `get_limits` of a mesh with at least one point returns the tight bounding box of the points
(coordinates between `f64::MIN` and `f64::MAX`). -/
theorem C24_get_limits (big low : K) (m : Mesh K) (hc : GoodCoords m) (hne : m.points ≠ [])
    (hb : ∀ p ∈ m.points, ∀ v ∈ p.coords, low ≤ v ∧ v ≤ big) :
    ∃ mn mx, getLimits big low m = .ok (mn, mx) ∧ IsBoundingBox m.ndim (m.points.map (·.coords)) mn mx := by
  obtain ⟨mm, h1, h2⟩ := getLimits_spec big low m hc
  refine ⟨mm.1, mm.2, h1, h2.box (by simpa using hne) ?_ ?_⟩
  · intro x hx; obtain ⟨p, hp, rfl⟩ := List.mem_map.1 hx; exact hc p hp
  · intro x hx; obtain ⟨p, hp, rfl⟩ := List.mem_map.1 hx; exact hb p hp

/-- Coordinates of the points of a cell. -/
def cellCoords (m : Mesh K) (c : Cell) : List (List K) := c.points.map fun p => ((m.points[p]?).map (·.coords)).getD []

/-- **C24.** `get_cell_bounding_box` returns the tight bounding box of the points of the cell. -/
theorem C24_get_cell_bounding_box (big low : K) (m : Mesh K) (hc : GoodCoords m) (hg : GoodCells m)
    (hb : ∀ p ∈ m.points, ∀ v ∈ p.coords, low ≤ v ∧ v ≤ big) (cellId : Nat) (c : Cell) (hcell : m.cells[cellId]? = some c)
    (hne : c.points ≠ []) :
    ∃ mn mx, getCellBoundingBox big low m cellId = .ok (mn, mx) ∧ IsBoundingBox m.ndim (cellCoords m c) mn mx := by
  have hlt : ∀ p ∈ c.points, p < m.points.length := hg c (List.mem_of_getElem? hcell)
  obtain ⟨mm, h1, h2⟩ := Res.foldlM_list (fun mm (p : Nat) => do
      let pt ← Res.idx m.points p
      updateLimits m.ndim pt.coords mm) c.points
    (List.replicate m.ndim big, List.replicate m.ndim low)
    (fun pre mm => IsLimits big low m.ndim (pre.map fun p => ((m.points[p]?).map (·.coords)).getD []) mm)
    (IsLimits.init big low m.ndim) (by
      intro pre p mm hp _ H
      have hp2 := hlt p hp
      obtain ⟨r, h3, h4⟩ := H.snoc (m.points[p]).coords (hc _ (List.getElem_mem hp2))
      refine ⟨r, ?_, ?_⟩
      · rw [Res.idx_of_lt hp2]; exact h3
      · simpa [hp2] using h4)
  refine ⟨mm.1, mm.2, ?_, h2.box (by simpa using hne) ?_ ?_⟩
  · unfold getCellBoundingBox
    rw [Res.idx_eq_ok.2 hcell]
    exact h1
  · intro x hx
    obtain ⟨p, hp, rfl⟩ := List.mem_map.1 hx
    have hp2 := hlt p hp
    simpa [hp2] using hc _ (List.getElem_mem hp2)
  · intro x hx
    obtain ⟨p, hp, rfl⟩ := List.mem_map.1 hx
    have hp2 := hlt p hp
    simpa [hp2] using hb _ (List.getElem_mem hp2)

end Limits

/-- Specification of the argsort of `russell_lab`: indices of all keys, ordering the keys lexicographically. -/
structure ArgsortSpec [LinearOrder K] (argsort : List (List K) → List Nat) : Prop where
  perm : ∀ keys, (argsort keys).Perm (List.range keys.length)
  sorted : ∀ keys, ((argsort keys).map fun i => keys.getD i []).Pairwise (· ≤ ·)

/-- Sort key of an existing point: coordinates in reverse order. -/
def keyOf (m : Mesh K) (p : Nat) : List K := ((m.points[p]?).map (·.coords.reverse)).getD []

/-- **C24.** `get_sorted_points` returns the selected points (one entry per entry of the input passing the filter) in the
lexicographic order of the reversed coordinates — (z, y, x) in 3D, (y, x) in 2D. -/
theorem C24_get_sorted_points [LinearOrder K] (argsort : List (List K) → List Nat) (ha : ArgsortSpec argsort) (m : Mesh K)
    (hc : GoodCoords m) (hd : m.ndim = 2 ∨ m.ndim = 3) (ids : List Nat) (hids : ∀ i ∈ ids, i < m.points.length)
    (filter : List K → Bool) :
    ∃ out, getSortedPoints argsort m ids filter = .ok out ∧ out.Perm (ids.filter fun i => filter (keyOf m i)) ∧
      (out.map (keyOf m)).Pairwise (· ≤ ·) := by
  have hkey : ∀ p < m.points.length, ∃ pt, m.points[p]? = some pt ∧ sortKey m.ndim pt.coords = .ok (keyOf m p) := by
    intro p hp
    refine ⟨m.points[p], by simp, ?_⟩
    have hl := hc _ (List.getElem_mem hp)
    have e : keyOf m p = m.points[p].coords.reverse := by simp [keyOf, hp]
    rw [e]
    generalize m.points[p].coords = cs at hl
    rcases hd with hd | hd <;> rw [hd] at hl ⊢
    · match cs, hl with
      | [x, y], _ => rfl
    · match cs, hl with
      | [x, y, z], _ => rfl
  obtain ⟨sel, h1, h2⟩ := Res.foldlM_list (fun (acc : List (Nat × List K)) nid => do
      let p ← Res.idx m.points nid
      let key ← sortKey m.ndim p.coords
      pure (if filter key then acc ++ [(nid, key)] else acc)) ids []
    (fun pre acc => acc = (pre.filter fun i => filter (keyOf m i)).map fun i => (i, keyOf m i)) rfl (by
      intro pre p acc hp _ H
      obtain ⟨pt, h3, h4⟩ := hkey p (hids p hp)
      refine ⟨_, by rw [Res.idx_eq_ok.2 h3, Res.bind_ok, h4]; rfl, ?_⟩
      rw [List.filter_append, List.map_append, ← H]
      by_cases hf : filter (keyOf m p) = true <;> simp [hf])
  have hlen : (sel.map Prod.snd).length = sel.length := by simp
  have hperm := ha.perm (sel.map Prod.snd)
  have hlt : ∀ i ∈ argsort (sel.map Prod.snd), i < sel.length := by
    intro i hi; have := hperm.mem_iff.1 hi; rw [List.mem_range, hlen] at this; exact this
  refine ⟨(argsort (sel.map Prod.snd)).map fun i => (sel.getD i (0, [])).1, ?_, ?_, ?_⟩
  · unfold getSortedPoints
    rw [h1]
    simp only [Res.bind_ok]
    apply Res.mapM_eq_ok_of
    intro i hi
    rw [Res.idx_of_lt (hlt i hi), List.getD_eq_getElem (hn := hlt i hi)]; rfl
  · have e1 : (List.range sel.length).map (fun i => (sel.getD i (0, [])).1) = sel.map Prod.fst := by
      apply List.ext_getElem (by simp)
      intro i h3 h4
      simp only [List.getElem_map, List.getElem_range]
      rw [List.getD_eq_getElem (hn := by simpa using h4)]
    have e2 : sel.map Prod.fst = ids.filter fun i => filter (keyOf m i) := by
      rw [h2, List.map_map]; simp [Function.comp_def]
    rw [← e2, ← e1]
    rw [hlen] at hperm
    exact hperm.map _
  · have hs := ha.sorted (sel.map Prod.snd)
    rw [List.map_map]
    have e : ∀ i ∈ argsort (sel.map Prod.snd), (keyOf m ∘ fun i => (sel.getD i (0, [])).1) i = (sel.map Prod.snd).getD i [] := by
      intro i hi
      have hi2 := hlt i hi
      simp only [Function.comp]
      rw [List.getD_eq_getElem (hn := hi2), List.getD_eq_getElem (hn := by simpa using hi2), List.getElem_map]
      have hmem : sel[i] ∈ sel := List.getElem_mem hi2
      have hall : ∀ a ∈ sel, keyOf m a.1 = a.2 := by
        intro a hm
        rw [h2] at hm
        obtain ⟨q, _, rfl⟩ := List.mem_map.1 hm
        rfl
      exact hall _ hmem
    rw [List.map_congr_left e]
    exact hs

example : searchMarkedPoints exMesh (-3) (fun _ => true) = .ok [2] ∧ searchMarkedPoints exMesh 5 (fun _ => true) = .err msgNoMarkedPoint ∧
    searchFirstMarkedPoint exMesh (-4) (fun x => x.getD 0 0 == 4) = .ok 3 := by decide +kernel
example : getLimits 1000 0 exMesh = .ok ([0, 0], [4, 3]) ∧ getCellBoundingBox 1000 0 exMesh 0 = .ok ([0, 0], [4, 3]) := by decide +kernel

end Gemlab.Props.Mesh
