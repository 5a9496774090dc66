import Verif.Spec.Unstructured
import Verif.Props.Mesh
import Verif.Props.Features2

/-! # Proofs about the unstructured generators: filling arrays, output arrays, constraints, renumbering -/
namespace Gemlab.Unstructured
open Gemlab.Mesh Gemlab.Shapes Gemlab.Props.Mesh

variable {T : Type}

/-! ## Arrays filled from the left -/

/-- The first `k` places of `n` are written. -/
def filled {α : Type} (f : Nat → α) (n k : Nat) : List (Option α) := (List.range n).map fun j => if j < k then some (f j) else none

theorem filled_length {α : Type} (f : Nat → α) (n k : Nat) : (filled f n k).length = n := by simp [filled]

theorem filled_zero {α : Type} (f : Nat → α) (n : Nat) : filled f n 0 = List.replicate n none := by
  unfold filled
  apply List.ext_getElem <;> simp

theorem filled_all {α : Type} (f : Nat → α) (n : Nat) : filled f n n = (List.range n).map fun j => some (f j) := by
  unfold filled
  apply List.map_congr_left
  intro j hj
  rw [if_pos (List.mem_range.1 hj)]

theorem filled_set {α : Type} (f : Nat → α) (n k : Nat) (v : α) (hv : v = f k) : (filled f n k).set k (some v) = filled f n (k + 1) := by
  subst hv
  unfold filled
  apply List.ext_getElem
  · simp
  · intro i h1 h2
    simp only [List.length_set, List.length_map, List.length_range] at h1
    rw [List.getElem_set]
    simp only [List.getElem_map, List.getElem_range]
    by_cases h : k = i
    · rw [if_pos h, if_pos (by omega), h]
    · rw [if_neg h]
      by_cases h3 : i < k
      · rw [if_pos h3, if_pos (by omega)]
      · rw [if_neg h3, if_neg (by omega)]

theorem map_range_getD {α β : Type} (l : List α) (d : α) (g : α → β) : (List.range l.length).map (fun i => g (l.getD i d)) = l.map g := by
  apply List.ext_getElem
  · simp
  · intro i h1 h2
    simp only [List.length_map] at h2
    simp only [List.getElem_map, List.getElem_range]
    rw [List.getD_eq_getElem _ d h2]

/-- A loop that writes every place of a list of values of its own kind. -/
theorem foldlM_write {α : Type} (f : List α → Nat → Res (List α)) (old : Nat → α) (new : Nat → α) (n : Nat)
    (h : ∀ i < n, ∀ l : List α, l.length = n → l[i]? = some (old i) → f l i = .ok (l.set i (new i))) :
    (List.range n).foldlM f ((List.range n).map old) = .ok ((List.range n).map new) := by
  obtain ⟨s, hs, hP⟩ := Res.foldlM_range f n ((List.range n).map old)
    (fun k l => l = (List.range n).map fun j => if j < k then new j else old j) (by simp) (by
      intro i l hi hl
      have hlen : l.length = n := by rw [hl]; simp
      have hio : l[i]? = some (old i) := by rw [hl]; simp [hi]
      refine ⟨_, h i hi l hlen hio, ?_⟩
      rw [hl]
      apply List.ext_getElem
      · simp
      · intro j h1 h2
        rw [List.getElem_set]
        simp only [List.getElem_map, List.getElem_range]
        by_cases hj : i = j
        · rw [if_pos hj, if_pos (by omega), hj]
        · rw [if_neg hj]
          by_cases h3 : j < i
          · rw [if_pos h3, if_pos (by omega)]
          · rw [if_neg h3, if_neg (by omega)])
  rw [hs, hP]
  congr 1
  apply List.map_congr_left
  intro j hj
  rw [if_pos (List.mem_range.1 hj)]

/-! ## The mesh of the output arrays -/

theorem setIdx_of_lt {α : Type} {l : List α} {i : Nat} (v : α) (h : i < l.length) : Res.setIdx l i v = .ok (l.set i v) := by
  unfold Res.setIdx
  rw [if_pos h]

theorem nodes_write {n : Nat} (g : Nat → Nat) (m : Nat) (hm : m = n) :
    (List.range m).foldlM (fun ps m => Res.setIdx ps m (g m)) (List.replicate n 0) = Res.ok ((List.range n).map g) := by
  subst hm
  have e : List.replicate m 0 = (List.range m).map fun _ => 0 := by simp
  rw [e]
  apply foldlM_write
  intro i hi l hl _
  exact setIdx_of_lt _ (by omega)

theorem fromTrigen_ok (lib : Trigen T) (t : T) (o2 : Bool) (h : lib.GoodOutput t o2) :
    fromTrigen lib t = .ok (triMesh lib t (if o2 then .tri6 else .tri3)) := by
  have hk : (if lib.outCellNpoint t = 6 then GeoKind.tri6 else GeoKind.tri3) = (if o2 then .tri6 else .tri3) := by
    rw [h.nnode]; cases o2 <;> simp
  have hnn : lib.outCellNpoint t = (if o2 then GeoKind.tri6 else GeoKind.tri3).nnode := by rw [h.nnode]; cases o2 <;> decide
  have hkd : (if o2 then GeoKind.tri6 else GeoKind.tri3).ndim = 2 := by cases o2 <;> decide
  unfold fromTrigen
  simp only [hk]
  generalize (if o2 = true then GeoKind.tri6 else GeoKind.tri3) = kind at hnn hkd ⊢
  have hz : newZeroHomogeneous (K := ℝ) 2 (lib.outNpoint t) (lib.outNcell t) kind = .ok {
      ndim := 2
      points := (List.range (lib.outNpoint t)).map fun i => { id := i, marker := 0, coords := List.replicate 2 0 }
      cells := (List.range (lib.outNcell t)).map fun i => { id := i, marker := 1, kind := kind, points := List.replicate kind.nnode 0 }
      markedEdges := []
      markedFaces := [] } := by
    unfold newZeroHomogeneous
    rw [if_neg (by simp), if_neg (by have := h.npoint; omega), if_neg (by have := h.ncell; omega), if_neg (by omega)]
  rw [hz]
  simp only [Mesh.unwrapRes, Res.bind_ok]
  have hp : (List.range (lib.outNpoint t)).foldlM (trigenPoint lib t)
      ((List.range (lib.outNpoint t)).map fun i => ({ id := i, marker := 0, coords := List.replicate 2 0 } : Point ℝ)) =
      .ok ((List.range (lib.outNpoint t)).map fun i => ⟨i, lib.outPointMarker t i, [lib.outPoint t i 0, lib.outPoint t i 1]⟩) := by
    apply foldlM_write
    intro i hi l hl ho
    unfold trigenPoint
    rw [Res.idx_eq_ok.2 ho, Res.bind_ok]
    simp only [List.replicate, Res.setIdx]
    simp [hl, hi]
  have hc : (List.range (lib.outNcell t)).foldlM (trigenCell lib t)
      ((List.range (lib.outNcell t)).map fun i => ({ id := i, marker := 1, kind := kind, points := List.replicate kind.nnode 0 } : Cell)) =
      .ok ((List.range (lib.outNcell t)).map fun i => ⟨i, lib.outCellMarker t i, kind, (List.range kind.nnode).map (lib.outCellPoint t i)⟩) := by
    apply foldlM_write
    intro i hi l hl ho
    unfold trigenCell
    rw [Res.idx_eq_ok.2 ho, Res.bind_ok]
    dsimp only
    rw [nodes_write (lib.outCellPoint t i) _ hnn, Res.bind_ok, setIdx_of_lt _ (by omega)]
  rw [hp, Res.bind_ok, hc, Res.bind_ok]
  unfold triMesh
  simp only [Res.pure_eq, List.nil_append, Res.ok.injEq, Mesh.mk.injEq, true_and, and_true]
  rw [← List.filterMap_eq_filter, List.map_filterMap]
  apply List.filterMap_congr
  intro i _
  by_cases hm : lib.outSegmentMarker t i = 0 <;> simp [hm, Option.guard]

/-- Without cells (or points) in the output the conversion panics. -/
theorem fromTrigen_panic (lib : Trigen T) (t : T) (h : lib.outNpoint t < 2 ∨ lib.outNcell t < 1) : fromTrigen lib t = .panic := by
  unfold fromTrigen
  have : ∃ e, newZeroHomogeneous (K := ℝ) 2 (lib.outNpoint t) (lib.outNcell t)
      (if lib.outCellNpoint t = 6 then GeoKind.tri6 else GeoKind.tri3) = .err e := by
    unfold newZeroHomogeneous
    rw [if_neg (by simp)]
    by_cases h2 : lib.outNpoint t < 2
    · exact ⟨_, by rw [if_pos h2]⟩
    · exact ⟨_, by rw [if_neg h2, if_pos (by omega)]⟩
  obtain ⟨e, he⟩ := this
  simp only [he, Mesh.unwrapRes]
  rfl

theorem triMesh_valid (lib : Trigen T) (t : T) (o2 : Bool) (h : lib.GoodOutput t o2) : ValidMesh (triMesh lib t (if o2 then .tri6 else .tri3)) := by
  have hnn : lib.outCellNpoint t = (if o2 then GeoKind.tri6 else GeoKind.tri3).nnode := by rw [h.nnode]; cases o2 <;> decide
  generalize (if o2 = true then GeoKind.tri6 else GeoKind.tri3) = kind at hnn ⊢
  unfold triMesh
  refine ⟨?_, ?_, ?_, ?_, ?_⟩
  · intro p hp
    simp only [List.mem_map] at hp
    obtain ⟨i, _, rfl⟩ := hp
    rfl
  · intro i p hp
    simp only [List.getElem?_map, Option.map_eq_some_iff] at hp
    obtain ⟨j, hj, rfl⟩ := hp
    have := List.getElem?_eq_some_iff.1 hj
    simp at this
    exact this.2.symm
  · intro i p hp
    simp only [List.getElem?_map, Option.map_eq_some_iff] at hp
    obtain ⟨j, hj, rfl⟩ := hp
    have := List.getElem?_eq_some_iff.1 hj
    simp at this
    exact this.2.symm
  · intro c hc
    simp only [List.mem_map] at hc
    obtain ⟨i, _, rfl⟩ := hc
    simp
  · intro c hc p hp
    simp only [List.mem_map, List.mem_range] at hc
    obtain ⟨i, hi, rfl⟩ := hc
    simp only [List.mem_map, List.mem_range] at hp
    obtain ⟨m, hm, rfl⟩ := hp
    simp only [List.length_map, List.length_range]
    exact h.range i hi m (by omega)

/-! ## Renumbering -/

theorem finish_ends (renumber : Bool) (m : Mesh ℝ) (h : ValidMesh m) (hn : 0 < m.points.length) : Ends renumber m (finish renumber m) := by
  unfold Ends finish
  cases renumber with
  | false => simp
  | true =>
    have hc : GoodCoords m := h.coords
    have hg : GoodCells m := h.inRange
    rw [if_pos rfl, if_pos rfl]
    constructor
    · intro m' hm
      cases hr : renumberMesh m false with
      | mk m1 r =>
        rw [hr] at hm
        cases r with
        | err e => simp at hm
        | panic => simp at hm
        | ok u =>
          simp only [Res.ok.injEq] at hm
          subst hm
          unfold renumberMesh at hr
          simp only at hr
          split at hr
          · rename_i map hmap
            rcases renumberPoints_spec m hc hg map with ⟨hp, m2, e2, R⟩ | ⟨_, m2, e, e2⟩
            · rw [e2] at hr
              simp only [Prod.mk.injEq] at hr
              obtain ⟨rfl, _⟩ := hr
              refine ⟨R.ndim, ⟨R.markedEdges, R.markedFaces⟩, map, hp, R.npoint, ?_, R.cells⟩
              intro i p j hi hj
              obtain ⟨new, e3, e4⟩ := R.points i p hi
              rw [hj] at e3
              simp only [Option.some.injEq] at e3
              subst e3
              exact e4
            · rw [e2] at hr; simp at hr
          · simp at hr
          · simp at hr
    · intro hconn
      rcases C06_renumber_mesh m hc hg hn hconn false with ⟨e, he⟩ | ⟨map, m', _, he, _⟩
      · rw [he]; simp
      · rw [he]; simp

/-! ## Constraints -/

theorem moveOnto_spec (r : ℝ) (hr : 0 ≤ r) (p : Point ℝ) (hl : 2 ≤ p.coords.length) (hd : axisDist p ≠ 0) :
    ∃ p', moveOnto r p = .ok p' ∧ OnCircle r p p' := by
  obtain ⟨x, y, rest, hc⟩ : ∃ x y rest, p.coords = x :: y :: rest := by
    match h : p.coords, hl with
    | x :: y :: rest, _ => exact ⟨x, y, rest, rfl⟩
  have hax : axisDist p = √(x ^ 2 + y ^ 2) := by unfold axisDist; rw [hc]; simp
  unfold moveOnto
  simp only [hc, Res.idx, List.getElem?_cons_zero, List.getElem?_cons_succ, Res.bind_ok, sub_zero]
  have hdd : √(x * x + y * y) = axisDist p := by rw [hax]; congr 1; ring
  rw [hdd]
  have hdp : 0 < axisDist p := lt_of_le_of_ne (Real.sqrt_nonneg _) (Ne.symm hd)
  have hsq : axisDist p ^ 2 = x ^ 2 + y ^ 2 := by rw [hax]; exact Real.sq_sqrt (by positivity)
  generalize hdef : axisDist p = d at *
  by_cases hg : |r - d| > tolGap
  · rw [if_pos hg]
    refine ⟨{ p with coords := (x + (r - d) * x / d) :: (y + (r - d) * y / d) :: rest }, ?_, rfl, rfl, ?_, ?_, Or.inr ⟨?_, ?_, ?_⟩⟩
    · simp [Res.setIdx]
    · rw [hc]; rfl
    · intro k hk
      rw [hc]
      match k, hk with
      | k + 2, _ => rfl
    · unfold axisDist
      simp only [List.getD_cons_zero, List.getD_cons_succ]
      have e : (x + (r - d) * x / d) ^ 2 + (y + (r - d) * y / d) ^ 2 = r ^ 2 := by
        have e1 : x + (r - d) * x / d = r * x / d := by field_simp; ring
        have e2 : y + (r - d) * y / d = r * y / d := by field_simp; ring
        rw [e1, e2]
        have : (r * x / d) ^ 2 + (r * y / d) ^ 2 = r ^ 2 * (x ^ 2 + y ^ 2) / d ^ 2 := by ring
        rw [this, ← hsq]
        field_simp
      rw [e]
      exact Real.sqrt_sq hr
    · simp only [List.getD_cons_zero, hc, hdef]; field_simp; ring
    · simp only [List.getD_cons_succ, List.getD_cons_zero, hc, hdef]; field_simp; ring
  · rw [if_neg hg]
    refine ⟨p, rfl, rfl, rfl, rfl, fun _ _ => rfl, Or.inl ⟨rfl, ?_⟩⟩
    rw [not_lt] at hg
    rw [hdef]
    exact hg

theorem constrainPoint_spec (rmin rmax : ℝ) (h1 : 0 ≤ rmin) (h2 : 0 ≤ rmax) (p : Point ℝ) (hl : 2 ≤ p.coords.length)
    (hd : p.marker = -5 ∨ p.marker = -6 → axisDist p ≠ 0) :
    ∃ p', constrainPoint rmin rmax p = .ok p' ∧ (p.marker = -5 → OnCircle rmin p p') ∧ (p.marker = -6 → OnCircle rmax p p') ∧
      (p.marker ≠ -5 → p.marker ≠ -6 → p' = p) := by
  unfold constrainPoint markerInner markerOuter
  by_cases h5 : p.marker = -5
  · obtain ⟨p', e, hO⟩ := moveOnto_spec rmin h1 p hl (hd (Or.inl h5))
    rw [if_pos h5, e, Res.bind_ok, if_neg (by rw [hO.2.1, h5]; decide)]
    exact ⟨p', rfl, fun _ => hO, fun h => by rw [h5] at h; simp at h, fun h => absurd h5 h⟩
  · rw [if_neg h5, Res.pure_eq, Res.bind_ok]
    by_cases h6 : p.marker = -6
    · obtain ⟨p', e, hO⟩ := moveOnto_spec rmax h2 p hl (hd (Or.inr h6))
      rw [if_pos h6, e]
      exact ⟨p', rfl, fun h => absurd h h5, fun _ => hO, fun _ h => absurd h6 h⟩
    · rw [if_neg h6]
      exact ⟨p, rfl, fun h => absurd h h5, fun h => absurd h h6, fun _ _ => rfl⟩

theorem applyConstraints_spec (rmin rmax : ℝ) (h1 : 0 ≤ rmin) (h2 : 0 ≤ rmax) (m : Mesh ℝ) (hl : ∀ p ∈ m.points, 2 ≤ p.coords.length)
    (ho : OffAxis m) : ∃ m', applyConstraints m rmin rmax = .ok m' ∧ IsConstrained rmin rmax m m' := by
  have key : ∀ ps : List (Point ℝ), (∀ p ∈ ps, 2 ≤ p.coords.length) → (∀ p ∈ ps, p.marker = -5 ∨ p.marker = -6 → axisDist p ≠ 0) →
      ∃ qs, ps.mapM (constrainPoint rmin rmax) = .ok qs ∧ List.Forall₂ (fun p p' => (p.marker = -5 → OnCircle rmin p p') ∧
        (p.marker = -6 → OnCircle rmax p p') ∧ (p.marker ≠ -5 → p.marker ≠ -6 → p' = p)) ps qs := by
    intro ps
    induction ps with
    | nil => intro _ _; exact ⟨[], Res.mapM_nil' _, List.Forall₂.nil⟩
    | cons p ps ih =>
      intro a b
      obtain ⟨p', e, hp⟩ := constrainPoint_spec rmin rmax h1 h2 p (a p (by simp)) (b p (by simp))
      obtain ⟨qs, e2, hq⟩ := ih (fun q hq => a q (by simp [hq])) (fun q hq => b q (by simp [hq]))
      refine ⟨p' :: qs, ?_, List.Forall₂.cons hp hq⟩
      rw [List.mapM_cons, e, Res.bind_ok, e2]; rfl
  obtain ⟨qs, e, hq⟩ := key m.points hl ho
  refine ⟨{ m with points := qs }, ?_, rfl, hq⟩
  unfold applyConstraints
  rw [e]; rfl

end Gemlab.Unstructured
