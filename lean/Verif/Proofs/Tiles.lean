import Verif.Props.JoinExact
import Verif.Proofs.Patch

/-! # Lists of cells at the places of a grid -/
namespace Gemlab.Structured
noncomputable section
open Classical
open Gemlab.Mesh Gemlab.Shapes Gemlab.Block Gemlab.Spec

variable {ndim : Nat} {target : GeoKind} {n : Nat → Nat} {tick : Nat → Nat → ℝ} {place : List ℝ → List ℝ} {marker : Nat → Nat → Nat → Int}
  {num : Nat → Nat → Nat → Nat} {M : Mesh ℝ} {S : Nat → Nat → Nat → Prop}

/-- The cells of the list are those at the places in `S` of a grid. -/
structure Tiles (ndim : Nat) (target : GeoKind) (S : Nat → Nat → Nat → Prop) (tick : Nat → Nat → ℝ) (place : List ℝ → List ℝ)
    (marker : Nat → Nat → Nat → Int) (num : Nat → Nat → Nat → Nat) (L : List (Int × GeoKind × List (List ℝ))) : Prop where
  cell : ∀ i j k, S i j k → L[num i j k]? = some (marker i j k, target, (List.range target.nnode).map fun m => place (tickPos ndim tick target i j k m))
  inj : ∀ i j k i' j' k', S i j k → S i' j' k' → num i j k = num i' j' k' → i = i' ∧ j = j' ∧ k = k'
  onto : ∀ c < L.length, ∃ i j k, S i j k ∧ num i j k = c

theorem cell_points (h : IsPatch ndim target S tick place marker num M) {i j k : Nat} (hs : S i j k) {c : Cell} (hc : M.cells[num i j k]? = some c) :
    c.points = (List.range target.nnode).map (ptOf M (num i j k)) := by
  obtain ⟨c', e1, -, -, -, e5⟩ := h.cell i j k hs
  rw [hc] at e1; cases e1
  apply List.ext_getElem
  · simp [e5]
  · intro m h1 h2
    simp [ptOf, hc, h1]

theorem tiles_of_patch (h : IsPatch ndim target S tick place marker num M) : Tiles ndim target S tick place marker num (geomCells M) where
  cell := fun i j k hs => by
    obtain ⟨c, e1, e2, e3, e4, e5⟩ := h.cell i j k hs
    unfold geomCells
    rw [List.getElem?_map, e1, Option.map_some, e3, e4, cell_points h hs e1, List.map_map]
    congr 3
    apply List.map_congr_left
    intro m hm
    exact (h.coords i j k m hs (List.mem_range.1 hm)).2
  inj := h.inj
  onto := fun c hc => h.onto c (by simpa [geomCells] using hc)

theorem valid_of_patch (h : IsPatch ndim target S tick place marker num M) : ValidMesh M := by
  have key : ∀ (c : Nat) cell, M.cells[c]? = some cell → ∃ i j k, S i j k ∧ num i j k = c ∧ cell.id = c ∧ cell.kind = target ∧ cell.points.length = target.nnode := by
    intro c cell hc
    obtain ⟨i, j, k, hs, rfl⟩ := h.onto c (List.getElem?_eq_some_iff.1 hc).1
    obtain ⟨c', e1, e2, e3, e4, e5⟩ := h.cell i j k hs
    rw [hc] at e1; cases e1
    exact ⟨i, j, k, hs, rfl, e2, e4, e5⟩
  refine ⟨?_, fun i p hp => (h.points i p hp).1, ?_, ?_, goodCells h⟩
  · intro p hp
    obtain ⟨l, hl, rfl⟩ := List.mem_iff_getElem.1 hp
    rw [h.space]
    exact (h.points l _ (List.getElem?_eq_getElem hl)).2.2.1
  · intro i c hc
    obtain ⟨_, _, _, _, _, e, _⟩ := key i c hc
    exact e
  · intro c hc
    obtain ⟨l, hl, rfl⟩ := List.mem_iff_getElem.1 hc
    obtain ⟨_, _, _, _, _, _, e1, e2⟩ := key l _ (List.getElem?_eq_getElem hl)
    rw [e1, e2]

/-- Different positions are at different places. -/
def InjOn (ndim : Nat) (target : GeoKind) (S : Nat → Nat → Nat → Prop) (tick : Nat → Nat → ℝ) (place : List ℝ → List ℝ) : Prop :=
  ∀ i j k m i' j' k' m', S i j k → S i' j' k' → m < target.nnode → m' < target.nnode →
    place (tickPos ndim tick target i j k m) = place (tickPos ndim tick target i' j' k' m') → tickPos ndim tick target i j k m = tickPos ndim tick target i' j' k' m'

theorem proper_of_patch (h : IsPatch ndim target S tick place marker num M) (hd : ndim = 2 ∨ ndim = 3) (hinj : InjOn ndim target S tick place)
    (he : M.markedEdges = []) (hf : M.markedFaces = []) : Proper M where
  valid := valid_of_patch h
  dims := by rw [h.space]; exact hd
  distinct := by
    intro p hp q hq hpq
    obtain ⟨_, _, _, i, j, k, m, hs, hm, rfl⟩ := h.points p _ (List.getElem?_eq_getElem hp)
    obtain ⟨_, _, _, i', j', k', m', hs', hm', rfl⟩ := h.points q _ (List.getElem?_eq_getElem hq)
    rw [(h.coords i j k m hs hm).2, (h.coords i' j' k' m' hs' hm').2] at hpq
    exact (h.shared i j k m i' j' k' m' hs hs' hm hm').2 (hinj i j k m i' j' k' m' hs hs' hm hm' hpq)
  used := by
    intro p hp
    obtain ⟨_, _, _, i, j, k, m, hs, hm, rfl⟩ := h.points p _ (List.getElem?_eq_getElem hp)
    obtain ⟨c, h1, _, h3⟩ := mem_points h hs hm
    exact ⟨c, h1, h3⟩
  edges := by rw [he]; simp
  edgesOnce := by rw [he]; simp
  faces := by rw [hf]; simp
  facesOnce := by rw [hf]; simp

/-- A mesh without duplicated and unused points, whose cells are at the places of a grid. -/
theorem patch_of_tiles (hM : Proper M) (hd : M.ndim = ndim) (hT : Tiles ndim target S tick place marker num (geomCells M)) (hinj : InjOn ndim target S tick place)
    (hz : ∀ pt ∈ M.points, pt.marker = 0) : IsPatch ndim target S tick place marker num M := by
  have key : ∀ i j k, S i j k → ∃ c, M.cells[num i j k]? = some c ∧ c.marker = marker i j k ∧ c.kind = target ∧ c.points.length = target.nnode ∧
      c.points.map (coordsOf M) = (List.range target.nnode).map fun m => place (tickPos ndim tick target i j k m) := by
    intro i j k hs
    have := hT.cell i j k hs
    unfold geomCells at this
    rw [List.getElem?_map] at this
    cases hc : M.cells[num i j k]? with
    | none => rw [hc] at this; simp at this
    | some c =>
      rw [hc] at this
      simp only [Option.map_some, Option.some.injEq, Prod.mk.injEq] at this
      obtain ⟨h1, h2, h3⟩ := this
      exact ⟨c, rfl, h1, h2, by simpa using congrArg List.length h3, h3⟩
  have hpt : ∀ i j k m, S i j k → m < target.nnode → ptOf M (num i j k) m < M.points.length ∧
      coordsOf M (ptOf M (num i j k) m) = place (tickPos ndim tick target i j k m) := by
    intro i j k m hs hm
    obtain ⟨c, h1, _, _, h4, h5⟩ := key i j k hs
    have e : ptOf M (num i j k) m = c.points[m]'(by omega) := by unfold ptOf; rw [h1]; simp [h4, hm]
    rw [e]
    refine ⟨hM.valid.inRange c (List.mem_of_getElem? h1) _ (List.getElem_mem _), ?_⟩
    have := congrArg (fun l => l[m]?) h5
    simp only [List.getElem?_map, List.getElem?_eq_getElem (show m < c.points.length by omega), List.getElem?_range hm] at this
    simpa using this
  refine ⟨hd, ?_, hT.inj, ?_, hpt, ?_, ?_⟩
  · intro i j k hs
    obtain ⟨c, h1, h2, h3, h4, _⟩ := key i j k hs
    exact ⟨c, h1, hM.valid.cellIds _ _ h1, h2, h3, h4⟩
  · intro c hc
    exact hT.onto c (by simpa [geomCells] using hc)
  · intro i j k m i' j' k' m' hs hs' hm hm'
    obtain ⟨a1, a2⟩ := hpt i j k m hs hm
    obtain ⟨b1, b2⟩ := hpt i' j' k' m' hs' hm'
    constructor
    · intro he
      apply hinj i j k m i' j' k' m' hs hs' hm hm'
      rw [← a2, ← b2, he]
    · intro he
      apply hM.distinct _ a1 _ b1
      rw [a2, b2, he]
  · intro p pt hp
    have hlt := (List.getElem?_eq_some_iff.1 hp).1
    refine ⟨hM.valid.pointIds p pt hp, hz pt (List.mem_of_getElem? hp), hd ▸ hM.valid.coords pt (List.mem_of_getElem? hp), ?_⟩
    obtain ⟨c, hc, hpc⟩ := hM.used p hlt
    obtain ⟨l, hl, rfl⟩ := List.mem_iff_getElem.1 hc
    obtain ⟨i, j, k, hs, e⟩ := hT.onto l (by simpa [geomCells] using hl)
    obtain ⟨c', h1, _, _, h4, _⟩ := key i j k hs
    rw [e, List.getElem?_eq_getElem hl, Option.some.injEq] at h1
    obtain ⟨m, hm, rfl⟩ := List.mem_iff_getElem.1 hpc
    refine ⟨i, j, k, m, hs, by rw [← h4, ← h1]; exact hm, ?_⟩
    rw [e]
    unfold ptOf
    rw [List.getElem?_eq_getElem hl]
    simp [hm]

/-- Two lists, one after the other. -/
theorem tiles_append {S' : Nat → Nat → Nat → Prop} {num' : Nat → Nat → Nat → Nat} {L L' : List (Int × GeoKind × List (List ℝ))}
    (h : Tiles ndim target S tick place marker num L) (h' : Tiles ndim target S' tick place marker num' L') (hdis : ∀ i j k, S i j k → ¬ S' i j k) :
    Tiles ndim target (fun i j k => S i j k ∨ S' i j k) tick place marker (fun i j k => if S i j k then num i j k else L.length + num' i j k) (L ++ L') := by
  have hlt : ∀ i j k, S i j k → num i j k < L.length := fun i j k hs => (List.getElem?_eq_some_iff.1 (h.cell i j k hs)).1
  refine ⟨?_, ?_, ?_⟩
  · intro i j k hs
    by_cases h1 : S i j k
    · rw [if_pos h1, List.getElem?_append_left (hlt i j k h1)]
      exact h.cell i j k h1
    · rw [if_neg h1, List.getElem?_append_right (by omega), Nat.add_sub_cancel_left]
      exact h'.cell i j k (hs.resolve_left h1)
  · intro i j k i' j' k' hs hs' he
    by_cases h1 : S i j k <;> by_cases h2 : S i' j' k'
    · rw [if_pos h1, if_pos h2] at he
      exact h.inj _ _ _ _ _ _ h1 h2 he
    · rw [if_pos h1, if_neg h2] at he
      have := hlt i j k h1; omega
    · rw [if_neg h1, if_pos h2] at he
      have := hlt i' j' k' h2; omega
    · rw [if_neg h1, if_neg h2] at he
      exact h'.inj _ _ _ _ _ _ (hs.resolve_left h1) (hs'.resolve_left h2) (by omega)
  · intro c hc
    rcases Nat.lt_or_ge c L.length with h1 | h1
    · obtain ⟨i, j, k, hs, e⟩ := h.onto c h1
      exact ⟨i, j, k, .inl hs, by rw [if_pos hs]; exact e⟩
    · rw [List.length_append] at hc
      obtain ⟨i, j, k, hs, e⟩ := h'.onto (c - L.length) (by omega)
      exact ⟨i, j, k, .inr hs, by rw [if_neg (fun h1 => hdis i j k h1 hs), e]; omega⟩

/-- The same list with other names of the places. -/
theorem tiles_congr {S' : Nat → Nat → Nat → Prop} {num' : Nat → Nat → Nat → Nat} {tick' : Nat → Nat → ℝ} {place' : List ℝ → List ℝ} {marker' : Nat → Nat → Nat → Int}
    {L : List (Int × GeoKind × List (List ℝ))} (h : Tiles ndim target S tick place marker num L) (hS : ∀ i j k, S i j k ↔ S' i j k)
    (hn : ∀ i j k, S i j k → num i j k = num' i j k) (hm : ∀ i j k, S i j k → marker i j k = marker' i j k)
    (hp : ∀ i j k m, S i j k → m < target.nnode → place (tickPos ndim tick target i j k m) = place' (tickPos ndim tick' target i j k m)) :
    Tiles ndim target S' tick' place' marker' num' L := by
  refine ⟨?_, ?_, ?_⟩
  · intro i j k hs
    have hs := (hS i j k).2 hs
    rw [← hn i j k hs, ← hm i j k hs, h.cell i j k hs]
    congr 3
    apply List.map_congr_left
    intro m hmm
    exact hp i j k m hs (List.mem_range.1 hmm)
  · intro i j k i' j' k' hs hs' he
    have hs := (hS i j k).2 hs
    have hs' := (hS i' j' k').2 hs'
    rw [← hn i j k hs, ← hn i' j' k' hs'] at he
    exact h.inj _ _ _ _ _ _ hs hs' he
  · intro c hc
    obtain ⟨i, j, k, hs, e⟩ := h.onto c hc
    exact ⟨i, j, k, (hS i j k).1 hs, by rw [← hn i j k hs]; exact e⟩

/-- The same list, as a part of a larger grid, starting at `(i0, j0, 0)`. -/
theorem tiles_shift {tick' : Nat → Nat → ℝ} {place' : List ℝ → List ℝ} {marker' : Nat → Nat → Nat → Int} {L : List (Int × GeoKind × List (List ℝ))}
    (h : Tiles ndim target S tick place marker num L) (i0 j0 : Nat) (hm : ∀ i j k, S i j k → marker i j k = marker' (i0 + i) (j0 + j) k)
    (hp : ∀ i j k m, S i j k → m < target.nnode → place (tickPos ndim tick target i j k m) = place' (tickPos ndim tick' target (i0 + i) (j0 + j) k m)) :
    Tiles ndim target (fun i j k => i0 ≤ i ∧ j0 ≤ j ∧ S (i - i0) (j - j0) k) tick' place' marker' (fun i j k => num (i - i0) (j - j0) k) L := by
  refine ⟨?_, ?_, ?_⟩
  · rintro i j k ⟨h1, h2, hs⟩
    rw [h.cell _ _ _ hs]
    have e1 : i0 + (i - i0) = i := by omega
    have e2 : j0 + (j - j0) = j := by omega
    rw [hm _ _ _ hs, e1, e2]
    congr 3
    apply List.map_congr_left
    intro m hmm
    rw [hp _ _ _ m hs (List.mem_range.1 hmm), e1, e2]
  · rintro i j k i' j' k' ⟨h1, h2, hs⟩ ⟨h1', h2', hs'⟩ he
    have := h.inj _ _ _ _ _ _ hs hs' he
    omega
  · intro c hc
    obtain ⟨i, j, k, hs, e⟩ := h.onto c hc
    exact ⟨i0 + i, j0 + j, k, ⟨by omega, by omega, by simpa using hs⟩, by simpa using e⟩

end
end Gemlab.Structured
