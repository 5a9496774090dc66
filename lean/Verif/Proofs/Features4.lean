import Verif.Props.Features
import Verif.Props.GridSearch

/-! # Lemmas about `Features::new` -/
namespace Gemlab.Mesh
noncomputable section
open Gemlab.Shapes Gemlab.Props.Mesh Gemlab.Props.Features

/-- `GridSearch::new(min, max, None, None, None)` succeeds exactly for 2D or 3D boxes that are not flat. -/
theorem gridNew_none_iff (mn mx : List ℝ) : (∃ g, GridSearch.new mn mx none none none = .ok g) ↔
    (mn.length = 2 ∨ mn.length = 3) ∧ mx.length = mn.length ∧ ∀ i < mn.length, 0 < boxLen mn mx i := by
  rw [(C15_new_ok_iff mn mx none none none).2]
  simp only [Option.getD_none]
  constructor
  · rintro ⟨h1, h2, _, h3, _⟩; exact ⟨h1, h2, h3⟩
  · rintro ⟨h1, h2, h3⟩
    refine ⟨h1, h2, by omega, h3, by norm_num, by norm_num, ?_⟩
    obtain ⟨nd, hnd⟩ := (C15_ok_iff 1 100 mn mx).1 ⟨by omega, by omega, h2.symm, by omega, h3⟩
    refine ⟨nd, hnd, ?_⟩
    obtain ⟨_, ⟨L, hL⟩, h⟩ := C15_divisions hnd
    refine ⟨L, hL.1, ?_⟩
    rw [(h L hL).1]
    have := h3 L hL.1
    rw [lt_div_iff₀ (by norm_num)]
    push_cast
    linarith

/-- The cells whose points are all features: rods (and cables) and shells. -/
def IsRodOrShell (m : Mesh ℝ) (cell : Cell) : Prop := cell.kind.ndim = 1 ∨ (cell.kind.ndim = 2 ∧ m.ndim = 3)

theorem addRodsAndShells_spec {big low : ℝ} {m : Mesh ℝ} (h : ValidMesh m) {pts : List Nat} {s : List Nat × (List ℝ × List ℝ)}
    (H : PtsInv big low m pts s) : ∃ s' pts', addRodsAndShells m s = .ok s' ∧ PtsInv big low m pts' s' ∧
      ∀ q, q ∈ pts' ↔ q ∈ pts ∨ ∃ cell ∈ m.cells, IsRodOrShell m cell ∧ q ∈ cell.points := by
  unfold addRodsAndShells
  obtain ⟨s', h1, pts', h2, h3⟩ := Res.foldlM_list (σ := List Nat × (List ℝ × List ℝ)) (fun s (cell : Cell) =>
    if cell.kind.ndim = 1 ∨ (cell.kind.ndim = 2 ∧ m.ndim = 3) then cell.points.foldlM (addPoint m) s else pure s) m.cells s
    (fun pre s => ∃ pts', PtsInv big low m pts' s ∧
      ∀ q, q ∈ pts' ↔ q ∈ pts ∨ ∃ cell ∈ pre, IsRodOrShell m cell ∧ q ∈ cell.points)
    ⟨pts, H, by simp⟩ (by
      rintro pre cell s hcell _ ⟨pts', H', hm⟩
      split
      · rename_i hd
        obtain ⟨s', e1, e2⟩ := H'.steps h.coords cell.points (fun q hq => h.inRange cell hcell q hq)
        refine ⟨s', e1, _, e2, ?_⟩
        intro q
        rw [List.mem_append, hm]
        constructor
        · rintro ((h' | ⟨c, hc, hr⟩) | h')
          · exact Or.inl h'
          · exact Or.inr ⟨c, List.mem_append_left _ hc, hr⟩
          · exact Or.inr ⟨cell, by simp, hd, h'⟩
        · rintro (h' | ⟨c, hc, hr, hq⟩)
          · exact Or.inl (Or.inl h')
          · rcases List.mem_append.1 hc with hc | hc
            · exact Or.inl (Or.inr ⟨c, hc, hr, hq⟩)
            · rw [List.mem_singleton] at hc; subst hc; exact Or.inr hq
      · rename_i hd
        refine ⟨s, rfl, pts', H', ?_⟩
        intro q
        rw [hm]
        constructor
        · rintro (h' | ⟨c, hc, hr⟩)
          · exact Or.inl h'
          · exact Or.inr ⟨c, List.mem_append_left _ hc, hr⟩
        · rintro (h' | ⟨c, hc, hr, hq⟩)
          · exact Or.inl h'
          · rcases List.mem_append.1 hc with hc | hc
            · exact Or.inr ⟨c, hc, hr, hq⟩
            · rw [List.mem_singleton] at hc; subst hc; exact absurd hr hd)
  exact ⟨s', pts', h1, h2, h3⟩

theorem mem_addTo {A B : Type} [DecidableEq A] [DecidableEq B] (h : HMap A (List B)) (p q : A) (k b : B) :
    b ∈ ((h.addTo p k).get q).getD [] ↔ b ∈ (h.get q).getD [] ∨ (q = p ∧ b = k) := by
  unfold HMap.addTo
  rw [HMap.get_insert]
  by_cases hq : q = p
  · subst hq
    rw [if_pos rfl, Option.getD_some, HSet.mem_insert]
    simp
  · rw [if_neg hq]; simp [hq]

/-- The maps from points to edges and faces. -/
theorem mem_pointToFeatures {Key : Type} [DecidableEq Key] (entries : List (Key × Feature)) (p : Nat) (k : Key) :
    k ∈ ((pointToFeatures entries).get p).getD [] ↔ ∃ f, (k, f) ∈ entries ∧ p ∈ f.points := by
  unfold pointToFeatures
  have inner : ∀ (key : Key) (pts : List Nat) (h : HMap Nat (List Key)),
      k ∈ ((pts.foldl (fun h p => h.addTo p key) h).get p).getD [] ↔ k ∈ (h.get p).getD [] ∨ (p ∈ pts ∧ k = key) := by
    intro key pts
    induction pts with
    | nil => simp
    | cons a pts ih =>
      intro h
      rw [List.foldl_cons, ih, mem_addTo, List.mem_cons]
      tauto
  have outer : ∀ (es : List (Key × Feature)) (h : HMap Nat (List Key)),
      k ∈ ((es.foldl (fun h e => e.2.points.foldl (fun h p => h.addTo p e.1) h) h).get p).getD [] ↔
        k ∈ (h.get p).getD [] ∨ ∃ f, (k, f) ∈ es ∧ p ∈ f.points := by
    intro es
    induction es with
    | nil => simp
    | cons e es ih =>
      intro h
      rw [List.foldl_cons, ih, inner]
      constructor
      · rintro ((h' | ⟨h1, rfl⟩) | ⟨f, h1, h2⟩)
        · exact Or.inl h'
        · exact Or.inr ⟨e.2, List.mem_cons_self .., h1⟩
        · exact Or.inr ⟨f, List.mem_cons_of_mem _ h1, h2⟩
      · rintro (h' | ⟨f, h1, h2⟩)
        · exact Or.inl (Or.inl h')
        · rcases List.mem_cons.1 h1 with rfl | h1
          · exact Or.inl (Or.inr ⟨h2, rfl⟩)
          · exact Or.inr ⟨f, h1, h2⟩
  rw [outer]
  simp

theorem insertPoints_spec {m : Mesh ℝ} (hc : ∀ p ∈ m.points, p.coords.length = m.ndim) {mn mx : List ℝ} {g : GridSearch}
    (hg : GridSearch.new mn mx none none none = .ok g) (hn : mn.length = m.ndim) (hx : mx.length = m.ndim) (ids : List Nat)
    (hr : ∀ q ∈ ids, q < m.points.length)
    (hin : ∀ q ∈ ids, ∀ (i : Nat) (a v b : ℝ), mn[i]? = some a → (coordsOf m q)[i]? = some v → mx[i]? = some b → a ≤ v ∧ v ≤ b) :
    ∃ g', insertPoints m g ids = .ok g' ∧ Reached mn mx none none none g' (ids.map fun q => (q, coordsOf m q)) := by
  unfold insertPoints
  obtain ⟨g', h1, h2⟩ := Res.foldlM_list (fun g id => do
      let p ← Res.idx m.points id
      unwrapRes (GridSearch.insert g id p.coords)) ids g
    (fun pre g => Reached mn mx none none none g (pre.map fun q => (q, coordsOf m q))) (.new hg) (by
      intro pre q g hq _ H
      have hlt := hr q hq
      have hlen := coordsOf_length hc hlt
      have e : coordsOf m q = m.points[q].coords := by unfold coordsOf; rw [List.getElem?_eq_getElem hlt]; rfl
      have hout : GridSearch.isOutside g (coordsOf m q) = .ok false := by
        apply C16_covers H _ (by rw [hlen, hn])
        intro i hi
        have hi1 : i < mx.length := by omega
        have hi2 : i < (coordsOf m q).length := by omega
        obtain ⟨b1, b2⟩ := hin q hq i _ _ _ (List.getElem?_eq_getElem hi) (List.getElem?_eq_getElem hi2) (List.getElem?_eq_getElem hi1)
        rw [List.getD_eq_getElem?_getD, List.getD_eq_getElem?_getD, List.getD_eq_getElem?_getD, List.getElem?_eq_getElem hi,
          List.getElem?_eq_getElem hi1, List.getElem?_eq_getElem hi2]
        simp only [Option.getD_some, Option.getD_none]
        constructor <;> linarith
      obtain ⟨g', hg'⟩ := (C16_insert_ok_iff H q (coordsOf m q)).1 ⟨by rw [hlen, hn], hout⟩
      refine ⟨g', ?_, ?_⟩
      · rw [Res.idx_of_lt hlt, Res.bind_ok, ← e, hg']; rfl
      · rw [List.map_append]; exact .insert H hg')
  exact ⟨g', h1, h2⟩

/-- The extracted edges, faces and points of a mesh of either dimension. -/
def IsExtracted (m : Mesh ℝ) (extractAll : Bool) (x : Extracted ℝ) : Prop :=
  (m.ndim = 2 ∧ IsFeatures2d m extractAll x) ∨ (m.ndim = 3 ∧ IsFeatures3d m extractAll x)

theorem extract_spec {m : Mesh ℝ} (h : ValidMesh m) (hd : m.ndim = 2 ∨ m.ndim = 3)
    (hb : ∀ p ∈ m.points, ∀ v ∈ p.coords, -f64Max ≤ v ∧ v ≤ f64Max) {o : Orders} (ho : o.Valid) (extractAll : Bool) :
    ∃ a b x, extract o m extractAll = .ok (a, b, x) ∧ IsExtracted m extractAll x ∧
      PtsInv f64Max (-f64Max) m x.points (x.points, x.limits) ∧
      (m.ndim = 2 → extractAll2dEdges m = .ok a) ∧ (m.ndim = 3 → extractAllFaces m = .ok b) := by
  unfold extract
  rcases hd with h2 | h3
  · obtain ⟨all, e1, hg⟩ := extractAll2dEdges_spec h h2
    obtain ⟨x, pts, e2, a1, a2, a3⟩ := extractFeatures2d_spec (big := f64Max) (low := -f64Max) h h2 hg ho.edges2d extractAll
    refine ⟨all, [], x, ?_, Or.inl ⟨h2, isFeatures2d_of h hb hg ho.edges2d a1 a2 a3⟩, a2.congr fun q => (a2.mem q).symm, fun _ => e1, by omega⟩
    rw [if_pos h2, e1, Res.bind_ok, e2]; rfl
  · obtain ⟨all, e1, hg⟩ := extractAllFaces_spec h h3
    obtain ⟨x, pts, L, e2, a0, a1, a2, a3⟩ := extractFeatures3d_spec (big := f64Max) (low := -f64Max) h h3 hg ho.faceKeys extractAll
    refine ⟨[], all, x, ?_, Or.inr ⟨h3, isFeatures3d_of h hb hg a0 a1 a2 a3⟩, a2.congr fun q => (a2.mem q).symm, by omega, fun _ => e1⟩
    rw [if_neg (by omega), if_pos h3, e1, Res.bind_ok, e2]; rfl

end
end Gemlab.Mesh
