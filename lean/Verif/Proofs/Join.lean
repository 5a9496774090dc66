import Verif.Model.Join
import Verif.Props.Features3

/-! # Lemmas on `join_meshes` -/
namespace Gemlab.Mesh
open Gemlab Gemlab.Shapes Gemlab.Spec Gemlab.Props.Mesh
open Classical
noncomputable section

theorem get_insertAbsent {Key : Type} [DecidableEq Key] (h : HMap Key Int) (k k' : Key) (v : Int) :
    (insertAbsent h k v).get k' = (h.get k').or (if k' = k then some v else none) := by
  unfold insertAbsent
  by_cases hk : k' = k
  · subst hk
    cases hg : h.get k' with
    | none => simp [HMap.get_insert]
    | some w => simp [hg]
  · split
    · rw [HMap.get_insert]; simp [hk]
    · simp [hk]

theorem wf_insertAbsent {Key : Type} [DecidableEq Key] (h : HMap Key Int) (k : Key) (v : Int) (hw : h.WF) : (insertAbsent h k v).WF := by
  unfold insertAbsent; split
  · exact HMap.wf_insert _ _ _ hw
  · exact hw

theorem foldlM_insertAbsent {Key E : Type} [DecidableEq Key] (kf : E → Res Key) (vf : E → Int) (L : List E) (h0 h : HMap Key Int)
    (hr : L.foldlM (fun h e => do let k ← kf e; pure (insertAbsent h k (vf e))) h0 = .ok h) :
    (∀ e ∈ L, ∃ k, kf e = .ok k) ∧ (h0.WF → h.WF) ∧
      ∀ key, h.get key = (h0.get key).or ((L.find? fun e => kf e = .ok key).map vf) := by
  induction L generalizing h0 with
  | nil => simp at hr; subst hr; simp
  | cons e L ih =>
    rw [List.foldlM_cons] at hr
    obtain ⟨h1, e1, e2⟩ := Res.bind_eq_ok.1 hr
    obtain ⟨k, e3, e4⟩ := Res.bind_eq_ok.1 e1
    simp only [Res.pure_eq, Res.ok.injEq] at e4
    subst e4
    obtain ⟨i1, i2, i3⟩ := ih _ e2
    refine ⟨?_, fun hw => i2 (wf_insertAbsent _ _ _ hw), fun key => ?_⟩
    · intro e' he'
      rcases List.mem_cons.1 he' with rfl | he'
      · exact ⟨k, e3⟩
      · exact i1 e' he'
    · rw [i3, get_insertAbsent, List.find?_cons]
      by_cases hk : key = k
      · subst hk; simp only [if_pos, e3, decide_true, Option.map_some, Option.or_assoc, Option.some_or]
      · have : ¬ (kf e = .ok key) := by rw [e3]; simp; exact fun h => hk h.symm
        simp [hk, this]

theorem foldlM_insertAbsent_ok {Key E : Type} [DecidableEq Key] (kf : E → Res Key) (vf : E → Int) (L : List E) (h0 : HMap Key Int)
    (hk : ∀ e ∈ L, ∃ k, kf e = .ok k) :
    ∃ h, L.foldlM (fun h e => do let k ← kf e; pure (insertAbsent h k (vf e))) h0 = .ok h := by
  induction L generalizing h0 with
  | nil => exact ⟨h0, rfl⟩
  | cons e L ih =>
    obtain ⟨k, hk'⟩ := hk e (by simp)
    obtain ⟨h, hh⟩ := ih (insertAbsent h0 k (vf e)) fun e he => hk e (List.mem_cons_of_mem _ he)
    refine ⟨h, ?_⟩
    rw [List.foldlM_cons, hk', Res.bind_ok, Res.pure_eq, Res.bind_ok]
    exact hh

theorem sortedMarks_spec {Key : Type} [DecidableEq Key] {iter : List Key → List Key} (hi : IterOrder iter) (le : Key → Key → Prop)
    [DecidableRel le] [Std.Total le] [IsTrans Key le] (h : HMap Key Int) (hw : h.WF) :
    ∃ L, sortedMarks iter le h = .ok L ∧ L.Pairwise (fun x y => le x.2 y.2 ∧ x.2 ≠ y.2) ∧
      ∀ v k, (v, k) ∈ L ↔ h.get k = some v := by
  unfold sortedMarks
  split
  · set ks := (iter (h.map (·.1))).insertionSort le with hks
    have hp : ks.Perm (h.map (·.1)) := (List.perm_insertionSort _ _).trans (hi _)
    have hnd : ks.Nodup := hp.nodup_iff.2 hw
    have hs : ks.Pairwise le := List.pairwise_insertionSort _ _
    have hmem : ∀ k, k ∈ ks ↔ ∃ v, h.get k = some v := by
      intro k
      rw [hp.mem_iff]
      have := @HMap.get_eq_none_iff Key Int _ h k
      cases hg : h.get k with
      | none => simp only [this.1 hg, false_iff]; rintro ⟨v, hv⟩; simp at hv
      | some v =>
        simp only [Option.some.injEq, exists_eq', iff_true]
        by_contra hc; rw [this.2 hc] at hg; simp at hg
    have hmap := Res.mapM_eq_ok_of (fun k => do let v ← unwrap (h.get k); pure (v, k)) (fun k => ((h.get k).getD 0, k)) ks (by
      intro k hk
      obtain ⟨v, hv⟩ := (hmem k).1 hk
      rw [hv]; rfl)
    refine ⟨_, hmap, ?_, ?_⟩
    · rw [List.pairwise_map]
      refine (hs.and hnd).imp ?_
      intro x y h; exact h
    · intro v k
      rw [List.mem_map]
      constructor
      · rintro ⟨k', hk', he⟩
        obtain ⟨v', hv'⟩ := (hmem k').1 hk'
        simp only [Prod.mk.injEq] at he
        obtain ⟨h1, rfl⟩ := he
        rw [hv'] at h1 ⊢
        simpa using h1
      · intro hg
        exact ⟨k, (hmem k).2 ⟨v, hg⟩, by rw [hg]; rfl⟩
  · rename_i h0
    have : h = [] := by simpa using h0
    subst this
    exact ⟨[], rfl, by simp, by simp⟩

theorem wf_foldl_insert {Key V E : Type} [DecidableEq Key] (kf : E → Key) (vf : E → V) (L : List E) (h0 : HMap Key V) (hw : h0.WF) :
    (L.foldl (fun h e => h.insert (kf e) (vf e)) h0).WF := by
  induction L generalizing h0 with
  | nil => exact hw
  | cons e L ih => exact ih _ (HMap.wf_insert _ _ _ hw)

/-! ## Points -/

/-- The copy of the point `j` of the list, with its new number. -/
def renumbered (pts : List (Point ℝ)) (φ : Nat → Nat) (j : Nat) : Point ℝ :=
  { id := φ j, marker := ((pts[j]?).map (·.marker)).getD 0, coords := ((pts[j]?).map (·.coords)).getD [] }

/-- Positions (in increasing order) of the points that receive a new number. -/
def newOnes (n nA : Nat) (φ : Nat → Nat) : List Nat := (List.range n).filter fun j => nA ≤ φ j

structure PInv (nA : Nat) (Near Far : List ℝ → Nat → Prop) (pre : List (Point ℝ)) (s : JoinState) : Prop where
  len : s.map.length = pre.length
  next : s.next = nA + s.added.length
  near : ∀ (j : Nat) p, pre[j]? = some p → s.map.getD j 0 < nA → Near p.coords (s.map.getD j 0)
  far : ∀ (j : Nat) p, pre[j]? = some p → nA ≤ s.map.getD j 0 → ∀ i, Far p.coords i
  nums : (newOnes pre.length nA (fun j => s.map.getD j 0)).map (fun j => s.map.getD j 0) = List.range' nA s.added.length
  added : s.added = (newOnes pre.length nA (fun j => s.map.getD j 0)).map (renumbered pre fun j => s.map.getD j 0)

theorem PInv.snoc {nA : Nat} {Near Far : List ℝ → Nat → Prop} {pre : List (Point ℝ)} {s : JoinState} (H : PInv nA Near Far pre s)
    (p : Point ℝ) (i : Nat) (hi : (i < nA ∧ Near p.coords i) ∨ (i = s.next ∧ ∀ i, Far p.coords i)) :
    PInv nA Near Far (pre ++ [p])
      { added := if i < nA then s.added else s.added ++ [{ id := i, marker := p.marker, coords := p.coords }],
        next := if i < nA then s.next else s.next + 1, map := s.map ++ [i] } := by
  have hold : ∀ j, j < pre.length → (s.map ++ [i]).getD j 0 = s.map.getD j 0 := by
    intro j hj
    rw [List.getD_eq_getElem?_getD, List.getD_eq_getElem?_getD, List.getElem?_append_left (by rw [H.len]; exact hj)]
  have hnew : (s.map ++ [i]).getD pre.length 0 = i := by
    rw [List.getD_eq_getElem?_getD, List.getElem?_append_right (by rw [H.len]), H.len]; simp
  have hcase : ∀ j q, (pre ++ [p])[j]? = some q → (j < pre.length ∧ pre[j]? = some q) ∨ (j = pre.length ∧ q = p) := by
    intro j q hq
    rcases Nat.lt_or_ge j pre.length with h | h
    · rw [List.getElem?_append_left h] at hq; exact Or.inl ⟨h, hq⟩
    · rw [List.getElem?_append_right h] at hq
      have : j - pre.length = 0 := by
        by_contra hc
        rw [List.getElem?_eq_none (by simp; omega)] at hq; simp at hq
      rw [this] at hq
      exact Or.inr ⟨by omega, by simpa using hq.symm⟩
  have hfil : newOnes (pre ++ [p]).length nA (fun j => (s.map ++ [i]).getD j 0) =
      newOnes pre.length nA (fun j => s.map.getD j 0) ++ (if i < nA then [] else [pre.length]) := by
    unfold newOnes
    rw [List.length_append, List.length_singleton, List.range_succ, List.filter_append]
    congr 1
    · apply List.filter_congr
      intro j hj; exact decide_eq_decide.2 (by dsimp only; rw [hold j (List.mem_range.1 hj)])
    · rw [List.filter_singleton]
      by_cases h : i < nA
      · rw [if_pos h, decide_eq_false]
        · rfl
        · dsimp only; rw [hnew]; omega
      · rw [if_neg h, decide_eq_true]
        · rfl
        · dsimp only; rw [hnew]; omega
  have hmemlt : ∀ j ∈ newOnes pre.length nA (fun j => s.map.getD j 0), j < pre.length := by
    intro j hj; exact List.mem_range.1 (List.mem_filter.1 hj).1
  have hren : (newOnes pre.length nA (fun j => s.map.getD j 0)).map (renumbered (pre ++ [p]) fun j => (s.map ++ [i]).getD j 0) = s.added := by
    rw [H.added]
    apply List.map_congr_left
    intro j hj
    unfold renumbered
    dsimp only
    rw [hold j (hmemlt j hj), List.getElem?_append_left (hmemlt j hj)]
  have hnum : (newOnes pre.length nA (fun j => s.map.getD j 0)).map (fun j => (s.map ++ [i]).getD j 0) = List.range' nA s.added.length := by
    rw [← H.nums]
    apply List.map_congr_left
    intro j hj
    exact hold j (hmemlt j hj)
  refine ⟨by simp [H.len], ?_, ?_, ?_, ?_, ?_⟩
  · dsimp only
    split <;> simp [H.next]; omega
  · intro j q hq hlt
    dsimp only at hlt ⊢
    rcases hcase j q hq with ⟨h1, h2⟩ | ⟨rfl, rfl⟩
    · rw [hold j h1] at hlt ⊢; exact H.near j q h2 hlt
    · rw [hnew] at hlt ⊢
      rcases hi with ⟨_, h⟩ | ⟨h, _⟩
      · exact h
      · have := H.next; omega
  · intro j q hq hge
    dsimp only at hge ⊢
    rcases hcase j q hq with ⟨h1, h2⟩ | ⟨rfl, rfl⟩
    · rw [hold j h1] at hge; exact H.far j q h2 hge
    · rw [hnew] at hge
      rcases hi with ⟨h, _⟩ | ⟨_, h⟩
      · omega
      · exact h
  · dsimp only
    rw [hfil, List.map_append, hnum]
    by_cases h : i < nA
    · simp [h]
    · have hi' : i = s.next := by
        rcases hi with ⟨h', _⟩ | ⟨h', _⟩
        · exact absurd h' h
        · exact h'
      rw [if_neg h, if_neg h, List.map_singleton, hnew, List.length_append, List.length_singleton, List.range'_concat, hi', H.next]
      simp
  · dsimp only
    rw [hfil, List.map_append, hren]
    by_cases h : i < nA
    · simp [h]
    · rw [if_neg h, if_neg h, List.map_singleton]
      unfold renumbered
      dsimp only
      rw [hnew, List.getElem?_append_right (le_refl _)]
      simp

/-- A coordinate vector within the tolerance of the search of a point. -/
def Close (ndim : Nat) (x y : List ℝ) : Prop := euclid x y ≤ Real.sqrt ndim * (1 / 10000)

/-- Farther than the tolerance in some direction. -/
def Apart (ndim : Nat) (x y : List ℝ) : Prop := ∃ d < ndim, (1 / 10000 : ℝ) < |x.getD d 0 - y.getD d 0|

/-- In the box of two corners. -/
def InBox (mn mx x : List ℝ) : Prop := ∀ d < mn.length, mn.getD d 0 ≤ x.getD d 0 ∧ x.getD d 0 ≤ mx.getD d 0

theorem joinPoints_spec {a : Mesh ℝ} (h : ValidMesh a) {mn mx : List ℝ} {g : GridSearch} (hn : mn.length = a.ndim)
    (hr : Reached mn mx none none none g (a.points.map fun p => (p.id, p.coords)))
    {iter : Option Nat → List (Nat × List ℝ) → List (Nat × List ℝ)} (hit : ∀ k, IterOrder (iter k)) (pts : List (Point ℝ))
    (hl : ∀ p ∈ pts, p.coords.length = a.ndim) :
    ∃ s, pts.foldlM (joinPoint iter g) { added := [], next := a.points.length, map := [] } = .ok s ∧
      PInv a.points.length (fun x i => Close a.ndim (coordsOf a i) x)
        (fun x i => i < a.points.length → InBox mn mx (coordsOf a i) → Apart a.ndim x (coordsOf a i)) pts s := by
  have hnd : ((a.points.map fun p => (p.id, p.coords)).map (·.1)).Nodup := by
    rw [List.map_map]
    have : (fun x : Nat × List ℝ => x.1) ∘ (fun p : Point ℝ => (p.id, p.coords)) = fun p => p.id := rfl
    rw [this]
    have e : a.points.map (fun p => p.id) = List.range a.points.length := by
      apply List.ext_getElem
      · simp
      · intro i h1 h2
        rw [List.getElem_map, List.getElem_range]
        exact h.pointIds i _ (List.getElem?_eq_getElem (by simpa using h1))
    rw [e]; exact List.nodup_range
  have hcoords : ∀ i (hi : i < a.points.length), coordsOf a i = a.points[i].coords := by
    intro i hi; unfold coordsOf; rw [List.getElem?_eq_getElem hi]; rfl
  have hcur : ∀ i < a.points.length, GridSearch.Current (a.points.map fun p => (p.id, p.coords)) i (coordsOf a i) := by
    intro i hi
    refine current_of_nodup hnd ?_
    rw [List.mem_map]
    exact ⟨a.points[i], List.getElem_mem hi, by rw [hcoords i hi, h.pointIds i _ (List.getElem?_eq_getElem hi)]⟩
  refine Res.foldlM_list (joinPoint iter g) pts _ (fun pre s => PInv a.points.length (fun x i => Close a.ndim (coordsOf a i) x)
        (fun x i => i < a.points.length → InBox mn mx (coordsOf a i) → Apart a.ndim x (coordsOf a i)) pre s) ?_ ?_
  · exact ⟨rfl, rfl, by simp, by simp, by simp [newOnes], by simp [newOnes]⟩
  · intro pre p s hp _ H
    have hlen : p.coords.length = mn.length := by rw [hl p hp, hn]
    have hng := hr.params.1
    -- the search result
    have key : ∃ found, (do
        let outside ← GridSearch.isOutside g p.coords
        if outside then pure none else GridSearch.search (iter (GridSearch.calcContainerKey g p.coords)) g p.coords) = Res.ok found ∧
        (∀ i, found = some i → i < a.points.length ∧ Close a.ndim (coordsOf a i) p.coords) ∧
        (found = none → ∀ i, i < a.points.length → InBox mn mx (coordsOf a i) → Apart a.ndim p.coords (coordsOf a i)) := by
      have hout := GridSearch.isOutside_eq (g := g) (x := p.coords) (by rw [hlen, hng])
      by_cases hin : GridSearch.isOutside g p.coords = .ok false
      · obtain ⟨r, r1, r2⟩ := (C13_search_sound hr (hit (GridSearch.calcContainerKey g p.coords)) p.coords).1 ⟨hlen, hin⟩
        refine ⟨r, ?_, ?_, ?_⟩
        · rw [hin, Res.bind_ok]; exact r1
        · intro i hi
          obtain ⟨x, hx, hd⟩ := r2 i hi
          obtain ⟨q, hq, he⟩ := List.mem_map.1 hx
          simp only [Prod.mk.injEq] at he
          obtain ⟨rfl, rfl⟩ := he
          obtain ⟨k, hk⟩ := List.mem_iff_getElem?.1 hq
          have hid := h.pointIds k q hk
          have hk' := (List.getElem?_eq_some_iff.1 hk).1
          refine ⟨by omega, ?_⟩
          unfold Close coordsOf
          rw [hid, hk]
          simpa [hn] using hd
        · rintro rfl i hi _
          obtain ⟨d, hd, hfar⟩ := C13_none_means_far hr (hit _) r1 (hcur i hi)
          exact ⟨d, by rw [← hn]; exact hd, by simpa using hfar⟩
      · have hout' : GridSearch.isOutside g p.coords = .ok true := by
          rw [hout] at hin ⊢
          by_cases hI : GridSearch.Inside g p.coords <;> simp_all
        refine ⟨none, ?_, by simp, ?_⟩
        · rw [hout', Res.bind_ok]; rfl
        · intro _ i hi hbox
          by_contra hc
          unfold Apart at hc
          push Not at hc
          have := C16_covers hr p.coords hlen (by
            intro d hd
            have b := hbox d hd
            have c := hc d (by rw [← hn]; exact hd)
            rw [abs_le] at c
            simp only [Option.getD_none]
            constructor <;> linarith)
          exact hin this
    obtain ⟨found, f1, f2, f3⟩ := key
    have hstep : joinPoint iter g s p = (do
        let outside ← GridSearch.isOutside g p.coords
        if outside then pure none else GridSearch.search (iter (GridSearch.calcContainerKey g p.coords)) g p.coords) >>= fun found => (match found with
          | some id => pure { s with map := s.map ++ [id] }
          | none => pure { added := s.added ++ [{ id := s.next, marker := p.marker, coords := p.coords }], next := s.next + 1, map := s.map ++ [s.next] } : Res JoinState) := by
      unfold joinPoint
      cases GridSearch.isOutside g p.coords with
      | ok b => cases b <;> rfl
      | err e => rfl
      | panic => rfl
    rw [hstep, f1, Res.bind_ok]
    cases found with
    | some i =>
      obtain ⟨c1, c2⟩ := f2 i rfl
      have := H.snoc p i (Or.inl ⟨c1, c2⟩)
      rw [if_pos c1, if_pos c1] at this
      exact ⟨_, rfl, this⟩
    | none =>
      have := H.snoc p s.next (Or.inr ⟨rfl, f3 rfl⟩)
      have hge : ¬ s.next < a.points.length := by rw [H.next]; omega
      rw [if_neg hge, if_neg hge] at this
      exact ⟨_, rfl, this⟩

end
end Gemlab.Mesh
