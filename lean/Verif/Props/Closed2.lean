import Verif.Props.Closed

/-!
# C73: the boundary of a mesh in the plane
-/
namespace Gemlab.Mesh
open Gemlab.Shapes Gemlab.Props.Features

variable {R : Type} [CommRing R]

/-- The local edges of all plane cells. -/
def allEdges (m : Mesh ℝ) : Finset (Σ _ : Nat, Nat) := (Finset.range m.cells.length).sigma fun c => Finset.range ((m.cells[c]?.map fun cell => if cell.kind.ndim = 2 then cell.kind.nedge else 0).getD 0)

theorem mem_allEdges {m : Mesh ℝ} {x : Σ _ : Nat, Nat} : x ∈ allEdges m ↔ ∃ cell, m.cells[x.1]? = some cell ∧ cell.kind.ndim = 2 ∧ x.2 < cell.kind.nedge := by
  unfold allEdges
  rw [Finset.mem_sigma, Finset.mem_range, Finset.mem_range]
  constructor
  · rintro ⟨h1, h2⟩
    rw [List.getElem?_eq_getElem h1] at h2 ⊢
    simp only [Option.map_some, Option.getD_some] at h2
    split_ifs at h2 with h3
    · exact ⟨_, rfl, h3, h2⟩
    · omega
  · rintro ⟨cell, h1, h2, h3⟩
    refine ⟨(List.getElem?_eq_some_iff.1 h1).1, ?_⟩
    rw [h1, Option.map_some, Option.getD_some, if_pos h2]
    exact h3

/-- One if the pair starts at `p`, minus one if it ends there. -/
def endNet (R : Type) [CommRing R] (p : Nat) (s : Nat × Nat) : R := (if s.1 = p then 1 else 0) - (if s.2 = p then 1 else 0)

/-- The same for a local edge. -/
def edgeNet (R : Type) [CommRing R] (m : Mesh ℝ) (p : Nat) (x : Σ _ : Nat, Nat) : R := (m.cells[x.1]?.map fun cell => endNet R p (edgeEnds cell x.2)).getD 0

theorem edgeNet_total (m : Mesh ℝ) (p : Nat) : ∑ x ∈ allEdges m, edgeNet R m p x = 0 := by
  unfold allEdges
  rw [Finset.sum_sigma]
  refine Finset.sum_eq_zero fun c hc => ?_
  have hc := Finset.mem_range.1 hc
  obtain ⟨cell, hcell⟩ : ∃ cell, m.cells[c]? = some cell := ⟨_, List.getElem?_eq_getElem hc⟩
  have hr : ∀ e, edgeNet R m p ⟨c, e⟩ = endNet R p (edgeEnds cell e) := by
    intro f
    unfold edgeNet
    simp only
    rw [hcell, Option.map_some, Option.getD_some]
  simp only [hr]
  rw [hcell, Option.map_some, Option.getD_some]
  split_ifs with h2
  swap
  · rfl
  have hcy : ∀ e < cell.kind.nedge, edgeNode cell.kind e 0 = edgeNode cell.kind ((e + 1) % cell.kind.nedge) 1 := by
    clear hr hcell
    generalize cell.kind = k at h2
    cases k <;> first | exact absurd h2 (by decide) | decide
  have hn : cell.kind.nedge = 3 ∨ cell.kind.nedge = 4 := by
    clear hr hcell hcy
    generalize cell.kind = k at h2
    cases k <;> first | exact absurd h2 (by decide) | decide
  unfold endNet edgeEnds
  rcases hn with hn | hn
  · rw [hn] at hcy ⊢
    simp only [Finset.sum_range_succ, Finset.sum_range_zero]
    rw [hcy 0 (by omega), hcy 1 (by omega), hcy 2 (by omega)]
    norm_num
  · rw [hn] at hcy ⊢
    simp only [Finset.sum_range_succ, Finset.sum_range_zero]
    rw [hcy 0 (by omega), hcy 1 (by omega), hcy 2 (by omega), hcy 3 (by omega)]
    norm_num

theorem HasEdge.ends {m : Mesh ℝ} {key : EdgeKey} {c e : Nat} (h : HasEdge m key c e) {cell : Cell} (hc : m.cells[c]? = some cell) :
    key = edgeEnds cell e ∨ key = (edgeEnds cell e).swap := by
  obtain ⟨cell', a, b, h1, -, -, h2, h3, -, h4⟩ := h
  rw [hc, Option.some.injEq] at h1
  subst h1
  unfold edgeEnds
  rw [List.getD_eq_getElem?_getD, List.getD_eq_getElem?_getD, h2, h3]
  exact h4

theorem HasEdge.key_unique {m : Mesh ℝ} {key key' : EdgeKey} {c e : Nat} (h : HasEdge m key c e) (h' : HasEdge m key' c e) : key = key' := by
  obtain ⟨cell, a, b, h1, -, -, h2, h3, h5, h4⟩ := h
  obtain ⟨cell', a', b', h1', -, -, h2', h3', h5', h4'⟩ := h'
  rw [h1, Option.some.injEq] at h1'
  subst h1'
  rw [h2, Option.some.injEq] at h2'
  rw [h3, Option.some.injEq] at h3'
  subst h2'; subst h3'
  rcases h4 with rfl | rfl <;> rcases h4' with rfl | rfl <;> simp only at h5 h5' <;> first | rfl | (have : a = b := by omega) <;> subst this <;> rfl

theorem exists_edge_key {m : Mesh ℝ} (h : ValidMesh m) : ∃ key : (Σ _ : Nat, Nat) → EdgeKey, ∀ x ∈ allEdges m, HasEdge m (key x) x.1 x.2 := by
  have : ∀ x ∈ allEdges m, ∃ key, HasEdge m key x.1 x.2 := by
    intro x hx
    obtain ⟨cell, h1, h2, h3⟩ := mem_allEdges.1 hx
    have hmem := List.mem_of_getElem? h1
    have h2n : 2 ≤ cell.kind.edgeNnode := by
      generalize cell.kind = k at h2
      cases k <;> first | exact absurd h2 (by decide) | decide
    have hl : ∀ i < 2, edgeNode cell.kind x.2 i < cell.points.length := by
      intro i hi
      rw [h.nnode cell hmem]
      exact Shapes.edgeNode_lt cell.kind x.2 h3 i (by omega)
    obtain ⟨a, ha⟩ : ∃ a, cell.points[edgeNode cell.kind x.2 0]? = some a := ⟨_, List.getElem?_eq_getElem (hl 0 (by omega))⟩
    obtain ⟨b, hb⟩ : ∃ a, cell.points[edgeNode cell.kind x.2 1]? = some a := ⟨_, List.getElem?_eq_getElem (hl 1 (by omega))⟩
    rcases Nat.le_total a b with hab | hab
    · exact ⟨(a, b), cell, a, b, h1, h2, h3, ha, hb, hab, .inl rfl⟩
    · exact ⟨(b, a), cell, a, b, h1, h2, h3, ha, hb, hab, .inr rfl⟩
  have hne : Nonempty EdgeKey := ⟨(0, 0)⟩
  choose! key hk using this
  exact ⟨key, hk⟩

/-- The balance of the edges of the boundary at a point. -/
theorem boundary_ends {m : Mesh ℝ} (h : ValidMesh m) (p : Nat) (two : ∀ key, AtMostTwo (HasEdge m key))
    (pair : ∀ key c e c' e', HasEdge m key c e → HasEdge m key c' e' → ¬ (c = c' ∧ e = e') → ∀ cell cell', m.cells[c]? = some cell → m.cells[c']? = some cell' →
      endNet R p (edgeEnds cell e) + endNet R p (edgeEnds cell' e') = 0)
    (edges : List (EdgeKey × Feature)) (hn : (edges.map (·.1)).Nodup) (hb : ∀ key, key ∈ edges.map (·.1) ↔ ExactlyOne (HasEdge m key))
    (W : EdgeKey × Feature → R) (hW : ∀ e ∈ edges, ∀ c k cell, HasEdge m e.1 c k → m.cells[c]? = some cell → W e = endNet R p (edgeEnds cell k)) :
    (edges.map W).sum = 0 := by
  obtain ⟨key, hkey⟩ := exists_edge_key h
  have hmem : ∀ {k c f}, HasEdge m k c f → (⟨c, f⟩ : Σ _ : Nat, Nat) ∈ allEdges m := by
    rintro k c f ⟨cell, _, _, h1, h2, h3, -⟩
    exact mem_allEdges.2 ⟨cell, h1, h2, h3⟩
  refine boundary_list_sum (allEdges m) key (edgeNet R m p) (edgeNet_total m p) ?_ ?_ edges hn ?_ _ ?_
  · intro x hx y hy hxy hne
    have h1 := hkey x hx
    have h2 := hkey y hy
    rw [← hxy] at h2
    obtain ⟨cell, hc, -⟩ := mem_allEdges.1 hx
    obtain ⟨cell', hc', -⟩ := mem_allEdges.1 hy
    unfold edgeNet
    rw [hc, hc', Option.map_some, Option.map_some, Option.getD_some, Option.getD_some]
    exact pair _ _ _ _ _ h1 h2 (fun hh => hne (by cases x; cases y; simp only at hh; obtain ⟨rfl, rfl⟩ := hh; rfl)) _ _ hc hc'
  · intro x hx y hy z hz hxy hxz
    have h1 := hkey x hx
    have h2 := hkey y hy
    have h3 := hkey z hz
    rw [← hxy] at h2
    rw [← hxz] at h3
    cases x; cases y; cases z
    rcases two _ _ _ _ _ _ _ h1 h2 h3 with ⟨a, b⟩ | ⟨a, b⟩ | ⟨a, b⟩ <;> simp only at a b <;> subst a <;> subst b
    · exact .inl rfl
    · exact .inr (.inl rfl)
    · exact .inr (.inr rfl)
  · intro k
    rw [hb]
    constructor
    · rintro ⟨c, f, h1, h2⟩
      refine ⟨⟨c, f⟩, hmem h1, (hkey _ (hmem h1)).key_unique h1, ?_⟩
      rintro ⟨c', f'⟩ hy hk
      have := hkey _ hy
      rw [hk] at this
      obtain ⟨a, b⟩ := h2 _ _ this
      simp only at a b
      rw [a, b]
    · rintro ⟨⟨c, f⟩, hx, rfl, h2⟩
      refine ⟨c, f, hkey _ hx, ?_⟩
      intro c' f' h3
      have := h2 ⟨c', f'⟩ (hmem h3) ((hkey _ (hmem h3)).key_unique h3)
      cases this
      exact ⟨rfl, rfl⟩
  · rintro e he ⟨c, f⟩ hx hk
    have h1 := hkey _ hx
    rw [hk] at h1
    obtain ⟨cell, hc, -⟩ := mem_allEdges.1 hx
    unfold edgeNet
    rw [hc, Option.map_some, Option.getD_some]
    exact hW e he c f cell h1 hc

theorem sum_ite_countP {α : Type} (l : List α) (P : α → Prop) [DecidablePred P] : (l.map fun e => if P e then (1 : R) else 0).sum = (l.countP P : R) := by
  induction l with
  | nil => simp
  | cons a l ih =>
    rw [List.map_cons, List.sum_cons, ih, List.countP_cons]
    by_cases h : P a <;> simp [h] <;> ring

theorem sum_sub_list {α : Type} (l : List α) (f g : α → R) : (l.map fun e => f e - g e).sum = (l.map f).sum - (l.map g).sum := by
  induction l with
  | nil => simp
  | cons a l ih => simp only [List.map_cons, List.sum_cons, ih]; ring

theorem boundary_keys {m : Mesh ℝ} {x : Extracted ℝ} {F : Features} (hF : IsNew m false x F) (h2 : m.ndim = 2) :
    (F.edges.map (·.1)).Nodup ∧ ∀ key, key ∈ F.edges.map (·.1) ↔ ExactlyOne (HasEdge m key) := by
  obtain ⟨_, hx⟩ | ⟨h3, _⟩ := hF.extracted
  swap
  · omega
  refine ⟨by rw [hF.edges]; exact hx.keysNodup, ?_⟩
  intro key
  have := hx.accepted key
  rw [← hF.edges] at this
  simp only [Bool.false_eq_true, false_or] at this
  constructor
  · intro hk
    by_contra hc
    have hnone : F.edges.get key = none := by
      by_contra hh
      obtain ⟨f, hf⟩ := Option.ne_none_iff_exists'.1 hh
      exact hc (this.1 (by rw [hf]; rfl)).2
    exact HMap.get_eq_none_iff.1 hnone hk
  · intro hk
    by_contra hc
    have hnone := HMap.get_eq_none_iff.2 hc
    obtain ⟨c, e, hce, -⟩ := id hk
    have := this.2 ⟨⟨c, e, hce⟩, hk⟩
    rw [hnone] at this
    simp at this


theorem HasEdge.mem {m : Mesh ℝ} {key : EdgeKey} {c e : Nat} (h : HasEdge m key c e) : ∃ cell, m.cells[c]? = some cell ∧ cell.kind.ndim = 2 ∧ e < cell.kind.nedge := by
  obtain ⟨cell, _, _, h1, h2, h3, -⟩ := h
  exact ⟨cell, h1, h2, h3⟩

theorem OrientedEdges.opposite {m : Mesh ℝ} (ho : OrientedEdges m) {key : EdgeKey} {c e c' e' : Nat} (h : HasEdge m key c e) (h' : HasEdge m key c' e') (hne : ¬ (c = c' ∧ e = e'))
    {cell cell' : Cell} (hc : m.cells[c]? = some cell) (hc' : m.cells[c']? = some cell') : edgeEnds cell e = (edgeEnds cell' e').swap := by
  obtain ⟨_, a1, a2, a3⟩ := h.mem
  obtain ⟨_, b1, b2, b3⟩ := h'.mem
  rw [hc, Option.some.injEq] at a1
  rw [hc', Option.some.injEq] at b1
  subst a1; subst b1
  have hn : edgeEnds cell e ≠ edgeEnds cell' e' := fun hh => hne (ho c e c' e' cell cell' hc hc' a2 b2 a3 b3 hh)
  rcases h.ends hc with h1 | h1 <;> rcases h'.ends hc' with h2 | h2
  · exact absurd (h1.symm.trans h2) hn
  · exact h1.symm.trans h2
  · have := h1.symm.trans h2
    rw [← this, Prod.swap_swap]
  · exact absurd (Prod.swap_injective (h1.symm.trans h2)) hn

theorem OrientedEdges.two {m : Mesh ℝ} (ho : OrientedEdges m) (key : EdgeKey) : AtMostTwo (HasEdge m key) := by
  intro c e c' e' c'' e'' h h' h''
  by_cases h1 : c = c' ∧ e = e'
  · exact .inl h1
  by_cases h2 : c = c'' ∧ e = e''
  · exact .inr (.inl h2)
  obtain ⟨x, a1, a2, a3⟩ := h.mem
  obtain ⟨y, b1, b2, b3⟩ := h'.mem
  obtain ⟨z, d1, d2, d3⟩ := h''.mem
  have e1 := ho.opposite h h' h1 a1 b1
  have e2 := ho.opposite h h'' h2 a1 d1
  exact .inr (.inr (ho _ _ _ _ y z b1 d1 b2 d2 b3 d3 (Prod.swap_injective (e1.symm.trans e2))))

/-- C73: the boundary of a mesh in the plane consists of closed polygons: if the cells fit together (`OrientedEdges`), at every point as many boundary
edges begin as end (an edge begins at the first of its points). -/
theorem C73_loops_oriented {m : Mesh ℝ} {x : Extracted ℝ} {F : Features} (hF : IsNew m false x F) (h : ValidMesh m) (h2 : m.ndim = 2) (ho : OrientedEdges m) (p : Nat) :
    (F.edges.countP fun e => e.2.points[0]? = some p) = F.edges.countP fun e => e.2.points[1]? = some p := by
  obtain ⟨_, hx⟩ | ⟨h3, _⟩ := hF.extracted
  swap
  · omega
  have hn : (F.edges.map (·.1)).Nodup := by rw [hF.edges]; exact hx.keysNodup
  have hb := (boundary_keys hF h2).2
  have hz := boundary_ends (R := ℤ) h p ho.two (by
    intro key c f c' f' k1 k2 k3 cell cell' k4 k5
    rw [ho.opposite k1 k2 k3 k4 k5]
    simp [endNet]) F.edges hn hb (fun e => (if e.2.points[0]? = some p then 1 else 0) - if e.2.points[1]? = some p then 1 else 0) (by
    rintro ⟨key, f⟩ he c k cell hck hcell
    obtain ⟨c', e', hone, huniq⟩ := (hb key).1 (List.mem_map_of_mem he)
    obtain ⟨c'', e'', hfirst, ⟨cell', hc', hek, hlen, hpts⟩, -⟩ := hx.data key f (by rw [← hF.edges]; exact HMap.get_of_mem hn he)
    obtain ⟨rfl, rfl⟩ := huniq _ _ hck
    obtain ⟨rfl, rfl⟩ := huniq _ _ hfirst.1
    rw [hcell, Option.some.injEq] at hc'
    subst hc'
    obtain ⟨cell'', a, b, g1, -, -, g2, g3, -⟩ := hfirst.1
    rw [hcell, Option.some.injEq] at g1
    subst g1
    have hn2 : 2 ≤ f.kind.nnode := by
      have := (edgeKind_nnode _ _ hek).2
      generalize f.kind = q at this
      cases q <;> first | exact absurd this (by decide) | decide
    rw [hpts 0 (by omega), hpts 1 (by omega), g2, g3]
    unfold endNet edgeEnds
    rw [List.getD_eq_getElem?_getD, List.getD_eq_getElem?_getD, g2, g3]
    simp)
  rw [sum_sub_list, sum_ite_countP, sum_ite_countP] at hz
  omega

/-- C73: the same without directions: if every edge belongs to at most two cells, an even number of ends of boundary edges is at every point. -/
theorem C73_loops {m : Mesh ℝ} {x : Extracted ℝ} {F : Features} (hF : IsNew m false x F) (h : ValidMesh m) (h2 : m.ndim = 2) (ho : ∀ key, AtMostTwo (HasEdge m key)) (p : Nat) :
    Even ((F.edges.countP fun e => e.1.1 = p) + F.edges.countP fun e => e.1.2 = p) := by
  obtain ⟨hn, hb⟩ := boundary_keys hF h2
  have hsw : ∀ s : Nat × Nat, endNet (ZMod 2) p s.swap = endNet (ZMod 2) p s := by
    intro s
    unfold endNet
    rw [sub_eq_add_neg, ZMod.neg_eq_self_mod_two, sub_eq_add_neg, ZMod.neg_eq_self_mod_two, add_comm]
    rfl
  have hkey : ∀ key c e cell, HasEdge m key c e → m.cells[c]? = some cell → endNet (ZMod 2) p key = endNet (ZMod 2) p (edgeEnds cell e) := by
    intro key c e cell h1 h2
    rcases h1.ends h2 with h | h
    · rw [h]
    · rw [h, hsw]
  have hz := boundary_ends (R := ZMod 2) h p ho (by
    intro key c f c' f' k1 k2 k3 cell cell' k4 k5
    rw [← hkey key c f cell k1 k4, ← hkey key c' f' cell' k2 k5]
    exact CharTwo.add_self_eq_zero _) F.edges hn hb (fun e => (if e.1.1 = p then 1 else 0) - if e.1.2 = p then 1 else 0) (by
    rintro ⟨key, f⟩ he c k cell hck hcell
    exact hkey key c k cell hck hcell)
  rw [sum_sub_list, sum_ite_countP (P := fun e : EdgeKey × Feature => e.1.1 = p), sum_ite_countP (P := fun e : EdgeKey × Feature => e.1.2 = p), sub_eq_add_neg, ZMod.neg_eq_self_mod_two, ← Nat.cast_add] at hz
  exact ZMod.natCast_eq_zero_iff_even.1 hz

end Gemlab.Mesh
