import Verif.Proofs.Closed2
import Verif.Props.TriSurface2

/-!
# C73: the boundary is closed
-/
namespace Gemlab.Mesh
open Gemlab.Shapes Gemlab.Props.Features

variable {R : Type} [CommRing R]

theorem sum_range_list {A : Type} [AddCommMonoid A] (g : Nat → A) (n : Nat) : ((List.range n).map g).sum = ∑ i ∈ Finset.range n, g i := by
  induction n with
  | zero => rfl
  | succ n ih => rw [List.range_succ, List.map_append, List.sum_append, ih, Finset.sum_range_succ]; simp

/-- The local faces of all solid cells. -/
def allFaces (m : Mesh ℝ) : Finset (Σ _ : Nat, Nat) := (Finset.range m.cells.length).sigma fun c => Finset.range ((m.cells[c]?.map fun cell => if cell.kind.ndim = 3 then cell.kind.nface else 0).getD 0)

theorem mem_allFaces {m : Mesh ℝ} {x : Σ _ : Nat, Nat} : x ∈ allFaces m ↔ ∃ cell, m.cells[x.1]? = some cell ∧ cell.kind.ndim = 3 ∧ x.2 < cell.kind.nface := by
  unfold allFaces
  rw [Finset.mem_sigma, Finset.mem_range, Finset.mem_range]
  constructor
  · rintro ⟨h1, h2⟩
    rw [List.getElem?_eq_getElem h1] at h2 ⊢
    simp only [Option.map_some, Option.getD_some] at h2
    split_ifs at h2 with h3
    · exact ⟨_, rfl, h3, h2⟩
    · omega
  · rintro ⟨cell, h1, h2, h3⟩
    refine ⟨(List.getElem?_eq_some_iff.1 h1).1, ?_⟩
    rw [h1, Option.map_some, Option.getD_some, if_pos h2]
    exact h3

/-- The balance of the rim of a local face. -/
def rimNet {β : Type} [DecidableEq β] (R : Type) [CommRing R] (m : Mesh ℝ) (φ : Nat → β) (u v : β) (x : Σ _ : Nat, Nat) : R :=
  (m.cells[x.1]?.map fun cell => net R ((faceRim cell x.2).map (Prod.map φ φ)) u v).getD 0

theorem rimNet_total {β : Type} [DecidableEq β] (m : Mesh ℝ) (φ : Nat → β) (u v : β) : ∑ x ∈ allFaces m, rimNet R m φ u v x = 0 := by
  unfold allFaces
  rw [Finset.sum_sigma]
  refine Finset.sum_eq_zero fun c hc => ?_
  have hc := Finset.mem_range.1 hc
  obtain ⟨cell, hcell⟩ : ∃ cell, m.cells[c]? = some cell := ⟨_, List.getElem?_eq_getElem hc⟩
  have hr : ∀ f, rimNet R m φ u v ⟨c, f⟩ = net R ((faceRim cell f).map (Prod.map φ φ)) u v := by
    intro f
    unfold rimNet
    simp only
    rw [hcell, Option.map_some, Option.getD_some]
  simp only [hr]
  rw [hcell, Option.map_some, Option.getD_some]
  split_ifs with h3
  swap
  · rfl
  obtain ⟨fk, hfk⟩ : ∃ fk, cell.kind.faceKind = some fk := by
    clear hr hcell
    generalize cell.kind = k at h3
    cases k <;> first | exact absurd h3 (by decide) | exact ⟨_, rfl⟩
  obtain ⟨i, hi⟩ := solid_closed hfk
  have h := net_balanced (R := R) hi (φ ∘ (cell.points.getD · 0)) u v
  rw [List.map_flatMap, net_flatMap, sum_range_list] at h
  rw [← h]
  refine Finset.sum_congr rfl fun f _ => ?_
  rw [faceRim_eq hfk, List.map_map]
  rfl

theorem exists_key {m : Mesh ℝ} (h : ValidMesh m) : ∃ key : (Σ _ : Nat, Nat) → FaceKey, ∀ x ∈ allFaces m, HasFace m (key x) x.1 x.2 := by
  have : ∀ x ∈ allFaces m, ∃ key, HasFace m key x.1 x.2 := by
    intro x hx
    obtain ⟨cell, h1, h2, h3⟩ := mem_allFaces.1 hx
    have hmem := List.mem_of_getElem? h1
    obtain ⟨p0, p1, p2, p3, q0, q1, q2, q3, -⟩ := localFaceKey_ok cell.kind cell.points x.2 (h.nnode cell hmem) h3
    obtain ⟨a, b⟩ := (sort4_eq_iff p0 p1 p2 p3 _).1 rfl
    exact ⟨sort4 p0 p1 p2 p3, cell, p0, p1, p2, p3, h1, h2, h3, q0, q1, q2, q3, a, b⟩
  have hne : Nonempty FaceKey := ⟨(0, 0, 0, 0)⟩
  choose! key hk using this
  exact ⟨key, hk⟩

/-- The balance of the rims of the boundary faces. -/
theorem boundary_net {β : Type} [DecidableEq β] {m : Mesh ℝ} (h : ValidMesh m) (φ : Nat → β) (u v : β) (two : ∀ key, AtMostTwo (HasFace m key))
    (pair : ∀ key c f c' f', HasFace m key c f → HasFace m key c' f' → ¬ (c = c' ∧ f = f') → ∀ cell cell', m.cells[c]? = some cell → m.cells[c']? = some cell' →
      net R ((faceRim cell f).map (Prod.map φ φ)) u v + net R ((faceRim cell' f').map (Prod.map φ φ)) u v = 0)
    (faces : List (FaceKey × Feature)) (hn : (faces.map (·.1)).Nodup) (hb : ∀ key, key ∈ faces.map (·.1) ↔ ExactlyOne (HasFace m key))
    (hd : ∀ key f, (key, f) ∈ faces → ∃ c k, HasFace m key c k ∧ FaceOf m c k f ∧ f.kind.ndim = 2) :
    (faces.map fun e => net R ((rim e.2.kind e.2.points).map (Prod.map φ φ)) u v).sum = 0 := by
  obtain ⟨key, hkey⟩ := exists_key h
  have hmem : ∀ {k c f}, HasFace m k c f → (⟨c, f⟩ : Σ _ : Nat, Nat) ∈ allFaces m := by
    rintro k c f ⟨cell, _, _, _, _, h1, h2, h3, -⟩
    exact mem_allFaces.2 ⟨cell, h1, h2, h3⟩
  refine boundary_list_sum (allFaces m) key (rimNet R m φ u v) (rimNet_total m φ u v) ?_ ?_ faces hn ?_ _ ?_
  · intro x hx y hy hxy hne
    have h1 := hkey x hx
    have h2 := hkey y hy
    rw [← hxy] at h2
    obtain ⟨cell, hc, -⟩ := mem_allFaces.1 hx
    obtain ⟨cell', hc', -⟩ := mem_allFaces.1 hy
    unfold rimNet
    rw [hc, hc', Option.map_some, Option.map_some, Option.getD_some, Option.getD_some]
    exact pair _ _ _ _ _ h1 h2 (fun hh => hne (by cases x; cases y; simp only at hh; obtain ⟨rfl, rfl⟩ := hh; rfl)) _ _ hc hc'
  · intro x hx y hy z hz hxy hxz
    have h1 := hkey x hx
    have h2 := hkey y hy
    have h3 := hkey z hz
    rw [← hxy] at h2
    rw [← hxz] at h3
    cases x; cases y; cases z
    rcases two _ _ _ _ _ _ _ h1 h2 h3 with ⟨a, b⟩ | ⟨a, b⟩ | ⟨a, b⟩ <;> simp only at a b <;> subst a <;> subst b
    · exact .inl rfl
    · exact .inr (.inl rfl)
    · exact .inr (.inr rfl)
  · intro k
    rw [hb]
    constructor
    · rintro ⟨c, f, h1, h2⟩
      refine ⟨⟨c, f⟩, hmem h1, (hkey _ (hmem h1)).key_unique h1, ?_⟩
      rintro ⟨c', f'⟩ hy hk
      have := hkey _ hy
      rw [hk] at this
      obtain ⟨a, b⟩ := h2 _ _ this
      simp only at a b
      rw [a, b]
    · rintro ⟨⟨c, f⟩, hx, rfl, h2⟩
      refine ⟨c, f, hkey _ hx, ?_⟩
      intro c' f' h3
      have := h2 ⟨c', f'⟩ (hmem h3) ((hkey _ (hmem h3)).key_unique h3)
      cases this
      exact ⟨rfl, rfl⟩
  · rintro ⟨k, F⟩ he ⟨c, f⟩ hx rfl
    obtain ⟨c', f', h1, ⟨cell, hc, hfk, hlen, hpts⟩, -⟩ := hd _ _ he
    obtain ⟨c'', f'', h2, h3⟩ := (hb _).1 (List.mem_map_of_mem he)
    obtain ⟨a1, a2⟩ := h3 _ _ h1
    obtain ⟨b1, b2⟩ := h3 _ _ (hkey _ hx)
    simp only at b1 b2
    obtain rfl : c' = c := by rw [a1, b1]
    obtain rfl : f' = f := by rw [a2, b2]
    unfold rimNet
    simp only
    rw [hc, Option.map_some, Option.getD_some]
    unfold faceRim
    rw [hfk]
    dsimp only
    congr 3
    refine List.ext_getElem? fun i => ?_
    by_cases hi : i < F.kind.nnode
    · have hlt : faceNode cell.kind f' i < cell.points.length := by
        obtain ⟨cell', h5, h6, h7⟩ := mem_allFaces.1 hx
        rw [hc, Option.some.injEq] at h5
        subst h5
        rw [h.nnode cell (List.mem_of_getElem? hc)]
        exact Shapes.faceNode_lt cell.kind f' h7 i (by rw [← faceKind_nnode _ _ hfk]; exact hi)
      rw [hpts i hi, List.getElem?_map, List.getElem?_range hi, Option.map_some, List.getElem?_eq_getElem hlt, List.getD_eq_getElem _ _ hlt]
    · rw [List.getElem?_eq_none (by omega), List.getElem?_eq_none (by simp; omega)]

/-! ## Solids -/

/-- The sides of the triangles of the output, in terms of the vertices. -/
theorem output_count {m : Mesh ℝ} {surface : List (GeoKind × List Nat)} {label : List Vertex} {xx yy zz : List ℝ} {triangles : List (List Nat)}
    (h : IsTriangulation m surface label xx yy zz triangles) (q r : Nat) :
    (∃ u v, (triangles.flatMap triSides).count (q, r) = ((surfaceTriangles surface).flatMap triSides).count (u, v) ∧
      (triangles.flatMap triSides).count (r, q) = ((surfaceTriangles surface).flatMap triSides).count (v, u)) ∨
    ((triangles.flatMap triSides).count (q, r) = 0 ∧ (triangles.flatMap triSides).count (r, q) = 0) := by
  have hlen : ∀ t ∈ surfaceTriangles surface, t.length = 3 := by
    intro t ht
    unfold surfaceTriangles at ht
    obtain ⟨e, -, he⟩ := List.mem_flatMap.1 ht
    unfold cellTriangles at he
    split_ifs at he
    · obtain ⟨i, -, rfl⟩ := List.mem_map.1 he
      simp
    · simp at he
  have hcount : ∀ (l : List (List Nat)) (l' : List (List Vertex)), List.Forall₂ (List.Forall₂ fun q v => label[q]? = some v) l l' → (∀ t ∈ l', t.length = 3) →
      ((∀ q r u v, label[q]? = some u → label[r]? = some v → (l.flatMap triSides).count (q, r) = (l'.flatMap triSides).count (u, v)) ∧
      ∀ q r, (label.length ≤ q ∨ label.length ≤ r) → (l.flatMap triSides).count (q, r) = 0) := by
    intro l l' hl h3
    induction hl with
    | nil => simp
    | @cons t t' l l' ht hl ih =>
      obtain ⟨ih1, ih2⟩ := ih fun t ht => h3 t (List.mem_cons_of_mem _ ht)
      have h3' := h3 t' (List.mem_cons_self ..)
      match t', t, ht, h3' with
      | [a', b', c'], [a, b, c], .cons ha (.cons hb (.cons hc .nil)), _ =>
        have inj : ∀ {x y : Nat} {u v : Vertex}, label[x]? = some u → label[y]? = some v → (x = y ↔ u = v) := by
          intro x y u v hx hy
          constructor
          · rintro rfl; rw [hx] at hy; exact Option.some.inj hy
          · rintro rfl
            exact (List.getElem?_inj (List.getElem?_eq_some_iff.1 hx).1 h.distinct).1 (hx.trans hy.symm)
        have hlt : ∀ {x : Nat} {u : Vertex}, label[x]? = some u → x < label.length := fun hx => (List.getElem?_eq_some_iff.1 hx).1
        constructor
        · intro q r u v hq hr
          simp only [List.flatMap_cons, List.count_append, ih1 q r u v hq hr, triSides, List.count_cons, List.count_nil, beq_iff_eq, Prod.mk.injEq, inj ha hq, inj hb hq, inj hc hq,
            inj ha hr, inj hb hr, inj hc hr]
        · intro q r hqr
          have := hlt ha
          have := hlt hb
          have := hlt hc
          simp only [List.flatMap_cons, List.count_append, ih2 q r hqr, triSides, List.count_cons, List.count_nil, beq_iff_eq, Prod.mk.injEq]
          rw [if_neg (by omega), if_neg (by omega), if_neg (by omega)]
  obtain ⟨h1, h2⟩ := hcount _ _ h.triangles hlen
  by_cases hq : q < label.length
  · by_cases hr : r < label.length
    · exact .inl ⟨_, _, h1 q r _ _ (List.getElem?_eq_getElem hq) (List.getElem?_eq_getElem hr), h1 r q _ _ (List.getElem?_eq_getElem hr) (List.getElem?_eq_getElem hq)⟩
    · exact .inr ⟨h2 q r (.inr (by omega)), h2 r q (.inl (by omega))⟩
  · exact .inr ⟨h2 q r (.inl (by omega)), h2 r q (.inr (by omega))⟩

/-- The balance of the sides of the triangles of a surface is the one of the rims, with the opposite sign. -/
theorem surface_net (surface : List (GeoKind × List Nat)) (h2 : ∀ cell ∈ surface, cell.1.ndim = 2) (u v : Vertex) :
    net R ((surfaceTriangles surface).flatMap triSides) u v = - (surface.map fun cell => net R ((rim cell.1 cell.2).map (Prod.map Vertex.node Vertex.node)) u v).sum := by
  have key : ∀ n, (∀ cell ∈ surface, cell.1.ndim = 2) → net R (((surface.zipIdx n).flatMap fun e => cellTriangles e.2 e.1).flatMap triSides) u v =
      - (surface.map fun cell => net R ((rim cell.1 cell.2).map (Prod.map Vertex.node Vertex.node)) u v).sum := by
    clear h2
    induction surface with
    | nil => intro n _; simp [net_nil]
    | cons cell l ih =>
      intro n h2
      rw [List.zipIdx_cons, List.flatMap_cons, List.flatMap_append, net_append, ih (n + 1) fun c hc => h2 c (List.mem_cons_of_mem _ hc), cellSides_net n (h2 cell (List.mem_cons_self ..)),
        List.map_cons, List.sum_cons]
      ring
  exact key 0 h2

/-- C73: the triangulated boundary of a mesh in space is a closed surface: if the cells fit together (`OrientedFaces`), every side of a triangle is
used equally often in both directions. -/
theorem C73_closed_oriented {m : Mesh ℝ} {extractAll : Bool} {x : Extracted ℝ} {F : Features} (hF : IsNew m extractAll x F) (h : ValidMesh m) (h3 : m.ndim = 3) (ho : OrientedFaces m)
    (iter : List (FaceKey × Feature) → List (FaceKey × Feature)) (hi : IterOrder iter) (hsmall : 324 * m.cells.length < usizeMax) :
    ∃ tr : TriState, F.triangulate3dBoundary iter = .ok tr ∧ (∀ tri ∈ tr.triangles, tri.length = 3) ∧
      ∀ q r, (tr.triangles.flatMap triSides).count (q, r) = (tr.triangles.flatMap triSides).count (r, q) := by
  obtain ⟨faces, tr, label, h1, h2, hn, hb, hd⟩ := C60_boundary hF h h3 iter hi hsmall
  refine ⟨tr, h1, fun tri ht => ((C59_sizes h2).2.1 tri ht).1, fun q r => ?_⟩
  rcases output_count h2 q r with ⟨u, v, e1, e2⟩ | ⟨e1, e2⟩
  swap
  · rw [e1, e2]
  have hz := boundary_net (R := ℤ) h Vertex.node u v ho.two (by
    intro key c f c' f' k1 k2 k3 cell cell' k4 k5
    rw [net_perm ((ho.opposite key c f c' f' k1 k2 k3 cell cell' k4 k5).map _)]
    have : ((faceRim cell' f').map Prod.swap).map (Prod.map Vertex.node Vertex.node) = ((faceRim cell' f').map (Prod.map Vertex.node Vertex.node)).map Prod.swap := by simp [List.map_map]
    rw [this, net_swap]; ring) faces hn hb hd
  have hs := surface_net (R := ℤ) (faces.map fun e => (e.2.kind, e.2.points)) (by
    intro cell hc
    obtain ⟨e, he, rfl⟩ := List.mem_map.1 hc
    obtain ⟨_, _, _, _, h5⟩ := hd e.1 e.2 he
    exact h5) u v
  rw [List.map_map] at hs
  rw [show ((fun cell : GeoKind × List Nat => net ℤ ((rim cell.1 cell.2).map (Prod.map Vertex.node Vertex.node)) u v) ∘ fun e : FaceKey × Feature => (e.2.kind, e.2.points)) =
    fun e => net ℤ ((rim e.2.kind e.2.points).map (Prod.map Vertex.node Vertex.node)) u v from rfl, hz, neg_zero] at hs
  rw [e1, e2]
  unfold net at hs
  omega

/-- C73: the same without directions: if the cells with a common face agree on the segments at its rim (`MatchingFaces`), every side is used by an even
number of triangles. -/
theorem C73_closed {m : Mesh ℝ} {extractAll : Bool} {x : Extracted ℝ} {F : Features} (hF : IsNew m extractAll x F) (h : ValidMesh m) (h3 : m.ndim = 3) (ho : MatchingFaces m)
    (iter : List (FaceKey × Feature) → List (FaceKey × Feature)) (hi : IterOrder iter) (hsmall : 324 * m.cells.length < usizeMax) :
    ∃ tr : TriState, F.triangulate3dBoundary iter = .ok tr ∧ (∀ tri ∈ tr.triangles, tri.length = 3) ∧
      ∀ q r, Even ((tr.triangles.flatMap triSides).count (q, r) + (tr.triangles.flatMap triSides).count (r, q)) := by
  obtain ⟨faces, tr, label, h1, h2, hn, hb, hd⟩ := C60_boundary hF h h3 iter hi hsmall
  refine ⟨tr, h1, fun tri ht => ((C59_sizes h2).2.1 tri ht).1, fun q r => ?_⟩
  rcases output_count h2 q r with ⟨u, v, e1, e2⟩ | ⟨e1, e2⟩
  swap
  · rw [e1, e2]; exact ⟨0, rfl⟩
  have hz := boundary_net (R := ZMod 2) h Vertex.node u v ho.two (by
    intro key c f c' f' k1 k2 k3 cell cell' k4 k5
    have hp : (((faceRim cell f).map (Prod.map Vertex.node Vertex.node)).map fun s => s(s.1, s.2)).Perm (((faceRim cell' f').map (Prod.map Vertex.node Vertex.node)).map fun s => s(s.1, s.2)) := by
      have := (ho.same key c f c' f' k1 k2 k3 cell cell' k4 k5).map (Sym2.map Vertex.node)
      simpa [List.map_map, Function.comp_def] using this
    rw [net_sym2 hp]
    exact CharTwo.add_self_eq_zero _) faces hn hb hd
  have hs := surface_net (R := ZMod 2) (faces.map fun e => (e.2.kind, e.2.points)) (by
    intro cell hc
    obtain ⟨e, he, rfl⟩ := List.mem_map.1 hc
    obtain ⟨_, _, _, _, h5⟩ := hd e.1 e.2 he
    exact h5) u v
  rw [List.map_map] at hs
  rw [show ((fun cell : GeoKind × List Nat => net (ZMod 2) ((rim cell.1 cell.2).map (Prod.map Vertex.node Vertex.node)) u v) ∘ fun e : FaceKey × Feature => (e.2.kind, e.2.points)) =
    fun e => net (ZMod 2) ((rim e.2.kind e.2.points).map (Prod.map Vertex.node Vertex.node)) u v from rfl, hz, neg_zero] at hs
  rw [e1, e2]
  unfold net at hs
  rw [sub_eq_add_neg, ZMod.neg_eq_self_mod_two, ← Nat.cast_add] at hs
  exact ZMod.natCast_eq_zero_iff_even.1 hs

end Gemlab.Mesh
