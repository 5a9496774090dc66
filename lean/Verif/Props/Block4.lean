import Verif.Props.Block2
import Verif.Proofs.Block9

/-!
# C57: marked edges and faces of the subdivision of a block. C55: the subdivision is unique
-/
namespace Gemlab.Block
noncomputable section
open Classical
open Gemlab.Mesh Gemlab.Shapes

variable {inv : MatInverse} {nrow ndim : Nat} {at_ : Nat → Nat → ℝ} {b : Block} {target : GeoKind}
variable {iterG iterG' : List (Nat × List ℝ) → List (Nat × List ℝ)} {iterC iterC' : List (Nat × Nat) → List (Nat × Nat)}

/-- **C55 (unique).** The subdivision determines the points and the cells of the mesh. -/
theorem C55_unique {M M' : Mesh ℝ} (hM : IsSubdivision b target M) (hM' : IsSubdivision b target M') :
    M.ndim = M'.ndim ∧ M.points = M'.points ∧ M.cells = M'.cells := by
  have hpt : ∀ i j k m, InGrid b i j k → m < target.nnode → ptAt b M i j k m = ptAt b M' i j k m := by
    intro i j k m hg hm
    rw [(hM.node i j k m hg hm).2, (hM'.node i j k m hg hm).2]
  refine ⟨by rw [hM.ndim, hM'.ndim], ?_, ?_⟩
  · apply List.ext_getElem (by rw [hM.npoint, hM'.npoint])
    intro p h1 h2
    obtain ⟨i, j, k, m, hg, hm, hp⟩ := C55_used hM h1
    have c1 := hM.coords i j k m hg hm
    have c2 := hM'.coords i j k m hg hm
    rw [← c2, ← hpt i j k m hg hm, hp] at c1
    unfold coordsOf at c1
    rw [List.getElem?_eq_getElem h1, List.getElem?_eq_getElem h2] at c1
    simp only [Option.map_some, Option.getD_some] at c1
    have p1 := hM.points p _ (List.getElem?_eq_getElem h1)
    have p2 := hM'.points p _ (List.getElem?_eq_getElem h2)
    have ext : ∀ x y : Point ℝ, x.coords = y.coords → x.id = y.id → x.marker = y.marker → x = y := by
      rintro ⟨a1, a2, a3⟩ ⟨b1, b2, b3⟩ e1 e2 e3
      dsimp only at e1 e2 e3
      rw [e1, e2, e3]
    exact ext _ _ c1 (p1.1.trans p2.1.symm) (p1.2.1.trans p2.2.1.symm)
  · apply List.ext_getElem (by rw [hM.ncell, hM'.ncell])
    intro n h1 h2
    obtain ⟨i, j, k, hg, hn⟩ := cellNum_surj (b := b) (n := n) (by rw [hM.ncell] at h1; exact h1)
    obtain ⟨c, c1, c2, c3, c4, c5⟩ := hM.cells i j k hg
    obtain ⟨c', d1, d2, d3, d4, d5⟩ := hM'.cells i j k hg
    have hpts : c.points = c'.points := by
      apply List.ext_getElem (by rw [c5, d5])
      intro m m1 m2
      have := hpt i j k m hg (by omega)
      unfold ptAt at this
      rw [c1, d1] at this
      simpa [List.getD_eq_getElem?_getD, m1, m2] using this
    rw [hn, List.getElem?_eq_getElem h1] at c1
    rw [hn, List.getElem?_eq_getElem h2] at d1
    cases c1; cases d1
    revert hpts c2 c3 c4 d2 d3 d4
    generalize M.cells[n] = x
    generalize M'.cells[n] = y
    obtain ⟨a1, a2, a3, a4⟩ := x
    obtain ⟨b1, b2, b3, b4⟩ := y
    rintro h1 h2 h3 h4 h5 h6 h7
    simp_all

/-- The mesh and its marked edges and faces. -/
theorem subdivide_full (h : Reached inv nrow ndim at_ b) (hf : NotTooFine b) (ht : TargetOk b target) (hI : IterOrder iterG) (hIC : IterOrder iterC)
    {M : Mesh ℝ} (hs : subdivide iterG iterC b target = .ok M) :
    IsSubdivision b target M ∧ M.markedEdges = edgesUpTo b target M (numCells b) ∧ M.markedFaces = facesUpTo b target M (numCells b) := by
  rcases subdivide_spec h.wf (h.ctx hf ht) hI hIC (iterG := iterG) (iterC := iterC) with ⟨M', hM, H, st, hi, rfl⟩ | ⟨⟨e, he⟩, hB⟩
  · rw [hs] at hM; cases hM
    exact ⟨isSubdivision_of_inv (h.ctx hf ht) hi, hi.edges, hi.faces⟩
  · rw [hs] at he; cases he

/-- **C55 (deterministic).** The mesh does not depend on the iteration orders of the hash maps (which are random in Rust). -/
theorem C55_deterministic (h : Reached inv nrow ndim at_ b) (hf : NotTooFine b) (ht : TargetOk b target) (hI : IterOrder iterG) (hIC : IterOrder iterC)
    (hI' : IterOrder iterG') (hIC' : IterOrder iterC') {M : Mesh ℝ} (hs : subdivide iterG iterC b target = .ok M) :
    subdivide iterG' iterC' b target = .ok M := by
  obtain ⟨s1, s2, s3⟩ := subdivide_full h hf ht hI hIC hs
  have hu : ¬ Unmappable nrow ndim at_ b target := by
    intro hu
    obtain ⟨e, he⟩ := (C55_subdivide h hf ht hI hIC).1 hu
    rw [hs] at he; cases he
  obtain ⟨M', hs', -⟩ := (C55_subdivide h hf ht hI' hIC').2 hu
  obtain ⟨t1, t2, t3⟩ := subdivide_full h hf ht hI' hIC' hs'
  obtain ⟨u1, u2, u3⟩ := C55_unique s1 t1
  have e1 : M.markedEdges = M'.markedEdges := by
    rw [s2, t2]; unfold edgesUpTo ptsOf; rw [u3]
  have e2 : M.markedFaces = M'.markedFaces := by
    rw [s3, t3]; unfold facesUpTo ptsOf; rw [u3]
  have ext : ∀ x y : Mesh ℝ, x.ndim = y.ndim → x.points = y.points → x.cells = y.cells → x.markedEdges = y.markedEdges → x.markedFaces = y.markedFaces → x = y := by
    rintro ⟨a1, a2, a3, a4, a5⟩ ⟨b1, b2, b3, b4, b5⟩ e1 e2 e3 e4 e5
    dsimp only at e1 e2 e3 e4 e5
    rw [e1, e2, e3, e4, e5]
  rw [hs', ext _ _ u1 u2 u3 e1 e2]

/-! ## Markers -/

theorem nodup_flatMap_of {α β : Type} (l : List α) (f : α → List β) (hl : l.Nodup) (h1 : ∀ x ∈ l, (f x).Nodup)
    (h2 : ∀ x ∈ l, ∀ y ∈ l, ∀ z, z ∈ f x → z ∈ f y → x = y) : (l.flatMap f).Nodup := by
  rw [List.nodup_flatMap]
  refine ⟨h1, hl.imp_of_mem ?_⟩
  intro x y hx hy hxy z hz hz'
  exact hxy (h2 x hx y hy z hz hz')

/-- One entry, if the side is touched and has a marker. -/
def item {β : Type} (t : Bool) (mk : Option Int) (key : β) : List (Int × β) :=
  if t then (match mk with
    | some m => [(m, key)]
    | none => []) else []

theorem mem_item {β : Type} {t : Bool} {mk : Option Int} {key : β} {x : Int × β} : x ∈ item t mk key ↔ t = true ∧ ∃ m, mk = some m ∧ x = (m, key) := by
  unfold item
  cases t <;> cases mk <;> simp

theorem nodup_item {β : Type} {t : Bool} {mk : Option Int} {key : β} : ((item t mk key).map (·.2)).Nodup := by
  unfold item
  cases t <;> cases mk <;> simp

theorem cellMarkedEdges_eq (nx ny nz i j k : Nat) (pts : List Nat) : cellMarkedEdges b target nx ny nz i j k pts =
    (List.range (if b.ndim = 2 then 4 else 12)).flatMap fun e => item (if b.ndim = 2 then touches2d nx ny i j e else touchesEdge3d nx ny nz i j k e)
      (b.edgeMarkers.get e) (sort2 (pts.getD (edgeNode target e 0) 0) (pts.getD (edgeNode target e 1) 0)) := rfl

theorem cellMarkedFaces_eq (nx ny nz i j k : Nat) (pts : List Nat) : cellMarkedFaces b target nx ny nz i j k pts =
    (List.range 6).flatMap fun f => item (touches3d nx ny nz i j k f) (b.faceMarkers.get f)
      (sort4 (pts.getD (faceNode target f 0) 0) (pts.getD (faceNode target f 1) 0) (pts.getD (faceNode target f 2) 0) (pts.getD (faceNode target f 3) 0)) := rfl

theorem mem_cellMarkedEdges {nx ny nz i j k : Nat} {pts : List Nat} {x : Int × Nat × Nat} :
    x ∈ cellMarkedEdges b target nx ny nz i j k pts ↔ ∃ e < (if b.ndim = 2 then 4 else 12),
      (if b.ndim = 2 then touches2d nx ny i j e else touchesEdge3d nx ny nz i j k e) = true ∧ ∃ mk, b.edgeMarkers.get e = some mk ∧
        x = (mk, sort2 (pts.getD (edgeNode target e 0) 0) (pts.getD (edgeNode target e 1) 0)) := by
  rw [cellMarkedEdges_eq, List.mem_flatMap]
  simp only [List.mem_range, mem_item]

theorem mem_cellMarkedFaces {nx ny nz i j k : Nat} {pts : List Nat} {x : Int × Nat × Nat × Nat × Nat} :
    x ∈ cellMarkedFaces b target nx ny nz i j k pts ↔ ∃ f < 6,
      touches3d nx ny nz i j k f = true ∧ ∃ mk, b.faceMarkers.get f = some mk ∧
        x = (mk, sort4 (pts.getD (faceNode target f 0) 0) (pts.getD (faceNode target f 1) 0) (pts.getD (faceNode target f 2) 0) (pts.getD (faceNode target f 3) 0)) := by
  rw [cellMarkedFaces_eq, List.mem_flatMap]
  simp only [List.mem_range, mem_item]

theorem isMarked_of (h : Reached inv nrow ndim at_ b) (hf : NotTooFine b) (ht : TargetOk b target) {M : Mesh ℝ} (hM : IsSubdivision b target M)
    (hE : M.markedEdges = edgesUpTo b target M (numCells b)) (hF : M.markedFaces = facesUpTo b target M (numCells b)) : IsMarked b target M := by
  have hc := h.ctx hf ht
  have hw := h.wf
  obtain ⟨n1, n2, n3, n4⟩ := num_sides target hc.qh
  rw [hc.ndim] at n1 n2 n3 n4
  have hp : 0 < target.ndim := by rw [hc.ndim]; omega
  have lt : ∀ e < target.nedge, ∀ t < 2, edgeNode target e t < target.nnode := fun e he t ht => (edge_ends target hc.qh e he t ht 0 hp).1
  have ltf : b.ndim = 3 → ∀ f < 6, ∀ t < 4, faceNode target f t < target.nnode := fun h3 f hf t ht =>
    (face_ends target (n2.2 h3) f (by rw [n4 h3]; exact hf) t ht 0 hp).1
  -- edges of a cell, in terms of positions
  have onE : ∀ {i j k e ε}, InGrid b i j k → e < target.nedge → ε < target.nedge →
      ((OnBlockEdge b.ndim e (nodePos b target i j k (edgeNode target ε 0)) ∧ OnBlockEdge b.ndim e (nodePos b target i j k (edgeNode target ε 1))) ↔
        (if b.ndim = 2 then touches2d (ndivAt b 0) (ndivAt b 1) i j e else touchesEdge3d (ndivAt b 0) (ndivAt b 1) (ndivAt b 2) i j k e) = true ∧ ε = e) := by
    intro i j k e ε hg he hε
    rw [onBlockEdge_iff hc hg (lt ε hε 0 (by omega)) he, onBlockEdge_iff hc hg (lt ε hε 1 (by omega)) he]
    have := edge_table target hc.qh e he ε hε
    rw [Bool.eq_iff_iff, Bool.and_eq_true, decide_eq_true_iff] at this
    rw [← this]
    tauto
  have onF : b.ndim = 3 → ∀ {i j k f φ}, InGrid b i j k → f < 6 → φ < 6 →
      ((∀ t < 4, OnBlockFace f (nodePos b target i j k (faceNode target φ t))) ↔
        touches3d (ndivAt b 0) (ndivAt b 1) (ndivAt b 2) i j k f = true ∧ φ = f) := by
    intro h3 i j k f φ hg hf' hφ
    have := face_table target (n2.2 h3) f (by rw [n4 h3]; exact hf') φ (by rw [n4 h3]; exact hφ)
    rw [decide_eq_decide] at this
    rw [← this]
    constructor
    · intro hall
      exact ⟨((onBlockFace_iff hc h3 hg (ltf h3 φ hφ 0 (by omega)) hf').1 (hall 0 (by omega))).1,
        fun t htt => ((onBlockFace_iff hc h3 hg (ltf h3 φ hφ t htt) hf').1 (hall t htt)).2⟩
    · rintro ⟨g1, g2⟩ t htt
      exact (onBlockFace_iff hc h3 hg (ltf h3 φ hφ t htt) hf').2 ⟨g1, g2 t htt⟩
  have ptsAt : ∀ {i j k} (m), (ptsOf M (cellNum b i j k)).getD m 0 = ptAt b M i j k m := fun _ => rfl
  have nz : ∀ {n}, n < numCells b → ∃ i j k, InGrid b i j k ∧ cellNum b i j k = n := fun hn => cellNum_surj hn
  have memE : ∀ {i j k x}, InGrid b i j k → (x ∈ cellMarkedEdges b target (ndivAt b 0) (ndivAt b 1) (ndivAt b 2) (cellNum b i j k % ndivAt b 0)
      (cellNum b i j k / ndivAt b 0 % ndivAt b 1) (cellNum b i j k / ndivAt b 0 / ndivAt b 1) (ptsOf M (cellNum b i j k)) ↔
      ∃ e < target.nedge, (∀ t < 2, OnBlockEdge b.ndim e (nodePos b target i j k (edgeNode target e t))) ∧ ∃ mk, b.edgeMarkers.get e = some mk ∧
        x = (mk, sort2 (ptAt b M i j k (edgeNode target e 0)) (ptAt b M i j k (edgeNode target e 1)))) := by
    intro i j k x hg
    obtain ⟨e1, e2, e3⟩ := ijk_of_num hg
    rw [e1, e2, e3, mem_cellMarkedEdges, ← n1]
    refine exists_congr fun e => and_congr_right fun he => ?_
    rw [ptsAt, ptsAt]
    refine and_congr_left fun _ => ?_
    have := onE hg he he
    rw [and_iff_left rfl] at this
    rw [← this]
    constructor
    · rintro ⟨g0, g1⟩ t htt
      rcases (by omega : t = 0 ∨ t = 1) with rfl | rfl
      exacts [g0, g1]
    · intro g
      exact ⟨g 0 (by omega), g 1 (by omega)⟩
  have memF : ∀ {i j k x}, InGrid b i j k → (x ∈ cellMarkedFaces b target (ndivAt b 0) (ndivAt b 1) (ndivAt b 2) (cellNum b i j k % ndivAt b 0)
      (cellNum b i j k / ndivAt b 0 % ndivAt b 1) (cellNum b i j k / ndivAt b 0 / ndivAt b 1) (ptsOf M (cellNum b i j k)) ↔
      b.ndim = 3 ∧ ∃ f < 6, (∀ t < 4, OnBlockFace f (nodePos b target i j k (faceNode target f t))) ∧ ∃ mk, b.faceMarkers.get f = some mk ∧
        x = (mk, sort4 (ptAt b M i j k (faceNode target f 0)) (ptAt b M i j k (faceNode target f 1)) (ptAt b M i j k (faceNode target f 2))
          (ptAt b M i j k (faceNode target f 3)))) := by
    intro i j k x hg
    obtain ⟨e1, e2, e3⟩ := ijk_of_num hg
    rw [e1, e2, e3, mem_cellMarkedFaces]
    simp only [ptsAt]
    constructor
    · rintro ⟨f, g1, g2, mk, g3, g4⟩
      have h3 := (hw.faceM f mk g3).1
      exact ⟨h3, f, g1, (onF h3 hg g1 g1).2 ⟨g2, rfl⟩, mk, g3, g4⟩
    · rintro ⟨h3, f, g1, g2, mk, g3, g4⟩
      exact ⟨f, g1, ((onF h3 hg g1 g1).1 g2).1, mk, g3, g4⟩
  have shared : ∀ {i j k m i' j' k' m'}, InGrid b i j k → m < target.nnode → InGrid b i' j' k' → m' < target.nnode →
      ptAt b M i j k m = ptAt b M i' j' k' m' → nodePos b target i j k m = nodePos b target i' j' k' m' :=
    fun hg hm hg' hm' he => (C55_shared h hf ht hM hg hm hg' hm').1.1 he
  -- the same key
  have uniqE : ∀ {i j k i' j' k' e e'}, InGrid b i j k → InGrid b i' j' k' → e < target.nedge → e' < target.nedge →
      (∀ t < 2, OnBlockEdge b.ndim e (nodePos b target i j k (edgeNode target e t))) →
      (∀ t < 2, OnBlockEdge b.ndim e' (nodePos b target i' j' k' (edgeNode target e' t))) →
      sort2 (ptAt b M i j k (edgeNode target e 0)) (ptAt b M i j k (edgeNode target e 1)) =
        sort2 (ptAt b M i' j' k' (edgeNode target e' 0)) (ptAt b M i' j' k' (edgeNode target e' 1)) → e = e' ∧ i = i' ∧ j = j' ∧ k = k' := by
    intro i j k i' j' k' e e' hg hg' he he' g g' hk
    have hpq : (ptAt b M i j k (edgeNode target e 0) = ptAt b M i' j' k' (edgeNode target e' 0) ∧ ptAt b M i j k (edgeNode target e 1) = ptAt b M i' j' k' (edgeNode target e' 1)) ∨
        (ptAt b M i j k (edgeNode target e 0) = ptAt b M i' j' k' (edgeNode target e' 1) ∧ ptAt b M i j k (edgeNode target e 1) = ptAt b M i' j' k' (edgeNode target e' 0)) := by
      revert hk
      generalize ptAt b M i j k (edgeNode target e 0) = A
      generalize ptAt b M i j k (edgeNode target e 1) = B
      generalize ptAt b M i' j' k' (edgeNode target e' 0) = C
      generalize ptAt b M i' j' k' (edgeNode target e' 1) = D
      unfold sort2
      intro hk
      split at hk <;> split at hk <;> simp only [Prod.mk.injEq] at hk <;> omega
    have two : ∀ {P : Nat → Prop}, P 0 → P 1 → ∀ t < 2, P t := by
      intro P p0 p1 t htt
      rcases (by omega : t = 0 ∨ t = 1) with rfl | rfl
      exacts [p0, p1]
    have l := lt e he
    have l' := lt e' he'
    have key : e = e' ∧ i = i' ∧ j = j' ∧ (b.ndim = 3 → k = k') := by
      rcases hpq with ⟨q1, q2⟩ | ⟨q1, q2⟩
      · have r1 := shared hg (l 0 (by omega)) hg' (l' 0 (by omega)) q1
        have r2 := shared hg (l 1 (by omega)) hg' (l' 1 (by omega)) q2
        exact edge_unique hc hg hg' he he' g g' (two ⟨0, by omega, r1⟩ ⟨1, by omega, r2⟩) (two ⟨0, by omega, r1.symm⟩ ⟨1, by omega, r2.symm⟩)
      · have r1 := shared hg (l 0 (by omega)) hg' (l' 1 (by omega)) q1
        have r2 := shared hg (l 1 (by omega)) hg' (l' 0 (by omega)) q2
        exact edge_unique hc hg hg' he he' g g' (two ⟨1, by omega, r1⟩ ⟨0, by omega, r2⟩) (two ⟨1, by omega, r2.symm⟩ ⟨0, by omega, r1.symm⟩)
    refine ⟨key.1, key.2.1, key.2.2.1, ?_⟩
    rcases hw.dims with hd | hd
    · have g1 := hg.2.2
      have g2 := hg'.2.2
      unfold ndivAt at g1 g2
      rw [if_neg (by omega)] at g1 g2
      omega
    · exact key.2.2.2 hd
  have uniqF : b.ndim = 3 → ∀ {i j k i' j' k' f f'}, InGrid b i j k → InGrid b i' j' k' → f < 6 → f' < 6 →
      (∀ t < 4, OnBlockFace f' (nodePos b target i' j' k' (faceNode target f' t))) →
      sort4 (ptAt b M i j k (faceNode target f 0)) (ptAt b M i j k (faceNode target f 1)) (ptAt b M i j k (faceNode target f 2))
          (ptAt b M i j k (faceNode target f 3)) =
        sort4 (ptAt b M i' j' k' (faceNode target f' 0)) (ptAt b M i' j' k' (faceNode target f' 1)) (ptAt b M i' j' k' (faceNode target f' 2))
          (ptAt b M i' j' k' (faceNode target f' 3)) → f = f' ∧ i = i' ∧ j = j' ∧ k = k' := by
    intro h3 i j k i' j' k' f f' hg hg' hf1 hf2 g' hk
    have p1 := ((sort4_eq_iff _ _ _ _ _).1 hk).2
    have p2 := ((sort4_eq_iff _ _ _ _ _).1 (rfl : sort4 (ptAt b M i' j' k' (faceNode target f' 0)) (ptAt b M i' j' k' (faceNode target f' 1)) (ptAt b M i' j' k' (faceNode target f' 2))
          (ptAt b M i' j' k' (faceNode target f' 3)) = _)).2
    have perm := p1.symm.trans p2
    have toT : ∀ {i j k f x}, x ∈ [ptAt b M i j k (faceNode target f 0), ptAt b M i j k (faceNode target f 1), ptAt b M i j k (faceNode target f 2),
        ptAt b M i j k (faceNode target f 3)] → ∃ t < 4, x = ptAt b M i j k (faceNode target f t) := by
      intro i j k f x hx
      simp only [List.mem_cons, List.not_mem_nil, or_false] at hx
      rcases hx with rfl | rfl | rfl | rfl
      exacts [⟨0, by omega, rfl⟩, ⟨1, by omega, rfl⟩, ⟨2, by omega, rfl⟩, ⟨3, by omega, rfl⟩]
    have ofT : ∀ {i j k f t}, t < 4 → ptAt b M i j k (faceNode target f t) ∈ [ptAt b M i j k (faceNode target f 0), ptAt b M i j k (faceNode target f 1),
        ptAt b M i j k (faceNode target f 2), ptAt b M i j k (faceNode target f 3)] := by
      intro i j k f t htt
      rcases (by omega : t = 0 ∨ t = 1 ∨ t = 2 ∨ t = 3) with rfl | rfl | rfl | rfl <;> simp
    refine face_unique hc h3 hg hg' hf1 hf2 g' ?_ ?_
    · intro t htt
      obtain ⟨t', r1, r2⟩ := toT (perm.subset (ofT htt))
      exact ⟨t', r1, shared hg (ltf h3 f hf1 t htt) hg' (ltf h3 f' hf2 t' r1) r2⟩
    · intro t htt
      obtain ⟨t', r1, r2⟩ := toT (perm.symm.subset (ofT htt))
      exact ⟨t', r1, shared hg' (ltf h3 f' hf2 t htt) hg (ltf h3 f hf1 t' r1) r2⟩
  refine ⟨?_, ?_, ?_, ?_⟩
  · intro mk p q
    rw [hE]
    unfold edgesUpTo
    rw [List.mem_flatMap]
    constructor
    · rintro ⟨n, hn, hx⟩
      obtain ⟨i, j, k, hg, rfl⟩ := nz (List.mem_range.1 hn)
      obtain ⟨e, he, g, mk', h3, h4⟩ := (memE hg).1 hx
      rw [Prod.mk.injEq] at h4
      rw [← h4.1] at h3
      exact ⟨e, i, j, k, e, h3, hg, he, g 0 (by omega), g 1 (by omega), h4.2⟩
    · rintro ⟨e, i, j, k, ε, h3, hg, hε, g0, g1, hk⟩
      have he : e < target.nedge := by rw [n1]; exact hw.edgeM e mk h3
      obtain ⟨-, rfl⟩ := (onE hg he hε).1 ⟨g0, g1⟩
      refine ⟨cellNum b i j k, List.mem_range.2 (cellNum_lt hg), (memE hg).2 ⟨ε, hε, ?_, mk, h3, by rw [hk]⟩⟩
      intro t htt
      rcases (by omega : t = 0 ∨ t = 1) with rfl | rfl
      exacts [g0, g1]
  · rw [hE]
    unfold edgesUpTo
    rw [List.map_flatMap]
    refine nodup_flatMap_of _ _ List.nodup_range ?_ ?_
    · intro n hn
      obtain ⟨i, j, k, hg, rfl⟩ := nz (List.mem_range.1 hn)
      obtain ⟨e1, e2, e3⟩ := ijk_of_num hg
      rw [e1, e2, e3]
      rw [cellMarkedEdges_eq, List.map_flatMap, ← n1]
      refine nodup_flatMap_of _ _ List.nodup_range ?_ ?_
      · intro e he
        exact nodup_item
      · intro e he e' he' x hx hx'
        rw [List.mem_range] at he he'
        obtain ⟨y, hy, rfl⟩ := List.mem_map.1 hx
        obtain ⟨y', hy', hk⟩ := List.mem_map.1 hx'
        obtain ⟨q1, mk, q3, rfl⟩ := mem_item.1 hy
        obtain ⟨r1, mk', r3, rfl⟩ := mem_item.1 hy'
        have two : ∀ {P : Nat → Prop}, P 0 ∧ P 1 → ∀ t < 2, P t := by
          rintro P ⟨p0, p1⟩ t htt
          rcases (by omega : t = 0 ∨ t = 1) with rfl | rfl
          exacts [p0, p1]
        exact (uniqE hg hg he he' (two ((onE hg he he).2 ⟨q1, rfl⟩)) (two ((onE hg he' he').2 ⟨r1, rfl⟩)) hk.symm).1
    · intro n hn n' hn' x hx hx'
      obtain ⟨i, j, k, hg, rfl⟩ := nz (List.mem_range.1 hn)
      obtain ⟨i', j', k', hg', rfl⟩ := nz (List.mem_range.1 hn')
      obtain ⟨y, hy, rfl⟩ := List.mem_map.1 hx
      obtain ⟨y', hy', he⟩ := List.mem_map.1 hx'
      obtain ⟨e, q1, q2, mk, q3, rfl⟩ := (memE hg).1 hy
      obtain ⟨e', r1, r2, mk', r3, rfl⟩ := (memE hg').1 hy'
      obtain ⟨-, rfl, rfl, rfl⟩ := uniqE hg hg' q1 r1 q2 r2 he.symm
      rfl
  · rintro mk key
    rw [hF]
    unfold facesUpTo
    rw [List.mem_flatMap]
    constructor
    · rintro ⟨n, hn, hx⟩
      obtain ⟨i, j, k, hg, rfl⟩ := nz (List.mem_range.1 hn)
      obtain ⟨h3, f, he, g, mk', g3, g4⟩ := (memF hg).1 hx
      rw [Prod.mk.injEq] at g4
      rw [← g4.1] at g3
      exact ⟨h3, f, i, j, k, f, g3, hg, by rw [n4 h3]; exact he, g, g4.2⟩
    · rintro ⟨h3, f, i, j, k, φ, g3, hg, hφ, g, hk⟩
      rw [n4 h3] at hφ
      have hf1 := (hw.faceM f mk g3).2
      obtain ⟨-, rfl⟩ := (onF h3 hg hf1 hφ).1 g
      exact ⟨cellNum b i j k, List.mem_range.2 (cellNum_lt hg), (memF hg).2 ⟨h3, φ, hφ, g, mk, g3, by rw [hk]⟩⟩
  · rw [hF]
    unfold facesUpTo
    rw [List.map_flatMap]
    refine nodup_flatMap_of _ _ List.nodup_range ?_ ?_
    · intro n hn
      obtain ⟨i, j, k, hg, rfl⟩ := nz (List.mem_range.1 hn)
      obtain ⟨e1, e2, e3⟩ := ijk_of_num hg
      rw [e1, e2, e3]
      rw [cellMarkedFaces_eq, List.map_flatMap]
      refine nodup_flatMap_of _ _ List.nodup_range ?_ ?_
      · intro e he
        exact nodup_item
      · intro e he e' he' x hx hx'
        rw [List.mem_range] at he he'
        obtain ⟨y, hy, rfl⟩ := List.mem_map.1 hx
        obtain ⟨y', hy', hk⟩ := List.mem_map.1 hx'
        obtain ⟨q1, mk, q3, rfl⟩ := mem_item.1 hy
        obtain ⟨r1, mk', r3, rfl⟩ := mem_item.1 hy'
        have h3 := (hw.faceM _ _ q3).1
        exact (uniqF h3 hg hg he he' ((onF h3 hg he' he').2 ⟨r1, rfl⟩) hk.symm).1
    · intro n hn n' hn' x hx hx'
      obtain ⟨i, j, k, hg, rfl⟩ := nz (List.mem_range.1 hn)
      obtain ⟨i', j', k', hg', rfl⟩ := nz (List.mem_range.1 hn')
      obtain ⟨y, hy, rfl⟩ := List.mem_map.1 hx
      obtain ⟨y', hy', he⟩ := List.mem_map.1 hx'
      obtain ⟨h3, e, q1, q2, mk, q3, rfl⟩ := (memF hg).1 hy
      obtain ⟨-, e', r1, r2, mk', r3, rfl⟩ := (memF hg').1 hy'
      obtain ⟨-, rfl, rfl, rfl⟩ := uniqF h3 hg hg' q1 r1 r2 he.symm
      rfl

/-- **C57 (marked edges and faces).** The marked edges (faces) of a subdivision are the edges (faces) of cells that are on the edges
(faces) of the block with a marker; none is repeated. -/
theorem C57_marked (h : Reached inv nrow ndim at_ b) (hf : NotTooFine b) (ht : TargetOk b target) (hI : IterOrder iterG) (hIC : IterOrder iterC)
    {M : Mesh ℝ} (hs : subdivide iterG iterC b target = .ok M) : IsMarked b target M := by
  obtain ⟨s1, s2, s3⟩ := subdivide_full h hf ht hI hIC hs
  exact isMarked_of h hf ht s1 s2 s3

/-- **C57 (markers of the block).** `set_edge_marker` and `set_face_marker`: which indices are accepted, and that only the marker of the
given edge (face) changes. -/
theorem C57_set_edge_marker (h : Reached inv nrow ndim at_ b) (e : Nat) (v : Int) :
    (e < (if ndim = 2 then 4 else 12) → (setEdgeMarker b e v).2 = .ok () ∧ (setEdgeMarker b e v).1 = { b with edgeMarkers := (setEdgeMarker b e v).1.edgeMarkers } ∧
      ∀ e', (setEdgeMarker b e v).1.edgeMarkers.get e' = if e' = e then some v else b.edgeMarkers.get e') ∧
    (¬ e < (if ndim = 2 then 4 else 12) → ∃ msg, setEdgeMarker b e v = (b, .err msg)) := by
  have hn := h.wf.ndim_eq
  have hd := h.wf.dims
  rw [hn] at hd
  unfold setEdgeMarker
  rw [hn]
  constructor
  · intro he
    rw [if_neg (by rintro ⟨h1, h2⟩; rw [if_pos h1] at he; omega), if_neg (by rintro ⟨h1, h2⟩; rw [if_neg h1] at he; omega)]
    exact ⟨rfl, rfl, fun e' => HMap.get_insert _ _ _ _⟩
  · intro he
    rcases hd with hd | hd
    · rw [if_pos hd] at he
      rw [if_pos ⟨hd, by omega⟩]
      exact ⟨_, rfl⟩
    · rw [if_neg (by omega)] at he
      rw [if_neg (by omega), if_pos ⟨by omega, by omega⟩]
      exact ⟨_, rfl⟩

theorem C57_set_face_marker (h : Reached inv nrow ndim at_ b) (f : Nat) (v : Int) :
    (ndim = 3 ∧ f < 6 → (setFaceMarker b f v).2 = .ok () ∧ (setFaceMarker b f v).1 = { b with faceMarkers := (setFaceMarker b f v).1.faceMarkers } ∧
      ∀ f', (setFaceMarker b f v).1.faceMarkers.get f' = if f' = f then some v else b.faceMarkers.get f') ∧
    (¬ (ndim = 3 ∧ f < 6) → ∃ msg, setFaceMarker b f v = (b, .err msg)) := by
  have hn := h.wf.ndim_eq
  unfold setFaceMarker
  rw [hn]
  constructor
  · rintro ⟨h1, h2⟩
    rw [if_neg (by omega), if_neg (by omega)]
    exact ⟨rfl, rfl, fun e' => HMap.get_insert _ _ _ _⟩
  · intro he
    by_cases h1 : ndim = 3
    · rw [if_neg (by omega), if_pos (by omega)]
      exact ⟨_, rfl⟩
    · rw [if_pos h1]
      exact ⟨_, rfl⟩

/-! ## Number of points -/

theorem left_inj (hc : Ctx b target) {a : Nat} (ha : a < b.ndim) {i i' : Nat} (hi : i ≤ ndivAt b a) (hi' : i' ≤ ndivAt b a) (h : left b a i = left b a i') : i = i' := by
  have key : ∀ {i i' : Nat}, i < i' → i' ≤ ndivAt b a → left b a i < left b a i' := by
    intro i i' h1 h2
    obtain ⟨d, rfl⟩ := Nat.exists_eq_add_of_lt h1
    have := left_mono_aux (hc.dir a ha) (i := i) (d + 1) (by omega)
    have h3 : (0 : ℝ) < ((d + 1 : Nat) : ℝ) * (7 / 10 ^ 4) := by positivity
    rw [← add_assoc] at this
    linarith
  rcases lt_trichotomy i i' with g | g | g
  · exact absurd h (key g hi').ne
  · exact g
  · exact absurd h.symm (key g hi).ne

theorem corner_table (k : GeoKind) (hk : k = .qua4 ∨ k = .hex8) : (∀ m < k.nnode, ∀ a < k.ndim, refCoordQ k m a = -1 ∨ refCoordQ k m a = 1) ∧
    ∀ s ∈ [(-1 : ℚ), 1], ∀ t ∈ [(-1 : ℚ), 1], ∀ u ∈ [(-1 : ℚ), 1], ∃ m < k.nnode, refCoordQ k m 0 = s ∧ refCoordQ k m 1 = t ∧ (k.ndim = 3 → refCoordQ k m 2 = u) := by
  rcases hk with rfl | rfl <;> decide +kernel

/-- The position of a vertex of the grid of divisions. -/
def vertexPos (b : Block) (v : Nat × Nat × Nat) : List ℝ := (List.range b.ndim).map fun a => left b a (pick v.1 v.2.1 v.2.2 a)

theorem isNode_corner (hc : Ctx b target) (hk : target = .qua4 ∨ target = .hex8) (ξ : List ℝ) :
    IsNode b target ξ ↔ ∃ v : Nat × Nat × Nat, v.1 ≤ ndivAt b 0 ∧ v.2.1 ≤ ndivAt b 1 ∧ (if b.ndim = 2 then v.2.2 = 0 else v.2.2 ≤ ndivAt b 2) ∧ ξ = vertexPos b v := by
  obtain ⟨t1, t2⟩ := corner_table target hk
  have hd := hc.dims
  constructor
  · rintro ⟨i, j, k, m, hg, hm, rfl⟩
    have hg' := hg
    obtain ⟨g0, g1, g2⟩ := hg'
    let up : Nat → Nat := fun a => if refCoordQ target m a = -1 then 0 else 1
    refine ⟨(i + up 0, j + up 1, if b.ndim = 2 then 0 else k + up 2), ?_, ?_, ?_, ?_⟩
    · dsimp only [up]; split <;> omega
    · dsimp only [up]; split <;> omega
    · dsimp only [up]
      split
      · rfl
      · split <;> omega
    · apply ext_getD (by rw [length_nodePos]; simp [vertexPos])
      intro a ha
      rw [length_nodePos] at ha
      rw [getD_nodePos ha]
      unfold vertexPos
      rw [getD_map_range ha]
      have e : pick (i + up 0) (j + up 1) (if b.ndim = 2 then 0 else k + up 2) a = pick i j k a + up a := by
        unfold pick
        rcases (by omega : a = 0 ∨ a = 1 ∨ a = 2) with rfl | rfl | rfl
        · rfl
        · rfl
        · simp [show ¬ b.ndim = 2 by omega]
      dsimp only
      rw [e]
      unfold pos
      rcases t1 m hm a (hc.ndim ▸ ha) with g | g
      · rw [rr_zero.2 g, show up a = 0 from if_pos g]; simp
      · rw [rr_one.2 g, show up a = 1 from if_neg (by rw [g]; norm_num), left_succ]; ring
  · rintro ⟨⟨x, y, z⟩, h0, h1, h2, rfl⟩
    dsimp only at h0 h1 h2
    -- the cell and the corner along one direction
    have cut : ∀ {a x : Nat}, a < b.ndim → x ≤ ndivAt b a → ∃ c < ndivAt b a, ∃ s ∈ [(-1 : ℚ), 1], left b a x = pos b a c ((1 + s) / 2) := by
      intro a x ha hx
      have hp := (hc.dir a ha).pos
      by_cases hlt : x < ndivAt b a
      · exact ⟨x, hlt, -1, by simp, by unfold pos; push_cast; ring⟩
      · refine ⟨x - 1, by omega, 1, by simp, ?_⟩
        unfold pos
        have := left_succ b a (x - 1)
        rw [show x - 1 + 1 = x by omega] at this
        rw [this]; push_cast; ring
    obtain ⟨i, hi, s, hs, es⟩ := cut (a := 0) (by omega) h0
    obtain ⟨j, hj, t, ht, et⟩ := cut (a := 1) (by omega) h1
    have hz : ∃ k < ndivAt b 2, ∃ u ∈ [(-1 : ℚ), 1], b.ndim = 3 → left b 2 z = pos b 2 k ((1 + u) / 2) := by
      rcases hd with hd | hd
      · exact ⟨0, by unfold ndivAt; rw [if_neg (by omega)]; omega, 1, by simp, fun h => by omega⟩
      · rw [if_neg (by omega)] at h2
        obtain ⟨k, hk, u, hu, e⟩ := cut (a := 2) (by omega) h2
        exact ⟨k, hk, u, hu, fun _ => e⟩
    obtain ⟨k, hk', u, hu, eu⟩ := hz
    obtain ⟨m, hm, m0, m1, m2⟩ := t2 s hs t ht u hu
    refine ⟨i, j, k, m, ⟨hi, hj, hk'⟩, hm, ?_⟩
    apply ext_getD (by rw [length_nodePos]; simp [vertexPos])
    intro a ha
    have ha : a < b.ndim := by simpa [vertexPos] using ha
    rw [getD_nodePos ha]
    unfold vertexPos
    rw [getD_map_range ha]
    dsimp only
    unfold pick rr refCoord
    rcases (by omega : a = 0 ∨ a = 1 ∨ a = 2) with rfl | rfl | rfl
    · rw [m0]; exact es
    · rw [m1]; exact et
    · rw [m2 (by rw [hc.ndim]; omega)]; exact eu (by omega)

/-- **C55 (number of points).** With `Qua4` or `Hex8` cells, the number of points is the product of the numbers of divisions plus one. -/
theorem C55_npoint (h : Reached inv nrow ndim at_ b) (hf : NotTooFine b) (ht : TargetOk b target) (hk : target = .qua4 ∨ target = .hex8) {M : Mesh ℝ}
    (hM : IsSubdivision b target M) :
    M.points.length = (ndivAt b 0 + 1) * ((ndivAt b 1 + 1) * (if ndim = 2 then 1 else ndivAt b 2 + 1)) := by
  have hc := h.ctx hf ht
  rw [hM.npoint]
  have hnd : (nodeList b target (numCells b)).Nodup := nodup_distinctFrom [] ((List.range (numCells b)).flatMap (cellPositions b target)) List.nodup_nil
  rw [← List.toFinset_card_of_nodup hnd]
  have e : (nodeList b target (numCells b)).toFinset =
      (Finset.range (ndivAt b 0 + 1) ×ˢ (Finset.range (ndivAt b 1 + 1) ×ˢ Finset.range (if ndim = 2 then 1 else ndivAt b 2 + 1))).image (vertexPos b) := by
    ext ξ
    rw [List.mem_toFinset, mem_nodeList, isNode_corner hc hk, Finset.mem_image]
    refine exists_congr fun v => ?_
    rw [Finset.mem_product, Finset.mem_product, Finset.mem_range, Finset.mem_range, Finset.mem_range, ← h.wf.ndim_eq]
    split
    · constructor
      · rintro ⟨a1, a2, a3, rfl⟩; exact ⟨⟨by omega, by omega, by omega⟩, rfl⟩
      · rintro ⟨⟨a1, a2, a3⟩, rfl⟩; exact ⟨by omega, by omega, by omega, rfl⟩
    · constructor
      · rintro ⟨a1, a2, a3, rfl⟩; exact ⟨⟨by omega, by omega, by omega⟩, rfl⟩
      · rintro ⟨⟨a1, a2, a3⟩, rfl⟩; exact ⟨by omega, by omega, by omega, rfl⟩
  rw [e, Finset.card_image_of_injOn, Finset.card_product, Finset.card_product, Finset.card_range, Finset.card_range, Finset.card_range]
  rintro ⟨x, y, z⟩ hv ⟨x', y', z'⟩ hv' he
  simp only [Finset.coe_product, Finset.coe_range, Set.mem_prod, Set.mem_Iio] at hv hv'
  have comp : ∀ a < b.ndim, left b a (pick x y z a) = left b a (pick x' y' z' a) := by
    intro a ha
    have : (vertexPos b (x, y, z)).getD a 0 = (vertexPos b (x', y', z')).getD a 0 := by rw [he]
    unfold vertexPos at this
    rw [getD_map_range ha, getD_map_range ha] at this
    exact this
  have hd := hc.dims
  have e0 : x = x' := left_inj hc (a := 0) (by omega) (by omega) (by omega) (comp 0 (by omega))
  have e1 : y = y' := left_inj hc (a := 1) (by omega) (by omega) (by omega) (comp 1 (by omega))
  have e2 : z = z' := by
    rw [← h.wf.ndim_eq] at hv hv'
    rcases hd with hd | hd
    · rw [if_pos hd] at hv hv'
      omega
    · rw [if_neg (by omega)] at hv hv'
      exact left_inj hc (a := 2) (by omega) (by omega) (by omega) (comp 2 (by omega))
  rw [e0, e1, e2]

/-- **C56 (`set_transform_into_ring`).** It accepts exactly increasing limits with angles between 0 and π/2; then it stores them. Otherwise
nothing is changed. (The radii are not checked to be positive.) `None` returns to the isoparametric map. -/
theorem C56_set_ring (b : Block) (A : ArgsRing) :
    ((A.amin < A.amax ∧ A.rmin < A.rmax ∧ A.zmin < A.zmax ∧ 0 ≤ A.amin ∧ A.amax ≤ Real.pi / 2) →
      setTransformIntoRing b (some A) = ({ b with argsRing := A, transformIntoRing := true }, .ok ())) ∧
    (¬ (A.amin < A.amax ∧ A.rmin < A.rmax ∧ A.zmin < A.zmax ∧ 0 ≤ A.amin ∧ A.amax ≤ Real.pi / 2) → ∃ e, setTransformIntoRing b (some A) = (b, .err e)) ∧
    setTransformIntoRing b none = ({ b with transformIntoRing := false }, .ok ()) := by
  refine ⟨?_, ?_, rfl⟩
  · rintro ⟨h1, h2, h3, h4, h5⟩
    unfold setTransformIntoRing
    dsimp only
    have hp := Real.pi_pos
    rw [if_neg (by linarith), if_neg (by linarith), if_neg (by linarith), if_neg (by rintro (h | h) <;> linarith), if_neg (by rintro (h | h) <;> linarith)]
  · intro hn
    unfold setTransformIntoRing
    dsimp only
    split
    · exact ⟨_, rfl⟩
    split
    · exact ⟨_, rfl⟩
    split
    · exact ⟨_, rfl⟩
    split
    · exact ⟨_, rfl⟩
    split
    · exact ⟨_, rfl⟩
    rename_i h1 h2 h3 h4 h5
    push Not at h1 h2 h3 h4 h5
    exact absurd ⟨h1, h2, h3, h4.1, h5.2⟩ hn

end
end Gemlab.Block
