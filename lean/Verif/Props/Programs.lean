import Verif.Spec.Programs
import Verif.Props.MeshText
import Verif.Props.Paraview
import Verif.Props.FromBlocks
import Verif.Props.Json2
import Verif.Proofs.Unstructured

/-! # C81: the programs that make meshes of blocks -/
namespace Gemlab.Programs
noncomputable section
open Gemlab Gemlab.Mesh Gemlab.Shapes Gemlab.MeshText Gemlab.Draw

variable {F : MeshJson.JsonFloat ℝ} {ft : FloatText ℝ} {inv : MatInverse} {o : Structured.GenOrders} {d : DrawOrders}

theorem after_ok {α : Type} {r : Res α} {a : α} (h : r = .ok a) (k : α → Run) : after r k = k a := by subst h; rfl

theorem after_nothing {α : Type} {r : Res α} (h : ∀ a, r ≠ .ok a) (k : α → Run) : Nothing (after r k) := by
  unfold Nothing after
  cases r with
  | ok a => exact absurd rfl (h a)
  | err e => exact ⟨rfl, by simp⟩
  | panic => exact ⟨rfl, by simp⟩

/-- **C81.** The number of nodes selects the quadrilateral (hexahedron) with this number of nodes, and a VTU file is made if and only if the cell has a type in the VTK format;
other numbers are rejected. -/
theorem C81_targets (n : Nat) (k : GeoKind) (v : Bool) :
    (quaTarget n = .ok (k, v) ↔ k.classOf = .qua ∧ k.nnode = n ∧ (v = true ↔ HasVtk k)) ∧
    (hexTarget n = .ok (k, v) ↔ k.classOf = .hex ∧ k.nnode = n ∧ (v = true ↔ HasVtk k)) := by
  have hv : HasVtk k ↔ k.vtkType ≠ none := by
    unfold HasVtk
    cases k <;> decide +kernel
  rw [hv]
  constructor
  · constructor
    · intro h
      unfold quaTarget at h
      by_cases h1 : n = 4
      · rw [if_pos h1] at h; cases h; subst h1; decide
      rw [if_neg h1] at h
      by_cases h1 : n = 8
      · rw [if_pos h1] at h; cases h; subst h1; decide
      rw [if_neg h1] at h
      by_cases h1 : n = 9
      · rw [if_pos h1] at h; cases h; subst h1; decide
      rw [if_neg h1] at h
      by_cases h1 : n = 12
      · rw [if_pos h1] at h; cases h; subst h1; decide
      rw [if_neg h1] at h
      by_cases h1 : n = 16
      · rw [if_pos h1] at h; cases h; subst h1; decide
      rw [if_neg h1] at h
      by_cases h1 : n = 17
      · rw [if_pos h1] at h; cases h; subst h1; decide
      rw [if_neg h1] at h
      cases h
    · rintro ⟨h1, rfl, h3⟩
      cases k <;> first | exact absurd h1 (by decide) | (cases v <;> first | rfl | exact absurd h3 (by decide))
  · constructor
    · intro h
      unfold hexTarget at h
      by_cases h1 : n = 8
      · rw [if_pos h1] at h; cases h; subst h1; decide
      rw [if_neg h1] at h
      by_cases h1 : n = 20
      · rw [if_pos h1] at h; cases h; subst h1; decide
      rw [if_neg h1] at h
      by_cases h1 : n = 32
      · rw [if_pos h1] at h; cases h; subst h1; decide
      rw [if_neg h1] at h
      cases h
    · rintro ⟨h1, rfl, h3⟩
      cases k <;> first | exact absurd h1 (by decide) | (cases v <;> first | rfl | exact absurd h3 (by decide))

/-- The files for a consistent mesh with cells of kind `k`. -/
theorem save_delivers (opt : BlockOptions) {k : GeoKind} {v : Bool} (hv : v = true ↔ HasVtk k) {M : Mesh ℝ} (hM : ValidMesh M) (hd : M.ndim = 2 ∨ M.ndim = 3)
    (hk : ∀ c ∈ M.cells, c.kind = k) (hc : M.cells ≠ []) (hf : LosslessOn ft M) (hr : MachineRange M) :
    ((opt.svgFigure = true → ∃ l, drawAll d { newDraw with showPointDots := opt.showPoints } M = .ok l) → Delivers ft d opt.drawing k M (save ft d opt v M)) ∧
    ∃ t, MeshText.read ft t = .ok M ∧ (save ft d opt v M).products.head? = some (.msh t) := by
  have hw : WellFormed M := ⟨hd, hM.pointIds, hM.coords, hM.cellIds, hM.nnode⟩
  have hp : M.points ≠ [] := by
    obtain ⟨c, hcc⟩ := List.exists_mem_of_ne_nil _ hc
    have hl := hM.nnode c hcc
    have : 0 < c.kind.nnode := by cases c.kind <;> decide
    obtain ⟨q, hq⟩ := List.exists_mem_of_ne_nil c.points (by intro h; rw [h] at hl; simp at hl; omega)
    have := hM.inRange c hcc q hq
    intro h
    rw [h] at this
    simp at this
  obtain ⟨t, ht, hread⟩ := Props.MeshText.C17_write_read ft M hw hf hr hc hp
  have hvt : HasVtk k → ∃ w, Paraview.writeVtu ft M = .ok w := fun h =>
    (Props.Paraview.C61_outcome ft M hc fun p hp => (hM.coords p hp).ge).1.2 fun c hcc => by rw [hk c hcc]; exact h
  unfold save
  rw [after_ok ht]
  refine ⟨fun hl => ?_, t, hread, rfl⟩
  have hfig : ∃ svgs, (if opt.svgFigure then after (drawAll d { newDraw with showPointDots := opt.showPoints } M) fun l => writing (.svg l) done else done) =
      ⟨svgs, .ok ()⟩ ∧ ((∃ c l, opt.drawing = some c ∧ svgs = [.svg l] ∧ drawAll d c M = .ok l) ∨ (opt.drawing = none ∧ svgs = [])) := by
    unfold BlockOptions.drawing
    by_cases hs : opt.svgFigure = true
    · obtain ⟨l, hl⟩ := hl hs
      rw [if_pos hs, if_pos hs, after_ok hl]
      exact ⟨_, rfl, .inl ⟨_, l, rfl, rfl, hl⟩⟩
    · rw [if_neg hs, if_neg hs]
      exact ⟨_, rfl, .inr ⟨rfl, rfl⟩⟩
  obtain ⟨svgs, e1, e2⟩ := hfig
  rw [e1]
  by_cases h : v = true
  · obtain ⟨w, hw⟩ := hvt (hv.1 h)
    rw [if_pos h, after_ok hw]
    exact ⟨t, [.vtu w], svgs, rfl, rfl, ht, hread, .inl ⟨hv.1 h, w, rfl, hw⟩, e2⟩
  · rw [if_neg h]
    exact ⟨t, [], svgs, rfl, rfl, ht, hread, .inr ⟨fun hh => h (hv.2 hh), rfl⟩, e2⟩

/-- Renumbering keeps a mesh consistent. -/
theorem valid_renumbered {M M' : Mesh ℝ} (h : ValidMesh M) (hR : Unstructured.IsRenumbered M M') : ValidMesh M' := by
  obtain ⟨map, hp, hl, hpt, hc⟩ := hR.perm
  have hlen : map.length = M.points.length := by simpa using hp.length_eq
  have hpoint : ∀ (j : Nat) p, M'.points[j]? = some p → p.id = j ∧ p.coords.length = M.ndim := by
    intro j p hj
    have hjl : j < M.points.length := by rw [← hl]; exact (List.getElem?_eq_some_iff.1 hj).1
    obtain ⟨i, hi, e⟩ := List.getElem_of_mem (hp.mem_iff.2 (List.mem_range.2 hjl))
    have hi' : i < M.points.length := by omega
    have := hpt i _ j (List.getElem?_eq_getElem hi') (by rw [List.getElem?_eq_getElem hi, e])
    rw [hj] at this
    cases this
    exact ⟨rfl, h.coords (M.points[i]) (List.getElem_mem hi')⟩
  refine ⟨fun p hp => ?_, fun i p hi => (hpoint i p hi).1, fun i c hi => ?_, fun c hcc => ?_, fun c hcc q hq => ?_⟩
  · obtain ⟨j, hj, rfl⟩ := List.getElem_of_mem hp
    rw [hR.ndim]
    exact (hpoint j _ (List.getElem?_eq_getElem hj)).2
  · rw [hc, List.getElem?_map] at hi
    obtain ⟨c', h1, rfl⟩ := Option.map_eq_some_iff.1 hi
    exact h.cellIds i c' h1
  · rw [hc] at hcc
    obtain ⟨c', h1, rfl⟩ := List.mem_map.1 hcc
    simpa using h.nnode c' h1
  · rw [hc] at hcc
    obtain ⟨c', h1, rfl⟩ := List.mem_map.1 hcc
    obtain ⟨q', h2, rfl⟩ := List.mem_map.1 hq
    have := h.inRange c' h1 q' h2
    rw [List.getD_eq_getElem _ _ (by omega), hl]
    exact List.mem_range.1 (hp.mem_iff.1 (List.getElem_mem _))

/-- **C81 (rejections).** `qua2msh` (`hex2msh`) writes nothing and does not succeed if the input file is not one of the data of blocks, if there is no quadrilateral
(hexahedron) with the number of nodes asked for, or if the generator does not return a mesh, or the mesh has no cells. -/
theorem C81_rejects (opt : BlockOptions) (input : Text) :
    ((∀ b k M, MeshJson.readBlocks2d F input = .ok b → k.classOf = .qua → k.nnode = opt.nnode → Structured.fromBlocks2d inv o b k opt.renumber = .ok M → M.cells = []) →
      Nothing (qua2msh F ft inv o d opt input)) ∧
    ((∀ b k M, MeshJson.readBlocks3d F input = .ok b → k.classOf = .hex → k.nnode = opt.nnode → Structured.fromBlocks3d inv o b k opt.renumber = .ok M → M.cells = []) →
      Nothing (hex2msh F ft inv o d opt input)) := by
  have step : ∀ {α : Type} (r : Res α) (k : α → Run), (∀ a, r = .ok a → Nothing (k a)) → Nothing (after r k) := by
    intro α r k h
    cases hr : r with
    | ok a => exact h a hr
    | err e => exact after_nothing (by simp) k
    | panic => exact after_nothing (by simp) k
  have sv : ∀ v (M : Mesh ℝ), M.cells = [] → Nothing (save ft d opt v M) := by
    intro v M hM
    obtain ⟨e, he⟩ := Props.MeshText.C17_write_no_cells ft M hM
    exact after_nothing (by simp [he]) _
  constructor
  · intro h
    refine step _ _ fun b hb => step _ _ fun kv hk => step _ _ fun M hM => sv _ M ?_
    obtain ⟨h1, h2, -⟩ := (C81_targets opt.nnode kv.1 kv.2).1.1 hk
    exact h b kv.1 M hb h1 h2 hM
  · intro h
    refine step _ _ fun b hb => step _ _ fun kv hk => step _ _ fun M hM => sv _ M ?_
    obtain ⟨h1, h2, -⟩ := (C81_targets opt.nnode kv.1 kv.2).2.1 hk
    exact h b kv.1 M hb h1 h2 hM

/-- The mesh of the generators before and after the renumbering. -/
theorem renumbered_of {A : Type} (mk : A → Res (List (Mesh ℝ))) (a : A) (o : Structured.GenOrders) {M : Mesh ℝ} (hM : ValidMesh M) (hne : M.cells ≠ [])
    (h : (mk a >>= fun ms => Structured.joinAll o false ms) = .ok M) {M' : Mesh ℝ} (h' : (mk a >>= fun ms => Structured.joinAll o true ms) = .ok M') :
    Unstructured.IsRenumbered M M' := by
  obtain ⟨ms, e1, e2⟩ := Res.bind_eq_ok.1 h
  obtain ⟨ms', e3, e4⟩ := Res.bind_eq_ok.1 h'
  rw [e1] at e3
  cases e3
  unfold Structured.joinAll at e2 e4
  obtain ⟨N, f1, f2⟩ := Res.bind_eq_ok.1 e2
  obtain ⟨N', f3, f4⟩ := Res.bind_eq_ok.1 e4
  rw [f1] at f3
  cases f3
  have : N = M := by
    unfold Structured.finish at f2
    rw [if_neg (by simp)] at f2
    exact Res.ok.inj f2
  subst this
  have hp : 0 < N.points.length := by
    obtain ⟨c, hcc⟩ := List.exists_mem_of_ne_nil _ hne
    have hl := hM.nnode c hcc
    have : 0 < c.kind.nnode := by cases c.kind <;> decide
    obtain ⟨q, hq⟩ := List.exists_mem_of_ne_nil c.points (by intro h; rw [h] at hl; simp at hl; omega)
    have := hM.inRange c hcc q hq
    omega
  have hends := Unstructured.finish_ends true N hM hp
  unfold Unstructured.Ends at hends
  rw [if_pos rfl] at hends
  exact hends.1 M' f4

/-- The kinds of the cells of an assembly of meshes of regions, and there are cells. -/
theorem assembly_cells {ndim : Nat} {region : Nat → Option Structured.Region} {E F} {k : GeoKind} {ms : List (Mesh ℝ)} {M : Mesh ℝ} (h2 : 2 ≤ ms.length)
    (hms : ∀ (i : Nat) (A : Mesh ℝ), ms[i]? = some A → ∃ d, region i = some d ∧ Structured.IsRegionMesh inv ndim d E F k A) (hM : IsAssembly ms M) :
    (∀ c ∈ M.cells, c.kind = k) ∧ M.cells ≠ [] := by
  have hsub : ∀ A ∈ ms, (∀ c ∈ A.cells, c.kind = k) ∧ A.cells ≠ [] := by
    intro A hA
    obtain ⟨i, hi, rfl⟩ := List.getElem_of_mem hA
    obtain ⟨d, -, b, hb, hS, -⟩ := hms i _ (List.getElem?_eq_getElem hi)
    have hpos : ∀ a, 0 < Block.ndivAt b a := by
      intro a
      obtain ⟨hn, -, -, hpart⟩ := Block.C41_partition hb.reached
      by_cases ha : a < ndim
      · exact (hpart a ha).1
      · unfold Block.ndivAt
        rw [if_neg (by omega)]
        omega
    refine ⟨fun c hc => ?_, fun h => ?_⟩
    · obtain ⟨n, hn, rfl⟩ := List.getElem_of_mem hc
      obtain ⟨x, y, z, hg, rfl⟩ := Block.cellNum_surj (b := b) (n := n) (by have := hS.ncell; unfold Block.numCells at this; omega)
      obtain ⟨c, h1, -, -, h4, -⟩ := hS.cells x y z hg
      rw [List.getElem?_eq_getElem hn] at h1
      cases h1
      exact h4
    · have := hS.ncell
      rw [h] at this
      have : 0 < Block.numCells b := Nat.mul_pos (hpos 0) (Nat.mul_pos (hpos 1) (hpos 2))
      simp at *
      omega
  have hcells := hM.cells
  constructor
  · intro c hc
    have : (c.marker, c.kind, c.points.map (coordsOf M)) ∈ allCells ms := by
      rw [← hcells]
      exact List.mem_map.2 ⟨c, hc, rfl⟩
    unfold allCells at this
    obtain ⟨l, hl, hx⟩ := List.mem_flatten.1 this
    obtain ⟨A, hA, rfl⟩ := List.mem_map.1 hl
    obtain ⟨c', hc', e⟩ := List.mem_map.1 hx
    have := (hsub A hA).1 c' hc'
    simp only [Prod.mk.injEq] at e
    rw [← e.2.1]
    exact this
  · intro h
    match ms, h2 with
    | A :: _, _ =>
      obtain ⟨c, hc⟩ := List.exists_mem_of_ne_nil _ (hsub A (by simp)).2
      have : (c.marker, c.kind, c.points.map (coordsOf A)) ∈ geomCells M := by
        rw [hcells]
        exact List.mem_flatten.2 ⟨_, by simp; exact .inl rfl, List.mem_map.2 ⟨c, hc, rfl⟩⟩
      unfold geomCells at this
      rw [h] at this
      simp at this

/-- The markers of the input files are `i32` numbers. -/
theorem i32_2d {input : Text} {b : Structured.Blocks2d} (h : MeshJson.readBlocks2d F input = .ok b) :
    (∀ i r, Structured.region2d b i = some r → InI32 r.marker) ∧ ∀ e ∈ b.markedEdges, InI32 e.1 := by
  obtain ⟨v, -, p, r, w, c, e, -, -, h2, -, -, h5⟩ := ((MeshJson.C80_read_blocks2d F input).1 b).1 h
  constructor
  · intro i d hd
    unfold Structured.region2d at hd
    simp only [Option.bind_eq_bind, Option.bind_eq_some_iff, Option.some.injEq] at hd
    obtain ⟨reg, h1, -, -, -, -, -, -, rfl⟩ := hd
    obtain ⟨w, _, _, _, _, _, _, a, -⟩ := h2.all reg (List.mem_of_getElem? h1)
    exact a.range
  · intro q hq
    obtain ⟨w, _, _, _, _, a, -⟩ := h5.all q hq
    exact a.range

theorem i32_3d {input : Text} {b : Structured.Blocks3d} (h : MeshJson.readBlocks3d F input = .ok b) :
    (∀ i r, Structured.region3d b i = some r → InI32 r.marker) ∧ (∀ e ∈ b.markedEdges, InI32 e.1) ∧ ∀ f ∈ b.markedFaces, InI32 f.1 := by
  obtain ⟨v, -, p, r, w, c, e, f, -, -, h2, -, -, h5, h6⟩ := ((MeshJson.C80_read_blocks3d F input).1 b).1 h
  refine ⟨?_, ?_, ?_⟩
  · intro i d hd
    unfold Structured.region3d at hd
    simp only [Option.bind_eq_bind, Option.bind_eq_some_iff, Option.some.injEq] at hd
    obtain ⟨reg, h1, -, -, -, -, -, -, rfl⟩ := hd
    obtain ⟨w, hw⟩ := h2.all reg (List.mem_of_getElem? h1)
    obtain ⟨_, _, _, _, _, _, _, _, _, _, a, -⟩ := hw
    exact a.range
  · intro q hq
    obtain ⟨w, _, _, _, _, a, -⟩ := h5.all q hq
    exact a.range
  · intro q hq
    obtain ⟨w, _, _, _, _, _, _, a, -⟩ := h6.all q hq
    exact a.range

/-- The numbers of an assembly of meshes of regions can be written and read. -/
theorem assembly_range {ndim : Nat} {region : Nat → Option Structured.Region} {E F} {k : GeoKind} {ms : List (Mesh ℝ)} {M : Mesh ℝ}
    (hreg : ∀ i r, region i = some r → InI32 r.marker) (hE : ∀ e ∈ E, InI32 e.1) (hF : ∀ f ∈ F, InI32 f.1)
    (hms : ∀ (i : Nat) (A : Mesh ℝ), ms[i]? = some A → ∃ d, region i = some d ∧ Structured.IsRegionMesh inv ndim d E F k A) (hM : IsAssembly ms M) (hfit : Fits M) :
    MachineRange M := by
  obtain ⟨f1, f2, f3, f4⟩ := hfit
  refine ⟨f1, f2, f3, f4, fun p hp => ?_, fun c hc => ⟨?_, fun p hp => ?_⟩, ?_, ?_⟩
  · obtain ⟨A, hA, q, hq, -, e⟩ := hM.points p hp
    obtain ⟨i, hi, rfl⟩ := List.getElem_of_mem hA
    obtain ⟨d, -, b, hb, hS, -⟩ := hms i _ (List.getElem?_eq_getElem hi)
    obtain ⟨n, hn, rfl⟩ := List.getElem_of_mem hq
    rw [e, (hS.points n _ (List.getElem?_eq_getElem hn)).2.1]
    unfold InI32
    omega
  · have : (c.marker, c.kind, c.points.map (coordsOf M)) ∈ allCells ms := by
      rw [← hM.cells]
      exact List.mem_map.2 ⟨c, hc, rfl⟩
    unfold allCells at this
    obtain ⟨l, hl, hx⟩ := List.mem_flatten.1 this
    obtain ⟨A, hA, rfl⟩ := List.mem_map.1 hl
    obtain ⟨c', hc', e⟩ := List.mem_map.1 hx
    simp only [Prod.mk.injEq] at e
    rw [← e.1]
    obtain ⟨i, hi, rfl⟩ := List.getElem_of_mem hA
    obtain ⟨d, hd, b, hb, hS, -⟩ := hms i _ (List.getElem?_eq_getElem hi)
    obtain ⟨n, hn, rfl⟩ := List.getElem_of_mem hc'
    obtain ⟨x, y, z, hg, rfl⟩ := Block.cellNum_surj (b := b) (n := n) (by have := hS.ncell; unfold Block.numCells at this; omega)
    obtain ⟨c'', h1, -, h3, -⟩ := hS.cells x y z hg
    rw [List.getElem?_eq_getElem hn] at h1
    cases h1
    rw [h3, hb.marker_eq]
    exact hreg i d hd
  · have := hM.proper.valid.inRange c hc p hp
    omega
  · rintro ⟨mk, p, q⟩ he
    have hpq := hM.proper.edges mk p q he
    refine ⟨?_, by dsimp only; omega, by dsimp only; omega⟩
    obtain ⟨i, A, hA, ⟨p', q', h1, -⟩, -⟩ := (hM.edges mk _ _).1 ⟨p, q, he, .inl ⟨rfl, rfl⟩⟩
    obtain ⟨d, hd, b, hb, hS, hmk⟩ := hms i A hA
    obtain ⟨e, _, _, _, _, h2, -⟩ := (hmk.edges mk p' q').1 h1
    rw [hb.edgeMarks e] at h2
    split at h2
    · unfold Structured.edgeMark at h2
      obtain ⟨e', h3, h4⟩ := Option.map_eq_some_iff.1 h2
      have := hE e' (List.mem_filter.1 (List.mem_of_getLast? h3)).1
      rw [h4] at this
      exact this
    · cases h2
  · rintro ⟨mk, p, q, r, s⟩ he
    have hpq := hM.proper.faces mk p q r s he
    simp only [List.pairwise_cons, List.mem_cons, List.not_mem_nil, or_false, forall_eq_or_imp, forall_eq] at hpq
    refine ⟨?_, by dsimp only; omega, by dsimp only; omega, by dsimp only; omega, by dsimp only; omega⟩
    obtain ⟨i, A, hA, ⟨p', q', r', s', h1, -⟩, -⟩ := (hM.faces mk _).1 ⟨p, q, r, s, he, List.Perm.refl _⟩
    obtain ⟨d, hd, b, hb, hS, hmk⟩ := hms i A hA
    obtain ⟨-, f, _, _, _, _, h2, -⟩ := (hmk.faces mk _).1 h1
    rw [hb.faceMarks f] at h2
    split at h2
    · unfold Structured.faceMark at h2
      obtain ⟨e', h3, h4⟩ := Option.map_eq_some_iff.1 h2
      have := hF e' (List.mem_filter.1 (List.mem_of_getLast? h3)).1
      rw [h4] at this
      exact this
    · cases h2

/-- They still can after the renumbering. -/
theorem renumbered_range {M M' : Mesh ℝ} (h : MachineRange M) (hv : ValidMesh M') (hn : M'.points.length ≤ usizeMax) (hR : Unstructured.IsRenumbered M M') : MachineRange M' := by
  obtain ⟨map, hp, hl, hpt, hc⟩ := hR.perm
  have hlen : map.length = M.points.length := by simpa using hp.length_eq
  refine ⟨hn, by rw [hc]; simpa using h.ncell, by rw [hR.marked.1]; exact h.nedge, by rw [hR.marked.2]; exact h.nface, fun p hp' => ?_, fun c hcc => ⟨?_, fun q hq => ?_⟩,
    by rw [hR.marked.1]; exact h.edges, by rw [hR.marked.2]; exact h.faces⟩
  · obtain ⟨j, hj, rfl⟩ := List.getElem_of_mem hp'
    obtain ⟨i, hi, e⟩ := List.getElem_of_mem (hp.mem_iff.2 (List.mem_range.2 (by omega : j < M.points.length)))
    have := hpt i _ j (List.getElem?_eq_getElem (by omega)) (by rw [List.getElem?_eq_getElem hi, e])
    rw [List.getElem?_eq_getElem hj] at this
    rw [Option.some.inj this]
    exact h.points (M.points[i]) (List.getElem_mem _)
  · rw [hc] at hcc
    obtain ⟨c', h1, rfl⟩ := List.mem_map.1 hcc
    exact (h.cells c' h1).1
  · have := hv.inRange c hcc q hq
    omega

/-- **C81 (from blocks to files, 2D).** Given an input file with the data `b` of blocks (see C80) and the number of nodes of a quadrilateral. If there are fewer than two regions
or a region is not usable, nothing is written. Otherwise, if the meshes of the regions can be put together, `qua2msh` makes the mesh that is nothing but the meshes of the
regions put together (with renumbering: that mesh with its points in another order, or nothing at all), and delivers it: the MSH file is read as this mesh, the VTU file
is there if and only if the cells have a VTK type, and a drawing if it was asked for. -/
theorem C81_qua (hinv : InverseSpec inv) (hnp : ∀ n a, inv n a ≠ .panic) (hall : ∀ n a, detN n a ≠ 0 → ∃ r, inv n a = .ok r) (ho : o.Valid)
    (opt : BlockOptions) (input : Text) (b : Structured.Blocks2d) (hb : MeshJson.readBlocks2d F input = .ok b) {k : GeoKind} (hk : k.classOf = .qua)
    (hn : k.nnode = opt.nnode) (hg : Structured.AllGiven b.regions.length (Structured.region2d b)) :
    (¬ Structured.AllUsable inv 2 b.regions.length (Structured.region2d b) k → Nothing (qua2msh F ft inv o d opt input)) ∧
    (Structured.AllUsable inv 2 b.regions.length (Structured.region2d b) k → ∃ ms : List (Mesh ℝ), ms.length = b.regions.length ∧
      (∀ (i : Nat) (A : Mesh ℝ), ms[i]? = some A → ∃ r, Structured.region2d b i = some r ∧ Structured.IsRegionMesh inv 2 r b.markedEdges [] k A) ∧
      (CanAssemble 2 ms → ∃ M, IsAssembly ms M ∧
        (opt.renumber = false → LosslessOn ft M → Fits M →
          (∃ t, MeshText.read ft t = .ok M ∧ (qua2msh F ft inv o d opt input).products.head? = some (.msh t)) ∧
          ((∀ s, opt.drawing = some s → ∃ l, drawAll d s M = .ok l) → Delivers ft d opt.drawing k M (qua2msh F ft inv o d opt input))) ∧
        (opt.renumber = true → Nothing (qua2msh F ft inv o d opt input) ∨ ∃ M', Unstructured.IsRenumbered M M' ∧ (LosslessOn ft M' → Fits M' →
          (∃ t, MeshText.read ft t = .ok M' ∧ (qua2msh F ft inv o d opt input).products.head? = some (.msh t)) ∧
          ((∀ s, opt.drawing = some s → ∃ l, drawAll d s M' = .ok l) → Delivers ft d opt.drawing k M' (qua2msh F ft inv o d opt input)))))) := by
  obtain ⟨v, hv, hvv⟩ : ∃ v, quaTarget opt.nnode = .ok (k, v) ∧ (v = true ↔ HasVtk k) := by
    open Classical in
    exact ⟨decide (HasVtk k), (C81_targets _ _ _).1.2 ⟨hk, hn, by simp⟩, by simp⟩
  have hrun : qua2msh F ft inv o d opt input = after (Structured.fromBlocks2d inv o b k opt.renumber) (save ft d opt v) := by
    unfold qua2msh
    rw [after_ok hb, after_ok hv]
  have hdraw : ∀ M, (∀ s, opt.drawing = some s → ∃ l, drawAll d s M = .ok l) → opt.svgFigure = true →
      ∃ l, drawAll d { newDraw with showPointDots := opt.showPoints } M = .ok l := fun M h hs => h _ (by unfold BlockOptions.drawing; rw [if_pos hs])
  obtain ⟨h1, h2⟩ := Structured.C66_blocks_2d hinv hnp hall ho b k hg
  rw [hrun]
  refine ⟨fun hu => ?_, fun hu => ?_⟩
  · obtain ⟨e, he⟩ := h1 hu opt.renumber
    exact after_nothing (by simp [he]) _
  obtain ⟨ms, m1, m2, m3⟩ := h2 hu
  refine ⟨ms, m1, m2, fun hc => ?_⟩
  obtain ⟨M, e1, e2, -⟩ := m3 hc
  obtain ⟨c1, c2⟩ := assembly_cells hc.two m2 e2
  have hrange : Fits M → MachineRange M := fun h => assembly_range (i32_2d hb).1 (i32_2d hb).2 (by simp) m2 e2 h
  refine ⟨M, e2, fun hr hf hm => ?_, fun hr => ?_⟩
  · rw [hr, after_ok e1]
    obtain ⟨s1, s2⟩ := save_delivers (d := d) opt hvv e2.proper.valid e2.proper.dims c1 c2 hf (hrange hm)
    exact ⟨s2, fun hl => s1 (hdraw M hl)⟩
  · rw [hr]
    cases hres : Structured.fromBlocks2d inv o b k true with
    | err e => exact .inl (after_nothing (by simp) _)
    | panic => exact .inl (after_nothing (by simp) _)
    | ok M' =>
      right
      have hR : Unstructured.IsRenumbered M M' := renumbered_of (fun _ : Unit => _) () o e2.proper.valid c2 e1 hres
      refine ⟨M', hR, fun hf hm => ?_⟩
      have hlen : M'.points.length = M.points.length ∧ M'.cells.length = M.cells.length := by
        obtain ⟨map, -, e1, -, e⟩ := hR.perm
        exact ⟨e1, by rw [e]; simp⟩
      have hcells : (∀ c ∈ M'.cells, c.kind = k) ∧ M'.cells ≠ [] := by
        obtain ⟨map, -, -, -, e⟩ := hR.perm
        rw [e]
        exact ⟨fun c hc => by obtain ⟨c', h, rfl⟩ := List.mem_map.1 hc; exact c1 c' h, by simpa using c2⟩
      obtain ⟨s1, s2⟩ := save_delivers (d := d) opt hvv (valid_renumbered e2.proper.valid hR) (by rw [hR.ndim]; exact e2.proper.dims) hcells.1 hcells.2 hf
        (renumbered_range (hrange (by rw [Fits, hR.marked.1, hR.marked.2, hlen.1, hlen.2] at hm; exact hm)) (valid_renumbered e2.proper.valid hR) hm.1 hR)
      exact ⟨s2, fun hl => s1 (hdraw M' hl)⟩

/-- **C81 (from blocks to files, 3D).** As for `C81_qua`. Given an input file with the data `b` of blocks (see C80) and the number of nodes of a hexahedron. If there are fewer than two regions
or a region is not usable, nothing is written. Otherwise, if the meshes of the regions can be put together, `hex2msh` makes the mesh that is nothing but the meshes of the
regions put together (with renumbering: that mesh with its points in another order, or nothing at all), and delivers it: the MSH file is read as this mesh, the VTU file
is there if and only if the cells have a VTK type, and a drawing if it was asked for. -/
theorem C81_hex (hinv : InverseSpec inv) (hnp : ∀ n a, inv n a ≠ .panic) (hall : ∀ n a, detN n a ≠ 0 → ∃ r, inv n a = .ok r) (ho : o.Valid)
    (opt : BlockOptions) (input : Text) (b : Structured.Blocks3d) (hb : MeshJson.readBlocks3d F input = .ok b) {k : GeoKind} (hk : k.classOf = .hex)
    (hn : k.nnode = opt.nnode) (hg : Structured.AllGiven b.regions.length (Structured.region3d b)) :
    (¬ Structured.AllUsable inv 3 b.regions.length (Structured.region3d b) k → Nothing (hex2msh F ft inv o d opt input)) ∧
    (Structured.AllUsable inv 3 b.regions.length (Structured.region3d b) k → ∃ ms : List (Mesh ℝ), ms.length = b.regions.length ∧
      (∀ (i : Nat) (A : Mesh ℝ), ms[i]? = some A → ∃ r, Structured.region3d b i = some r ∧ Structured.IsRegionMesh inv 3 r b.markedEdges b.markedFaces k A) ∧
      (CanAssemble 3 ms → ∃ M, IsAssembly ms M ∧
        (opt.renumber = false → LosslessOn ft M → Fits M →
          (∃ t, MeshText.read ft t = .ok M ∧ (hex2msh F ft inv o d opt input).products.head? = some (.msh t)) ∧
          ((∀ s, opt.drawing = some s → ∃ l, drawAll d s M = .ok l) → Delivers ft d opt.drawing k M (hex2msh F ft inv o d opt input))) ∧
        (opt.renumber = true → Nothing (hex2msh F ft inv o d opt input) ∨ ∃ M', Unstructured.IsRenumbered M M' ∧ (LosslessOn ft M' → Fits M' →
          (∃ t, MeshText.read ft t = .ok M' ∧ (hex2msh F ft inv o d opt input).products.head? = some (.msh t)) ∧
          ((∀ s, opt.drawing = some s → ∃ l, drawAll d s M' = .ok l) → Delivers ft d opt.drawing k M' (hex2msh F ft inv o d opt input)))))) := by
  obtain ⟨v, hv, hvv⟩ : ∃ v, hexTarget opt.nnode = .ok (k, v) ∧ (v = true ↔ HasVtk k) := by
    open Classical in
    exact ⟨decide (HasVtk k), (C81_targets _ _ _).2.2 ⟨hk, hn, by simp⟩, by simp⟩
  have hrun : hex2msh F ft inv o d opt input = after (Structured.fromBlocks3d inv o b k opt.renumber) (save ft d opt v) := by
    unfold hex2msh
    rw [after_ok hb, after_ok hv]
  have hdraw : ∀ M, (∀ s, opt.drawing = some s → ∃ l, drawAll d s M = .ok l) → opt.svgFigure = true →
      ∃ l, drawAll d { newDraw with showPointDots := opt.showPoints } M = .ok l := fun M h hs => h _ (by unfold BlockOptions.drawing; rw [if_pos hs])
  obtain ⟨h1, h2⟩ := Structured.C66_blocks_3d hinv hnp hall ho b k hg
  rw [hrun]
  refine ⟨fun hu => ?_, fun hu => ?_⟩
  · obtain ⟨e, he⟩ := h1 hu opt.renumber
    exact after_nothing (by simp [he]) _
  obtain ⟨ms, m1, m2, m3⟩ := h2 hu
  refine ⟨ms, m1, m2, fun hc => ?_⟩
  obtain ⟨M, e1, e2, -⟩ := m3 hc
  obtain ⟨c1, c2⟩ := assembly_cells hc.two m2 e2
  have hrange : Fits M → MachineRange M := fun h => assembly_range (i32_3d hb).1 (i32_3d hb).2.1 (i32_3d hb).2.2 m2 e2 h
  refine ⟨M, e2, fun hr hf hm => ?_, fun hr => ?_⟩
  · rw [hr, after_ok e1]
    obtain ⟨s1, s2⟩ := save_delivers (d := d) opt hvv e2.proper.valid e2.proper.dims c1 c2 hf (hrange hm)
    exact ⟨s2, fun hl => s1 (hdraw M hl)⟩
  · rw [hr]
    cases hres : Structured.fromBlocks3d inv o b k true with
    | err e => exact .inl (after_nothing (by simp) _)
    | panic => exact .inl (after_nothing (by simp) _)
    | ok M' =>
      right
      have hR : Unstructured.IsRenumbered M M' := renumbered_of (fun _ : Unit => _) () o e2.proper.valid c2 e1 hres
      refine ⟨M', hR, fun hf hm => ?_⟩
      have hlen : M'.points.length = M.points.length ∧ M'.cells.length = M.cells.length := by
        obtain ⟨map, -, e1, -, e⟩ := hR.perm
        exact ⟨e1, by rw [e]; simp⟩
      have hcells : (∀ c ∈ M'.cells, c.kind = k) ∧ M'.cells ≠ [] := by
        obtain ⟨map, -, -, -, e⟩ := hR.perm
        rw [e]
        exact ⟨fun c hc => by obtain ⟨c', h, rfl⟩ := List.mem_map.1 hc; exact c1 c' h, by simpa using c2⟩
      obtain ⟨s1, s2⟩ := save_delivers (d := d) opt hvv (valid_renumbered e2.proper.valid hR) (by rw [hR.ndim]; exact e2.proper.dims) hcells.1 hcells.2 hf
        (renumbered_range (hrange (by rw [Fits, hR.marked.1, hR.marked.2, hlen.1, hlen.2] at hm; exact hm)) (valid_renumbered e2.proper.valid hR) hm.1 hR)
      exact ⟨s2, fun hl => s1 (hdraw M' hl)⟩

/-- The mesh of a generator of triangles or tetrahedra is saved in a file that is read as this mesh. -/
theorem saved (M : Mesh ℝ) (hM : ValidMesh M) (hd : M.ndim = 2 ∨ M.ndim = 3) (hc : M.cells ≠ []) (hf : LosslessOn ft M) (hr : MachineRange M) :
    ∃ t, MeshText.write ft M = .ok t ∧ MeshText.read ft t = .ok M := by
  have hp : M.points ≠ [] := by
    obtain ⟨c, hcc⟩ := List.exists_mem_of_ne_nil _ hc
    have hl := hM.nnode c hcc
    have : 0 < c.kind.nnode := by cases c.kind <;> decide
    obtain ⟨q, hq⟩ := List.exists_mem_of_ne_nil c.points (by intro h; rw [h] at hl; simp at hl; omega)
    have := hM.inRange c hcc q hq
    intro h
    rw [h] at this
    simp at this
  exact Props.MeshText.C17_write_read ft M ⟨hd, hM.pointIds, hM.coords, hM.cellIds, hM.nnode⟩ hf hr hc hp

end
end Gemlab.Programs
