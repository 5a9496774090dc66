import Verif.Props.Programs
import Verif.Props.Unstructured
import Verif.Props.UnstructuredPlc
import Verif.Props.Check
import Verif.Props.DrawAll

/-! # C81: the programs that make triangles, tetrahedra and drawings -/
namespace Gemlab.Programs
noncomputable section
open Gemlab Gemlab.Mesh Gemlab.Shapes Gemlab.MeshText Gemlab.Draw

variable {ft : FloatText ℝ} {T : Type}

/-- The mesh `M` is saved: the only file of the run is a MSH file that is read as `M`. -/
def Saves (ft : FloatText ℝ) (M : Mesh ℝ) (r : Run) : Prop := ∃ t, r.products = [.msh t] ∧ r.status = .ok () ∧ MeshText.read ft t = .ok M

/-- What comes out if the generator makes the mesh `M` before the optional renumbering: `M` is saved, or `M` with its points in another order, or nothing. -/
def SavesMesh (ft : FloatText ℝ) (renumber : Bool) (M : Mesh ℝ) (r : Run) : Prop :=
  (renumber = false → LosslessOn ft M → MachineRange M → Saves ft M r) ∧
  (renumber = true → Nothing r ∨ ∃ M', Unstructured.IsRenumbered M M' ∧ (LosslessOn ft M' → MachineRange M' → Saves ft M' r))

theorem saves_of_ends {renumber : Bool} {M : Mesh ℝ} (hM : ValidMesh M) (hd : M.ndim = 2 ∨ M.ndim = 3) (hc : M.cells ≠ []) {res : Res (Mesh ℝ)}
    (h : Unstructured.Ends renumber M res) : SavesMesh ft renumber M (after res fun m => after (MeshText.write ft m) fun t => writing (.msh t) done) := by
  unfold Unstructured.Ends at h
  refine ⟨fun hr hf hm => ?_, fun hr => ?_⟩
  · rw [hr, if_neg (by simp)] at h
    obtain ⟨t, ht, hread⟩ := saved M hM hd hc hf hm
    rw [after_ok h, after_ok ht]
    exact ⟨t, rfl, rfl, hread⟩
  · rw [hr, if_pos rfl] at h
    cases hres : res with
    | err e => exact .inl (after_nothing (by simp) _)
    | panic => exact .inl (after_nothing (by simp) _)
    | ok M' =>
      have hR := h.1 M' hres
      refine .inr ⟨M', hR, fun hf hm => ?_⟩
      have hc' : M'.cells ≠ [] := by
        obtain ⟨map, -, -, -, e⟩ := hR.perm
        rw [e]
        simpa using hc
      obtain ⟨t, ht, hread⟩ := saved M' (valid_renumbered hM hR) (by rw [hR.ndim]; exact hd) hc' hf hm
      rw [after_ok rfl, after_ok ht]
      exact ⟨t, rfl, rfl, hread⟩

theorem triMesh_cells (lib : Unstructured.Trigen T) (t : T) (k : GeoKind) (h : 1 ≤ lib.outNcell t) : (Unstructured.triMesh lib t k).cells ≠ [] := by
  unfold Unstructured.triMesh
  simp
  omega

theorem tetMesh_cells (lib : Unstructured.Tetgen T) (t : T) (k : GeoKind) (h : 1 ≤ lib.outNcell t) : (Unstructured.tetMesh lib t k).cells ≠ [] := by
  unfold Unstructured.tetMesh
  simp
  omega

/-- **C81 (triangles).** `msh2tri` writes nothing if its input is not a MSH file, or not one of a mesh in the plane. For the file of a mesh of `tri3` and `qua4` cells it gives
the generator exactly the planar straight line graph of the mesh, without holes and without limits of the areas of single regions, unless the generator rejects the
sizes; nothing is written if the generator fails, and otherwise the mesh of its output, in a file which is read as this mesh. -/
theorem C81_tri {lib : Unstructured.Trigen T} {view : T → Unstructured.TriInput} (hl : lib.Contract view) {o : Orders} (ho : o.Valid)
    {keyOrder : List EdgeKey → List EdgeKey} (hk : IterOrder keyOrder) (tri6 renumber : Bool) (gmax : Option ℝ) (input : Text) :
    ((∀ m, MeshText.read ft input = .ok m → m.ndim ≠ 2) → Nothing (msh2tri ft lib o keyOrder tri6 renumber gmax input)) ∧
    (∀ m, MeshText.read ft input = .ok m → ValidMesh m → m.ndim = 2 → (∀ p ∈ m.points, ∀ v ∈ p.coords, -f64Max ≤ v ∧ v ≤ f64Max) → Unstructured.EdgesSpread m →
      (∀ key c e cell, IsFirst (HasEdge m key) c e → m.cells[c]? = some cell → cell.kind = .tri3 ∨ cell.kind = .qua4) →
      Nothing (msh2tri ft lib o keyOrder tri6 renumber gmax input) ∧
          (∃ n e, Unstructured.IsEdgeCount m n ∧ lib.new m.points.length (some n) (some m.cells.length) (some 0) = .err e) ∨
      ∃ t, Unstructured.IsPslg m [] none (view t) ∧
        (∀ e, lib.generate t false tri6 true gmax none = .err e → Nothing (msh2tri ft lib o keyOrder tri6 renumber gmax input)) ∧
        (∀ t', lib.generate t false tri6 true gmax none = .ok t' → lib.GoodOutput t' tri6 →
          SavesMesh ft renumber (Unstructured.triMesh lib t' (if tri6 then .tri6 else .tri3)) (msh2tri ft lib o keyOrder tri6 renumber gmax input))) := by
  constructor
  · intro h
    unfold msh2tri
    cases hr : MeshText.read ft input with
    | err e => exact after_nothing (by simp) _
    | panic => exact after_nothing (by simp) _
    | ok m =>
      rw [after_ok rfl]
      refine after_nothing (fun a ha => ?_) _
      unfold Unstructured.callTrigen at ha
      rw [if_pos (h m hr)] at ha
      cases ha
  · intro m hr hv h2 hb hs hcells
    have e : msh2tri ft lib o keyOrder tri6 renumber gmax input = after (Unstructured.callTrigen lib o keyOrder m [] tri6 none gmax none renumber)
        fun m => after (MeshText.write ft m) fun t => writing (.msh t) done := by
      unfold msh2tri
      rw [after_ok hr]
    rw [e]
    rcases Unstructured.C70_call_trigen hl ho hk hv h2 hb hs [] tri6 none gmax none renumber hcells with ⟨n, e, h1, h2, h3⟩ | ⟨t, h1, h2, h3, -⟩
    · exact .inl ⟨after_nothing (by simp [h3]) _, n, e, h1, h2⟩
    · refine .inr ⟨t, h1, fun e he => after_nothing (by simp [h2 e he]) _, fun t' ht hg => ?_⟩
      exact saves_of_ends (Unstructured.triMesh_valid lib t' tri6 hg) (.inl rfl) (triMesh_cells lib t' _ hg.ncell) (h3 t' ht hg)

/-- **C81 (tetrahedra).** The same for `msh2tet`, with one region, marked 1, at the point given by the option; without this option (or with fewer than three numbers) the
program panics after the file has been read. -/
theorem C81_tet {lib : Unstructured.Tetgen T} {view : T → Unstructured.TetInput} (hl : lib.Contract view) {o : Orders} (ho : o.Valid)
    {keyOrder : List FaceKey → List FaceKey} (hk : IterOrder keyOrder) (region : List ℝ) (tet10 renumber : Bool) (gmax : Option ℝ) (input : Text) :
    ((∀ m, MeshText.read ft input = .ok m → m.ndim ≠ 3) → Nothing (msh2tet ft lib o keyOrder region tet10 renumber gmax input)) ∧
    (∀ m, MeshText.read ft input = .ok m → region.length < 3 → msh2tet ft lib o keyOrder region tet10 renumber gmax input = ⟨[], .panic⟩) ∧
    (∀ m x y z, MeshText.read ft input = .ok m → region = [x, y, z] → ValidMesh m → m.ndim = 3 → (∀ p ∈ m.points, ∀ v ∈ p.coords, -f64Max ≤ v ∧ v ≤ f64Max) →
      m.points.length ≤ usizeMax → Unstructured.FacetsSpread m →
      Nothing (msh2tet ft lib o keyOrder region tet10 renumber gmax input) ∧
          (∃ counts e, Unstructured.IsFacetCounts m counts ∧ lib.new m.points.length (some counts) (some 1) (some 0) = .err e) ∨
      ∃ t, Unstructured.IsPlc m [(1, x, y, z)] [] none (view t) ∧
        (∀ e, lib.generate t false tet10 gmax none = .err e → Nothing (msh2tet ft lib o keyOrder region tet10 renumber gmax input)) ∧
        (∀ t', lib.generate t false tet10 gmax none = .ok t' → lib.GoodOutput t' tet10 →
          SavesMesh ft renumber (Unstructured.tetMesh lib t' (if tet10 then .tet10 else .tet4)) (msh2tet ft lib o keyOrder region tet10 renumber gmax input))) := by
  refine ⟨fun h => ?_, fun m hr hreg => ?_, ?_⟩
  · unfold msh2tet
    cases hr : MeshText.read ft input with
    | err e => exact after_nothing (by simp) _
    | panic => exact after_nothing (by simp) _
    | ok m =>
      rw [after_ok rfl]
      have step : ∀ {α : Type} (r : Res α) (k : α → Run), (∀ a, r = .ok a → Nothing (k a)) → Nothing (after r k) := by
        intro α r k h
        cases hr : r with
        | ok a => exact h a hr
        | err e => exact after_nothing (by simp) k
        | panic => exact after_nothing (by simp) k
      refine step _ _ fun x _ => step _ _ fun y _ => step _ _ fun z _ => after_nothing (fun a ha => ?_) _
      unfold Unstructured.callTetgen at ha
      rw [if_pos (h m hr)] at ha
      cases ha
  · unfold msh2tet
    rw [after_ok hr]
    match region, hreg with
    | [], _ => rfl
    | [_], _ => rfl
    | [_, _], _ => rfl
  · rintro m x y z hr rfl hv h3 hb hM hs
    have e : msh2tet ft lib o keyOrder [x, y, z] tet10 renumber gmax input = after (Unstructured.callTetgen lib o keyOrder m [(1, x, y, z)] [] tet10 none gmax none renumber)
        fun m => after (MeshText.write ft m) fun t => writing (.msh t) done := by
      unfold msh2tet
      rw [after_ok hr]
      rfl
    rw [e]
    rcases Unstructured.C70_call_tetgen hl ho hk hv h3 hb hM hs [(1, x, y, z)] [] tet10 none gmax none renumber with ⟨n, e, h1, h2, h3⟩ | ⟨t, h1, h2, h3, -⟩
    · exact .inl ⟨after_nothing (by simp [h3]) _, n, e, h1, h2⟩
    · refine .inr ⟨t, h1, fun e he => after_nothing (by simp [h2 e he]) _, fun t' ht hg => ?_⟩
      exact saves_of_ends (Unstructured.tetMesh_valid lib t' tet10 hg) (.inr rfl) (tetMesh_cells lib t' _ hg.ncell) (h3 t' ht hg)

/-! ## Drawings -/

/-- The layers of the drawing are the ones asked for by the options. -/
structure ShowsOptions (opt : DrawOptions) (L : List Layer) : Prop where
  cells : (∃ a b, Layer.cells a b ∈ L) ↔ opt.hideCells = false
  dots : (∃ l, Layer.pointDots l ∈ L) ↔ opt.dots = true
  pointIds : (∃ l, Layer.pointIds l ∈ L) ↔ opt.pointIds = true
  cellIds : (∃ l, Layer.cellIds l ∈ L) ↔ opt.cellIds = true
  edgeMarkers : (∃ l, Layer.edgeMarkers l ∈ L) ↔ opt.edgeMarkers = true
  faceMarkers : (∃ l, Layer.faceMarkers l ∈ L) ↔ opt.faceMarkers = true
  normals : (∃ l, Layer.normals l ∈ L) ↔ opt.normals = true
  boundaryEdges : (∃ l, Layer.boundaryEdges l ∈ L) ↔ opt.boundaryEdges = true
  boundaryFaces : (∃ l, Layer.boundaryFaces l ∈ L) ↔ opt.boundaryFaces = true

theorem layer_shape {α : Type} {flag : Bool} {f : Res α} {g : α → Layer} {l : List Layer} (h : layerIf flag f g = .ok l) :
    (flag = true ∧ ∃ a, f = .ok a ∧ l = [g a]) ∨ (flag = false ∧ l = []) := by
  unfold layerIf at h
  cases flag with
  | false => rw [if_neg (by simp)] at h; cases h; exact .inr ⟨rfl, rfl⟩
  | true =>
    rw [if_pos rfl] at h
    obtain ⟨a, h1, h2⟩ := Res.bind_eq_ok.1 h
    cases h2
    exact .inl ⟨rfl, a, h1, rfl⟩

theorem range_shape {s : Settings} {m : Mesh ℝ} {l : List Layer} (h : rangeLayer s m = .ok l) : ∀ x ∈ l, (∃ r, x = .range2 r) ∨ ∃ r, x = .range3 r := by
  have auto : ∀ l, (plotRange f64Max (-f64Max) m s.mRange >>= fun r => pure (r.elim [] fun r => [.range2 r])) = .ok l → ∀ x ∈ l, (∃ r, x = Layer.range2 r) ∨ ∃ r, x = .range3 r := by
    intro l h
    obtain ⟨r, -, h2⟩ := Res.bind_eq_ok.1 h
    cases h2
    cases r with
    | none => simp
    | some r => intro x hx; exact .inl ⟨r, by simpa using hx⟩
  unfold rangeLayer at h
  dsimp only at h
  split at h
  · cases hr : s.range2d with
    | none => rw [hr] at h; exact auto l h
    | some r => rw [hr] at h; cases h; intro x hx; exact .inl ⟨r, by simpa using hx⟩
  · cases hr : s.range3d with
    | none => rw [hr] at h; exact auto l h
    | some r => rw [hr] at h; cases h; intro x hx; exact .inr ⟨r, by simpa using hx⟩

theorem shows_options {d : DrawOrders} {opt : DrawOptions} {m : Mesh ℝ} {L : List Layer} (h : drawAll d opt.settings m = .ok L) : ShowsOptions opt L := by
  unfold drawAll Draw.all at h
  obtain ⟨a, ha, h⟩ := Res.bind_eq_ok.1 h
  obtain ⟨b, hb, h⟩ := Res.bind_eq_ok.1 h
  obtain ⟨c, hc, h⟩ := Res.bind_eq_ok.1 h
  obtain ⟨p, hp, h⟩ := Res.bind_eq_ok.1 h
  obtain ⟨e, he, h⟩ := Res.bind_eq_ok.1 h
  obtain ⟨r, hr, h⟩ := Res.bind_eq_ok.1 h
  cases h
  have hr' := range_shape hr
  have he' : ∃ e1 e2 e3 e4 e5, e = e1 ++ e2 ++ e3 ++ e4 ++ e5 ∧
      ((opt.edgeMarkers = true ∧ ∃ l, e1 = [.edgeMarkers l]) ∨ (opt.edgeMarkers = false ∧ e1 = [])) ∧
      ((opt.faceMarkers = true ∧ ∃ l, e2 = [.faceMarkers l]) ∨ (opt.faceMarkers = false ∧ e2 = [])) ∧
      ((opt.normals = true ∧ ∃ l, e3 = [.normals l]) ∨ (opt.normals = false ∧ e3 = [])) ∧
      ((opt.boundaryFaces = true ∧ ∃ l, e4 = [.boundaryFaces l]) ∨ (opt.boundaryFaces = false ∧ e4 = [])) ∧
      ((opt.boundaryEdges = true ∧ ∃ l, e5 = [.boundaryEdges l]) ∨ (opt.boundaryEdges = false ∧ e5 = [])) := by
    unfold featureLayers at he
    split at he
    · obtain ⟨F, -, he⟩ := Res.bind_eq_ok.1 he
      obtain ⟨e1, h1, he⟩ := Res.bind_eq_ok.1 he
      obtain ⟨e2, h2, he⟩ := Res.bind_eq_ok.1 he
      obtain ⟨e3, h3, he⟩ := Res.bind_eq_ok.1 he
      obtain ⟨e4, h4, he⟩ := Res.bind_eq_ok.1 he
      obtain ⟨e5, h5, he⟩ := Res.bind_eq_ok.1 he
      cases he
      exact ⟨e1, e2, e3, e4, e5, rfl, (layer_shape h1).imp (fun ⟨x, y, _, z⟩ => ⟨x, y, z⟩) id, (layer_shape h2).imp (fun ⟨x, y, _, z⟩ => ⟨x, y, z⟩) id,
        (layer_shape h3).imp (fun ⟨x, y, _, z⟩ => ⟨x, y, z⟩) id, (layer_shape h4).imp (fun ⟨x, y, _, z⟩ => ⟨x, y, z⟩) id,
        (layer_shape h5).imp (fun ⟨x, y, _, z⟩ => ⟨x, y, z⟩) id⟩
    · rename_i hn
      cases he
      have hn : ((((opt.edgeMarkers = false ∧ opt.faceMarkers = false) ∧ opt.normals = false) ∧ opt.boundaryEdges = false) ∧ opt.boundaryFaces = false) := by
        simpa [DrawOptions.settings] using hn
      obtain ⟨⟨⟨⟨n1, n2⟩, n3⟩, n4⟩, n5⟩ := hn
      exact ⟨[], [], [], [], [], rfl, .inr ⟨n1, rfl⟩, .inr ⟨n2, rfl⟩, .inr ⟨n3, rfl⟩, .inr ⟨n5, rfl⟩, .inr ⟨n4, rfl⟩⟩
  obtain ⟨e1, e2, e3, e4, e5, rfl, h1, h2, h3, h4, h5⟩ := he'
  have ha' : (opt.hideCells = false ∧ ∃ x y, a = [.cells x y]) ∨ (opt.hideCells = true ∧ a = []) := by
    rcases layer_shape ha with ⟨x, y, -, z⟩ | ⟨x, z⟩
    · exact .inl ⟨by simpa [DrawOptions.settings] using x, _, _, z⟩
    · exact .inr ⟨by simpa [DrawOptions.settings] using x, z⟩
  have hb' : (opt.cellIds = true ∧ ∃ l, b = [.cellIds l]) ∨ (opt.cellIds = false ∧ b = []) := (layer_shape hb).imp (fun ⟨x, y, _, z⟩ => ⟨x, y, z⟩) id
  have hc' : (opt.dots = true ∧ ∃ l, c = [.pointDots l]) ∨ (opt.dots = false ∧ c = []) := (layer_shape hc).imp (fun ⟨x, y, _, z⟩ => ⟨x, y, z⟩) id
  have hp' : (opt.pointIds = true ∧ ∃ l, p = [.pointIds l]) ∨ (opt.pointIds = false ∧ p = []) := (layer_shape hp).imp (fun ⟨x, y, _, z⟩ => ⟨x, y, z⟩) id
  -- the members of each part
  have key : ∀ x, x ∈ a ++ b ++ c ++ p ++ (e1 ++ e2 ++ e3 ++ e4 ++ e5) ++ r ↔ x ∈ a ∨ x ∈ b ∨ x ∈ c ∨ x ∈ p ∨ x ∈ e1 ∨ x ∈ e2 ∨ x ∈ e3 ∨ x ∈ e4 ∨ x ∈ e5 ∨ x ∈ r := by
    intro x
    simp only [List.mem_append, or_assoc]
  have ma : ∀ x ∈ a, ∃ u v, x = .cells u v := by rcases ha' with ⟨-, u, v, rfl⟩ | ⟨-, rfl⟩ <;> simp
  have mb : ∀ x ∈ b, ∃ u, x = .cellIds u := by rcases hb' with ⟨-, u, rfl⟩ | ⟨-, rfl⟩ <;> simp
  have mc : ∀ x ∈ c, ∃ u, x = .pointDots u := by rcases hc' with ⟨-, u, rfl⟩ | ⟨-, rfl⟩ <;> simp
  have mp : ∀ x ∈ p, ∃ u, x = .pointIds u := by rcases hp' with ⟨-, u, rfl⟩ | ⟨-, rfl⟩ <;> simp
  have m1 : ∀ x ∈ e1, ∃ u, x = .edgeMarkers u := by rcases h1 with ⟨-, u, rfl⟩ | ⟨-, rfl⟩ <;> simp
  have m2 : ∀ x ∈ e2, ∃ u, x = .faceMarkers u := by rcases h2 with ⟨-, u, rfl⟩ | ⟨-, rfl⟩ <;> simp
  have m3 : ∀ x ∈ e3, ∃ u, x = .normals u := by rcases h3 with ⟨-, u, rfl⟩ | ⟨-, rfl⟩ <;> simp
  have m4 : ∀ x ∈ e4, ∃ u, x = .boundaryFaces u := by rcases h4 with ⟨-, u, rfl⟩ | ⟨-, rfl⟩ <;> simp
  have m5 : ∀ x ∈ e5, ∃ u, x = .boundaryEdges u := by rcases h5 with ⟨-, u, rfl⟩ | ⟨-, rfl⟩ <;> simp
  constructor
  · constructor
    · rintro ⟨u, v, h⟩
      rcases (key _).1 h with h | h | h | h | h | h | h | h | h | h
      · rcases ha' with ⟨t, -⟩ | ⟨-, rfl⟩
        · exact t
        · simp at h
      · simpa using mb _ h
      · simpa using mc _ h
      · simpa using mp _ h
      · simpa using m1 _ h
      · simpa using m2 _ h
      · simpa using m3 _ h
      · simpa using m4 _ h
      · simpa using m5 _ h
      · simpa using hr' _ h
    · intro h
      rcases ha' with ⟨-, u, v, rfl⟩ | ⟨t, -⟩
      · exact ⟨u, v, (key _).2 (by simp)⟩
      · rw [h] at t; cases t
  · constructor
    · rintro ⟨u, h⟩
      rcases (key _).1 h with h | h | h | h | h | h | h | h | h | h
      · simpa using ma _ h
      · simpa using mb _ h
      · rcases hc' with ⟨t, -⟩ | ⟨-, rfl⟩
        · exact t
        · simp at h
      · simpa using mp _ h
      · simpa using m1 _ h
      · simpa using m2 _ h
      · simpa using m3 _ h
      · simpa using m4 _ h
      · simpa using m5 _ h
      · simpa using hr' _ h
    · intro h
      rcases hc' with ⟨-, u, rfl⟩ | ⟨t, -⟩
      · exact ⟨u, (key _).2 (by simp)⟩
      · rw [h] at t; cases t
  · constructor
    · rintro ⟨u, h⟩
      rcases (key _).1 h with h | h | h | h | h | h | h | h | h | h
      · simpa using ma _ h
      · simpa using mb _ h
      · simpa using mc _ h
      · rcases hp' with ⟨t, -⟩ | ⟨-, rfl⟩
        · exact t
        · simp at h
      · simpa using m1 _ h
      · simpa using m2 _ h
      · simpa using m3 _ h
      · simpa using m4 _ h
      · simpa using m5 _ h
      · simpa using hr' _ h
    · intro h
      rcases hp' with ⟨-, u, rfl⟩ | ⟨t, -⟩
      · exact ⟨u, (key _).2 (by simp)⟩
      · rw [h] at t; cases t
  · constructor
    · rintro ⟨u, h⟩
      rcases (key _).1 h with h | h | h | h | h | h | h | h | h | h
      · simpa using ma _ h
      · rcases hb' with ⟨t, -⟩ | ⟨-, rfl⟩
        · exact t
        · simp at h
      · simpa using mc _ h
      · simpa using mp _ h
      · simpa using m1 _ h
      · simpa using m2 _ h
      · simpa using m3 _ h
      · simpa using m4 _ h
      · simpa using m5 _ h
      · simpa using hr' _ h
    · intro h
      rcases hb' with ⟨-, u, rfl⟩ | ⟨t, -⟩
      · exact ⟨u, (key _).2 (by simp)⟩
      · rw [h] at t; cases t
  · constructor
    · rintro ⟨u, h⟩
      rcases (key _).1 h with h | h | h | h | h | h | h | h | h | h
      · simpa using ma _ h
      · simpa using mb _ h
      · simpa using mc _ h
      · simpa using mp _ h
      · rcases h1 with ⟨t, -⟩ | ⟨-, rfl⟩
        · exact t
        · simp at h
      · simpa using m2 _ h
      · simpa using m3 _ h
      · simpa using m4 _ h
      · simpa using m5 _ h
      · simpa using hr' _ h
    · intro h
      rcases h1 with ⟨-, u, rfl⟩ | ⟨t, -⟩
      · exact ⟨u, (key _).2 (by simp)⟩
      · rw [h] at t; cases t
  · constructor
    · rintro ⟨u, h⟩
      rcases (key _).1 h with h | h | h | h | h | h | h | h | h | h
      · simpa using ma _ h
      · simpa using mb _ h
      · simpa using mc _ h
      · simpa using mp _ h
      · simpa using m1 _ h
      · rcases h2 with ⟨t, -⟩ | ⟨-, rfl⟩
        · exact t
        · simp at h
      · simpa using m3 _ h
      · simpa using m4 _ h
      · simpa using m5 _ h
      · simpa using hr' _ h
    · intro h
      rcases h2 with ⟨-, u, rfl⟩ | ⟨t, -⟩
      · exact ⟨u, (key _).2 (by simp)⟩
      · rw [h] at t; cases t
  · constructor
    · rintro ⟨u, h⟩
      rcases (key _).1 h with h | h | h | h | h | h | h | h | h | h
      · simpa using ma _ h
      · simpa using mb _ h
      · simpa using mc _ h
      · simpa using mp _ h
      · simpa using m1 _ h
      · simpa using m2 _ h
      · rcases h3 with ⟨t, -⟩ | ⟨-, rfl⟩
        · exact t
        · simp at h
      · simpa using m4 _ h
      · simpa using m5 _ h
      · simpa using hr' _ h
    · intro h
      rcases h3 with ⟨-, u, rfl⟩ | ⟨t, -⟩
      · exact ⟨u, (key _).2 (by simp)⟩
      · rw [h] at t; cases t
  · constructor
    · rintro ⟨u, h⟩
      rcases (key _).1 h with h | h | h | h | h | h | h | h | h | h
      · simpa using ma _ h
      · simpa using mb _ h
      · simpa using mc _ h
      · simpa using mp _ h
      · simpa using m1 _ h
      · simpa using m2 _ h
      · simpa using m3 _ h
      · simpa using m4 _ h
      · rcases h5 with ⟨t, -⟩ | ⟨-, rfl⟩
        · exact t
        · simp at h
      · simpa using hr' _ h
    · intro h
      rcases h5 with ⟨-, u, rfl⟩ | ⟨t, -⟩
      · exact ⟨u, (key _).2 (by simp)⟩
      · rw [h] at t; cases t
  · constructor
    · rintro ⟨u, h⟩
      rcases (key _).1 h with h | h | h | h | h | h | h | h | h | h
      · simpa using ma _ h
      · simpa using mb _ h
      · simpa using mc _ h
      · simpa using mp _ h
      · simpa using m1 _ h
      · simpa using m2 _ h
      · simpa using m3 _ h
      · rcases h4 with ⟨t, -⟩ | ⟨-, rfl⟩
        · exact t
        · simp at h
      · simpa using m5 _ h
      · simpa using hr' _ h
    · intro h
      rcases h4 with ⟨-, u, rfl⟩ | ⟨t, -⟩
      · exact ⟨u, (key _).2 (by simp)⟩
      · rw [h] at t; cases t

/-- What is checked by `check_all` (see C76): the mesh is consistent and the cells that fill their space are not degenerate or turned over. -/
def Sound (m : Mesh ℝ) : Prop :=
  ValidMesh m ∧ ∀ c ∈ m.cells, (m.ndim = 2 ∨ m.ndim = 3) ∧ c.kind.ndim ≤ m.ndim ∧ (c.kind.ndim = m.ndim → 0 < detN m.ndim (cellJacobian m c))

/-- The drawing cannot be configured: in space, with an origin of the axes that is not given by three numbers. -/
def BadGlyph (opt : DrawOptions) (m : Mesh ℝ) : Prop := m.ndim = 3 ∧ ∃ l, opt.glyphOrigin = some l ∧ l.length ≠ 3

theorem setGlyph_iff (opt : DrawOptions) (m : Mesh ℝ) : setGlyph opt m = .ok () ↔ ¬ BadGlyph opt m := by
  unfold setGlyph BadGlyph glyphOrigin
  constructor
  · rintro h ⟨h3, l, hl, hn⟩
    rw [if_pos ⟨h3, .inl (by simp [hl])⟩, hl] at h
    match l, hn with
    | [], _ => cases h
    | [_], _ => cases h
    | [_, _], _ => cases h
    | [_, _, _], hn => exact hn rfl
    | _ :: _ :: _ :: _ :: _, _ => cases h
  · intro h
    split
    · rename_i hc
      cases hl : opt.glyphOrigin with
      | none => rfl
      | some l =>
        match l with
        | [_, _, _] => rfl
        | [] => exact absurd ⟨hc.1, _, hl, by simp⟩ h
        | [_] => exact absurd ⟨hc.1, _, hl, by simp⟩ h
        | [_, _] => exact absurd ⟨hc.1, _, hl, by simp⟩ h
        | _ :: _ :: _ :: _ :: _ => exact absurd ⟨hc.1, _, hl, by simp⟩ h
    · rfl

/-- **C81 (drawings).** `drawmsh` writes nothing if its input is not a MSH file, if the mesh does not pass the checks (unless they are skipped), or if the origin of the axes
is not right. Otherwise, for a consistent mesh with finite coordinates, it writes one drawing, with the layers asked for by the options, if the features of the boundary can be found
or are not needed; and it panics, without a drawing, if they are needed but cannot be found (see C77). -/
theorem C81_draw {inv : MatInverse} (hinv : InverseSpec inv) (hp : ∀ n a, inv n a ≠ .panic) (hall : ∀ n a, detN n a ≠ 0 → ∃ r, inv n a = .ok r)
    (d : DrawOrders) (ho : d.features.Valid) (hE : IterOrder d.iterE) (hF : IterOrder d.iterF) (hB : IterOrder d.iterB) (opt : DrawOptions) (input : Text) :
    ((∀ m, MeshText.read ft input ≠ .ok m) → Nothing (drawmsh ft inv d opt input)) ∧
    ∀ m, MeshText.read ft input = .ok m →
      (opt.skipCheck = false → ¬ Sound m → Nothing (drawmsh ft inv d opt input)) ∧
      (BadGlyph opt m → Nothing (drawmsh ft inv d opt input)) ∧
      (opt.skipCheck = true ∨ Sound m → ¬ BadGlyph opt m → ValidMesh m → (m.ndim = 2 ∨ m.ndim = 3) → (∀ c ∈ m.cells, c.kind.ndim ≤ m.ndim) → m.points ≠ [] →
        (∀ p ∈ m.points, ∀ v ∈ p.coords, -f64Max ≤ v ∧ v ≤ f64Max) → (∀ e ∈ m.markedEdges, e.2.1 < m.points.length ∧ e.2.2 < m.points.length) →
        324 * m.cells.length < usizeMax →
        (∀ R, Features.new d.features m false = .ok R → ∃ L, drawmsh ft inv d opt input = ⟨[.svg L], .ok ()⟩ ∧ ShowsOptions opt L ∧
          IsDrawing d.iterE d.iterF d.iterB opt.settings m R L) ∧
        (opt.edgeMarkers = false → opt.faceMarkers = false → opt.normals = false → opt.boundaryEdges = false → opt.boundaryFaces = false →
          ∃ L, drawmsh ft inv d opt input = ⟨[.svg L], .ok ()⟩ ∧ ShowsOptions opt L ∧ ∀ R, IsDrawing d.iterE d.iterF d.iterB opt.settings m R L) ∧
        (Features.new d.features m false = .panic → opt.edgeMarkers = true ∨ opt.faceMarkers = true ∨ opt.normals = true ∨ opt.boundaryEdges = true ∨ opt.boundaryFaces = true →
          drawmsh ft inv d opt input = ⟨[], .panic⟩)) := by
  refine ⟨fun h => after_nothing h _, fun m hm => ?_⟩
  have hrun : drawmsh ft inv d opt input = after (if opt.skipCheck then .ok () else checkAll inv m) fun _ =>
      after (setGlyph opt m) fun _ => after (drawAll d opt.settings m) fun l => writing (.svg l) done := by
    unfold drawmsh
    rw [after_ok hm]
  have hcoords : ∀ p ∈ m.points, p.coords.length = m.ndim := by
    intro p hp
    obtain ⟨i, hi, rfl⟩ := List.getElem_of_mem hp
    have h1 : fromText ft input = .ok m := (Props.MeshText.C18_from_text_iff ft input m).2 ((Props.MeshText.C18_read_iff ft input m).1 hm)
    exact ((Props.MeshText.C18_consistent ft input m h1).1 i _ (List.getElem?_eq_getElem hi)).2.1
  obtain ⟨-, k1, k2⟩ := Props.Features.C76_check_all hinv hp m hcoords
  have hcheck : opt.skipCheck = true ∨ Sound m → (if opt.skipCheck then .ok () else checkAll inv m) = .ok () := by
    rintro (h | h)
    · rw [if_pos h]
    · split
      · rfl
      · exact k2 hall h
  rw [hrun]
  refine ⟨fun hs hn => ?_, fun hg => ?_, fun hs hg hv hdim hk hne hb hr hsmall => ?_⟩
  · rw [if_neg (by simp [hs])]
    exact after_nothing (fun a ha => hn (k1 ha)) _
  · cases hc : (if opt.skipCheck then .ok () else checkAll inv m) with
    | err e => exact after_nothing (by simp) _
    | panic => exact after_nothing (by simp) _
    | ok u =>
      rw [after_ok rfl]
      exact after_nothing (fun a ha => (setGlyph_iff opt m).1 ha hg) _
  · rw [after_ok (hcheck hs), after_ok ((setGlyph_iff opt m).2 hg)]
    obtain ⟨a1, a2, a3⟩ := C77_all hv hdim hk hne hb hr hsmall d.features ho opt.settings hE hF hB
    refine ⟨fun R hR => ?_, fun n1 n2 n3 n4 n5 => ?_, fun hR hn => ?_⟩
    · obtain ⟨L, l1, l2⟩ := a1 R hR
      have l1 : drawAll d opt.settings m = .ok L := l1
      rw [after_ok l1]
      exact ⟨L, rfl, shows_options l1, l2⟩
    · obtain ⟨L, l1, l2⟩ := a2 (by simp [needsFeatures, DrawOptions.settings, n1, n2, n3, n4, n5])
      have l1 : drawAll d opt.settings m = .ok L := l1
      rw [after_ok l1]
      exact ⟨L, rfl, shows_options l1, l2⟩
    · have l1 : drawAll d opt.settings m = .panic := a3 hR (by
        unfold needsFeatures DrawOptions.settings
        rcases hn with h | h | h | h | h <;> simp [h])
      rw [l1]
      rfl

/-- **C81 (multipliers).** The numbers that control the drawing are those of the options, or else the ones of a new `Draw`: the range is extended by 20%, the normal vectors
have 5% of the extent, and the markers of the normals 10%. -/
theorem C81_multipliers (opt : DrawOptions) :
    (∀ x, opt.mRange = some x → opt.settings.mRange = x) ∧ (opt.mRange = none → opt.settings.mRange = 1 / 5) ∧
    (∀ x, opt.mNormalVector = some x → opt.settings.mNormalVector = x) ∧ (opt.mNormalVector = none → opt.settings.mNormalVector = 1 / 20) ∧
    (∀ x, opt.mNormalVectorMarker = some x → opt.settings.mNormalVectorMarker = x) ∧ (opt.mNormalVectorMarker = none → opt.settings.mNormalVectorMarker = 1 / 10) ∧
    opt.settings.showPointMarker = opt.pointMarkers ∧ opt.settings.showCellMarker = opt.cellMarkers ∧ opt.settings.tolEdgeMarker = 1 / 1000 ∧
    opt.settings.range2d = none ∧ opt.settings.range3d = none := by
  refine ⟨fun x h => ?_, fun h => ?_, fun x h => ?_, fun h => ?_, fun x h => ?_, fun h => ?_, rfl, rfl, rfl, rfl, rfl⟩ <;>
    simp [DrawOptions.settings, h, newDraw] <;> norm_num

end
end Gemlab.Programs
