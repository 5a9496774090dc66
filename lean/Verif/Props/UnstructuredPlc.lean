import Verif.Props.Unstructured
import Verif.Proofs.UnstructuredPlc

/-! # C70: tetrahedra from a piecewise linear complex -/
namespace Gemlab.Unstructured
open Gemlab.Mesh Gemlab.Shapes Gemlab.Props.Mesh Gemlab.Props.Features

variable {T : Type}

/-- The numbers of points of the facets: the 2D cells, then the distinct faces of the 3D cells. -/
def IsFacetCounts (m : Mesh ℝ) (counts : List Nat) : Prop :=
  ∃ keys : List (Nat × Nat × Nat × Nat), keys.Nodup ∧ (∀ key, key ∈ keys ↔ ∃ c f, HasFace m key c f) ∧
    counts.length = (m.cells.filter fun c => c.kind.ndim = 2).length + keys.length ∧
    (∀ (i : Nat) (c : Cell), (m.cells.filter fun c => c.kind.ndim = 2)[i]? = some c → counts[i]? = some c.points.length) ∧
    ∀ (i : Nat) (key : Nat × Nat × Nat × Nat), keys[i]? = some key → ∃ c k f, IsFirst (HasFace m key) c k ∧ FaceOf m c k f ∧
      counts[(m.cells.filter fun c => c.kind.ndim = 2).length + i]? = some f.points.length

section Tetgen
variable {lib : Tetgen T} {view : T → TetInput} (hl : lib.Contract view) {o : Orders} (ho : o.Valid)
  {keyOrder : List FaceKey → List FaceKey} (hk : IterOrder keyOrder) {m : Mesh ℝ} (h : ValidMesh m) (h3 : m.ndim = 3)
  (hb : ∀ p ∈ m.points, ∀ v ∈ p.coords, -f64Max ≤ v ∧ v ≤ f64Max) (hM : m.points.length ≤ usizeMax) (hs : FacetsSpread m)
  (regions : List (Int × ℝ × ℝ × ℝ)) (holes : List (ℝ × ℝ × ℝ)) (o2 : Bool) (maxs : Option (HMap Int ℝ)) (gmax gang : Option ℝ) (renumber : Bool)

theorem face_points {m : Mesh ℝ} (h : ValidMesh m) {x : Extracted ℝ} (hx : IsFeatures3d m true x) {keys : List FaceKey}
    (hkeys : ∀ key, key ∈ keys ↔ ∃ c f, HasFace m key c f) (key : FaceKey) (hkey : key ∈ keys) :
    ∃ f c k, x.faces.get key = some f ∧ (∀ q ∈ f.points, q < m.points.length) ∧
      IsFirst (HasFace m key) c k ∧ FaceOf m c k f ∧ f.marker = faceMarker m key := by
  have hsome := (hx.accepted key).2 ⟨(hkeys _).1 hkey, Or.inl rfl⟩
  obtain ⟨f, hf⟩ := Option.isSome_iff_exists.1 hsome
  obtain ⟨c, k, hfirst, hE, hmk⟩ := hx.data _ f hf
  refine ⟨f, c, k, hf, ?_, hfirst, hE, hmk⟩
  obtain ⟨cell, hc, _, hlen, hpts⟩ := hE
  intro q hq
  obtain ⟨d, hd⟩ := List.mem_iff_getElem?.1 hq
  have hdlt : d < f.kind.nnode := by
    have := (List.getElem?_eq_some_iff.1 hd).1
    omega
  have := hpts d hdlt
  rw [hd] at this
  exact h.inRange cell (List.mem_of_getElem? hc) q (List.mem_of_getElem? this.symm)

include hl ho hk h h3 hb hM hs

/-- **C70.** `call_tetgen`: unless the generator rejects the sizes, it is given exactly the piecewise linear complex of the mesh (every
point, one facet per 2D cell, every face of the 3D cells once with its marker, the given regions and holes); then an error of the
generator is returned, and otherwise the mesh of its output arrays (renumbered if requested). -/
theorem C70_call_tetgen :
    (∃ counts e, IsFacetCounts m counts ∧ lib.new m.points.length (some counts) (some regions.length) (some holes.length) = .err e ∧
      callTetgen lib o keyOrder m regions holes o2 maxs gmax gang renumber = .err e) ∨
    ∃ t, IsPlc m regions holes maxs (view t) ∧
      (∀ e, lib.generate t false o2 gmax gang = .err e → callTetgen lib o keyOrder m regions holes o2 maxs gmax gang renumber = .err e) ∧
      (∀ t', lib.generate t false o2 gmax gang = .ok t' → lib.GoodOutput t' o2 →
        Ends renumber (tetMesh lib t' (if o2 then .tet10 else .tet4)) (callTetgen lib o keyOrder m regions holes o2 maxs gmax gang renumber)) ∧
      (∀ t', lib.generate t false o2 gmax gang = .ok t' → lib.outNpoint t' < 2 ∨ lib.outNcell t' < 1 →
        callTetgen lib o keyOrder m regions holes o2 maxs gmax gang renumber = .panic) := by
  obtain ⟨x, F, hF, he, hx, hsh⟩ := features_ok3 h h3 hb hM ho hs
  obtain ⟨k1, k2, k3⟩ := sorted_faceKeys x.faces hx.keysNodup.1 hk
  have k2' : ∀ key, key ∈ (keyOrder (x.faces.map (·.1))).insertionSort faceKeyLe ↔ ∃ c f, HasFace m key c f := by
    intro key
    rw [k2, hx.accepted]
    simp
  rw [shells_eq h] at hsh
  unfold callTetgen
  rw [if_neg (by simp [h3]), hF, Res.bind_ok, he, hsh, shellCounts_ok h, Res.bind_ok]
  dsimp only
  generalize (keyOrder (x.faces.map (·.1))).insertionSort faceKeyLe = keys at *
  have hnd : keys.Nodup := k1.imp (by rintro ⟨a, b, c, d⟩ ⟨a', b', c', d'⟩ hh; unfold faceKeyLt at hh; simp only [ne_eq, Prod.mk.injEq, not_and] at hh ⊢; omega)
  rw [faceCounts_ok x.faces keys (fun key hkey => (k2 key).1 hkey), Res.bind_ok, plcData_counts]
  have hplc : plcData m x.faces keys = ((m.cells.filter fun c => c.kind.ndim = 2).map fun c => (c.marker, c.points)) ++
      keys.map fun k => (((x.faces.get k).getD ⟨.lin2, [], 0⟩).marker, ((x.faces.get k).getD ⟨.lin2, [], 0⟩).points) := rfl
  have hlen : (plcData m x.faces keys).length = (m.cells.filter fun c => c.kind.ndim = 2).length + keys.length := by
    rw [hplc]; simp
  have hshell : ∀ (i : Nat) (c : Cell), (m.cells.filter fun c => c.kind.ndim = 2)[i]? = some c →
      (plcData m x.faces keys)[i]? = some (c.marker, c.points) := by
    intro i c hc
    rw [hplc, List.getElem?_append_left (by rw [List.length_map]; exact (List.getElem?_eq_some_iff.1 hc).1), List.getElem?_map, hc]
    rfl
  have hface : ∀ (i : Nat) (key : FaceKey), keys[i]? = some key → ∃ c k f, IsFirst (HasFace m key) c k ∧ FaceOf m c k f ∧
      (plcData m x.faces keys)[(m.cells.filter fun c => c.kind.ndim = 2).length + i]? = some (faceMarker m key, f.points) := by
    intro i key hkey
    obtain ⟨f, c, k, hf, _, hfirst, hE, hmk⟩ := face_points h hx k2' key (List.mem_of_getElem? hkey)
    refine ⟨c, k, f, hfirst, hE, ?_⟩
    rw [hplc, List.getElem?_append_right (by simp), List.length_map, Nat.add_sub_cancel_left, List.getElem?_map, hkey]
    simp only [Option.map_some, hf, Option.getD_some, hmk]
  cases hn : lib.new m.points.length (some ((plcData m x.faces keys).map fun d => d.2.length)) (some regions.length) (some holes.length) with
  | panic => exact absurd hn (hl.newNoPanic _ _ _ _)
  | err e =>
    left
    refine ⟨_, e, ⟨keys, hnd, k2', ?_, ?_, ?_⟩, hn, rfl⟩
    · rw [List.length_map, hlen]
    · intro i c hc
      rw [List.getElem?_map, hshell i c hc]; rfl
    · intro i key hkey
      obtain ⟨c, k, f, hfirst, hE, hg⟩ := hface i key hkey
      refine ⟨c, k, f, hfirst, hE, ?_⟩
      rw [List.getElem?_map, hg]; rfl
  | ok t0 =>
    right
    rw [Res.bind_ok]
    have hv0 := hl.new _ _ _ _ _ hn
    have hfac0 : (view t0).facets = facetsDone (plcData m x.faces keys) 0 := by
      rw [hv0, facetsDone_zero]
      simp only [Option.getD_some, List.map_map]
      rfl
    obtain ⟨t1, e1, hv1⟩ := points_loop3 hl h h3 t0 (by rw [hv0])
    obtain ⟨t2, e2, hv2⟩ := shells_loop hl h (plcData m x.faces keys) _ hplc t1 (by rw [hv1]; exact hfac0) (by rw [hv1]; simp [filled_length])
    obtain ⟨t3, e3, hv3⟩ := faces_fill (n := m.points.length) hl x.faces keys ((m.cells.filter fun c => c.kind.ndim = 2).map fun c => (c.marker, c.points))
      (plcData m x.faces keys) hplc (by
        intro key hkey
        obtain ⟨f, c, k, hf, hr, _⟩ := face_points h hx k2' key hkey
        exact ⟨f, hf, hr⟩) t2 (by rw [hv2]; simp) (by rw [hv2, hv1]; simp [filled_length])
    obtain ⟨t4, e4, hv4⟩ := regions_loop3 hl regions maxs t3 (by rw [hv3, hv2, hv1, hv0]; rfl)
    obtain ⟨t5, e5, hv5⟩ := holes_loop3 hl holes t4 (by rw [hv4, hv3, hv2, hv1, hv0]; rfl)
    rw [e1, Res.bind_ok, e2, Res.bind_ok]
    have hlm : ((m.cells.filter fun c => c.kind.ndim = 2).map (·.id)).length =
      ((m.cells.filter fun c => c.kind.ndim = 2).map fun c => (c.marker, c.points)).length := by simp
    rw [hlm, e3, Res.bind_ok, e4, Res.bind_ok, e5, Res.bind_ok]
    rw [hv4, hv3, hv2, hv1] at hv5
    refine ⟨t5, ?_, ?_, ?_, ?_⟩
    · rw [hv5]
      refine ⟨?_, ⟨_, keys, rfl, k1, k2', ?_, ?_, ?_⟩, rfl, rfl⟩
      · dsimp only
        rw [filled_all]
        exact map_range_getD m.points ⟨0, 0, []⟩ (fun p => some (p.marker, p.coords.getD 0 0, p.coords.getD 1 0, p.coords.getD 2 0))
      · dsimp only
        rw [facetsDone_length, hlen]
      · intro i c hc
        dsimp only
        have : i < (plcData m x.faces keys).length := (List.getElem?_eq_some_iff.1 (hshell i c hc)).1
        rw [List.length_map, ← hlen, facetsDone_all, List.getElem?_map, hshell i c hc]
        rfl
      · intro i key hkey
        obtain ⟨c, k, f, hfirst, hE, hg⟩ := hface i key hkey
        refine ⟨c, k, f, hfirst, hE, ?_⟩
        dsimp only
        rw [List.length_map, ← hlen, facetsDone_all, List.getElem?_map, hg]
        rfl
    · intro e he
      rw [he]; rfl
    · intro t' ht' hgood
      rw [ht', Res.bind_ok, fromTetgen_ok lib t' o2 hgood, Res.bind_ok]
      apply finish_ends _ _ (tetMesh_valid lib t' o2 hgood)
      have := hgood.npoint
      simp only [tetMesh, List.length_map, List.length_range]
      omega
    · intro t' ht' hbad
      rw [ht', Res.bind_ok, fromTetgen_panic lib t' hbad]; rfl

end Tetgen

end Gemlab.Unstructured
