import Verif.Props.Programs2
import Verif.Props.FromBlocksExample
import Verif.Props.UnstructuredExample

/-! # C81: examples -/
namespace Gemlab.Programs
noncomputable section
open Gemlab Gemlab.Mesh Gemlab.Shapes Gemlab.MeshText Gemlab.Draw

/-- A proper mesh with few cells has few points, marked edges and marked faces. -/
theorem proper_fits {M : Mesh ℝ} (h : Proper M) (hn : M.cells.length ≤ 8) : Fits M := by
  have hp : M.points.length ≤ 256 := by
    have h1 : List.range M.points.length ⊆ M.cells.flatMap (·.points) := by
      intro p hp
      obtain ⟨c, hc, hpc⟩ := h.used p (List.mem_range.1 hp)
      exact List.mem_flatMap.2 ⟨c, hc, hpc⟩
    have h2 : M.points.length ≤ (M.cells.flatMap (·.points)).length := by
      simpa using (List.nodup_range.subperm h1).length_le
    have h3 : ∀ cs : List Cell, (∀ c ∈ cs, c.points.length ≤ 32) → (cs.flatMap (·.points)).length ≤ 32 * cs.length := by
      intro cs
      induction cs with
      | nil => simp
      | cons c cs ih =>
        intro hc
        have a := hc c (by simp)
        have b := ih fun c' h' => hc c' (List.mem_cons_of_mem _ h')
        rw [List.flatMap_cons, List.length_append, List.length_cons]
        omega
    have := h3 M.cells fun c hc => by
      rw [h.valid.nnode c hc]
      cases c.kind <;> decide
    omega
  obtain ⟨N, hN⟩ : ∃ N, N = 256 := ⟨_, rfl⟩
  rw [← hN] at hp
  refine ⟨hp.trans (by rw [hN]; decide), hn.trans (by decide), ?_, ?_⟩
  · have h1 : (M.markedEdges.map (·.2)).toFinset ⊆ Finset.range N ×ˢ Finset.range N := by
      intro x hpq
      obtain ⟨⟨mk, p, q⟩, he, rfl⟩ := List.mem_map.1 (List.mem_toFinset.1 hpq)
      have := h.edges mk p q he
      rw [Finset.mem_product, Finset.mem_range, Finset.mem_range]
      dsimp only
      omega
    have h2 := Finset.card_le_card h1
    rw [List.toFinset_card_of_nodup h.edgesOnce, List.length_map, Finset.card_product, Finset.card_range] at h2
    exact h2.trans (by rw [hN]; decide)
  · have h1 : (M.markedFaces.map (·.2)).toFinset ⊆ Finset.range N ×ˢ Finset.range N ×ˢ Finset.range N ×ˢ Finset.range N := by
      intro x hpq
      obtain ⟨⟨mk, p, q, r, s⟩, he, rfl⟩ := List.mem_map.1 (List.mem_toFinset.1 hpq)
      have := h.faces mk p q r s he
      simp only [List.pairwise_cons, List.mem_cons, List.not_mem_nil, or_false, forall_eq_or_imp, forall_eq] at this
      simp only [Finset.mem_product, Finset.mem_range]
      omega
    have h2 := Finset.card_le_card h1
    rw [List.toFinset_card_of_nodup h.facesOnce, List.length_map] at h2
    simp only [Finset.card_product, Finset.card_range] at h2
    exact h2.trans (by rw [hN]; decide)

/-- For each mesh there is a format of the numbers that is lossless on the mesh: here, the position of the number in the list of all coordinates. -/
theorem exists_lossless (M : Mesh ℝ) : ∃ ft : FloatText ℝ, LosslessOn ft M := by
  classical
  let l : List ℝ := M.points.flatMap (·.coords)
  refine ⟨⟨fun x => showNat (l.idxOf x), fun t => (parseDigits t).bind fun n => l[n]?⟩, fun p hp x hx => ⟨?_, showNat_ne_nil _, ?_⟩⟩
  · dsimp only
    rw [parseDigits_showNat, Option.bind_some]
    have hm : x ∈ l := List.mem_flatMap.2 ⟨p, hp, hx⟩
    rw [List.getElem?_eq_getElem (List.idxOf_lt_length_iff.2 hm), List.getElem_idxOf]
  · exact (showNat_word _).2

theorem exRead : MeshJson.readBlocks2d MeshJson.exReal (MeshJson.writeBlocks2d MeshJson.exReal Structured.exBlocks) = .ok Structured.exBlocks := by
  have h0 : MeshJson.Reread MeshJson.exReal 0 0 := by simpa using MeshJson.exReal_reread (n := 0) (by unfold InI32; decide)
  have h1 : MeshJson.Reread MeshJson.exReal 1 1 := by simpa using MeshJson.exReal_reread (n := 1) (by unfold InI32; decide)
  have h2 : MeshJson.Reread MeshJson.exReal 2 2 := by simpa using MeshJson.exReal_reread (n := 2) (by unfold InI32; decide)
  have h3 : MeshJson.Reread MeshJson.exReal 3 3 := by simpa using MeshJson.exReal_reread (n := 3) (by unfold InI32; decide)
  refine MeshJson.C80_blocks2d MeshJson.exReal_proper ⟨?_, ?_, ?_, ?_, ?_⟩
  · intro p hp
    simp only [Structured.exBlocks, List.mem_cons, List.not_mem_nil, or_false] at hp
    rcases hp with rfl | rfl | rfl | rfl | rfl | rfl <;> exact ⟨by assumption, by assumption⟩
  · unfold InI32 Structured.exBlocks
    decide +kernel
  · intro w hw
    simp only [Structured.exBlocks, List.mem_cons, List.not_mem_nil, or_false] at hw
    rcases hw with rfl | rfl
    · simp
    · refine ⟨fun x hx => ?_, fun x hx => ?_⟩ <;> simp only [List.mem_cons, List.not_mem_nil, or_false] at hx <;> rcases hx with rfl | rfl <;> assumption
  · intro i c h
    simp [Structured.exBlocks] at h
  · unfold InI32 Structured.exBlocks
    decide +kernel

/-- The program run on the JSON file of two squares with `--nnode 8`: an MSH file, which is read as the mesh, and a VTU file; with `--nnode 12`: only the MSH file; with `--nnode 5`: nothing. -/
example : ∃ (ft : FloatText ℝ) (o : Structured.GenOrders), o.Valid ∧ ∀ d : DrawOrders,
    (∃ M t v, qua2msh MeshJson.exReal ft exactInverse o d ⟨8, false, true, false⟩ (MeshJson.writeBlocks2d MeshJson.exReal Structured.exBlocks) = ⟨[.msh t, .vtu v], .ok ()⟩ ∧
      MeshText.read ft t = .ok M ∧ M.cells.length = 8) ∧
    Nothing (qua2msh MeshJson.exReal ft exactInverse o d ⟨5, false, true, false⟩ (MeshJson.writeBlocks2d MeshJson.exReal Structured.exBlocks)) := by
  obtain ⟨o, ho⟩ := Structured.exists_orders
  obtain ⟨ms, h1, h2, h3⟩ := (Structured.C66_blocks_2d exactInverse_spec Block.exactInverse_noPanic Block.exactInverse_total ho Structured.exBlocks .qua8 Structured.exGiven).2
    (Structured.exUsable rfl)
  have hc := Structured.exCan rfl h1 h2
  obtain ⟨M0, e1, e2, -⟩ := h3 hc
  have hlen : M0.cells.length = 8 := by
    have : (geomCells M0).length = 8 := by
      rw [e2.cells]
      match ms, h1 with
      | [A, B], _ =>
        obtain ⟨d, hd, b, hb, hA, -⟩ := h2 0 A rfl
        rw [Structured.exR0] at hd; cases hd
        obtain ⟨d, hd, b', hb', hB, -⟩ := h2 1 B rfl
        rw [Structured.exR1] at hd; cases hd
        have n0 : A.cells.length = 4 := by
          rw [hA.ncell]
          unfold Block.numCells Block.ndivAt
          rw [hb.ndiv_eq, (Block.C41_partition hb.reached).1, if_neg Structured.exW0]
          rfl
        have n1 : B.cells.length = 4 := by
          rw [hB.ncell]
          unfold Block.numCells Block.ndivAt
          rw [hb'.ndiv_eq, (Block.C41_partition hb'.reached).1, if_pos Structured.exW1]
          rfl
        simp [allCells, geomCells, n0, n1]
    simpa [geomCells] using this
  obtain ⟨ft, hft⟩ := exists_lossless M0
  refine ⟨ft, o, ho, fun d => ⟨?_, ?_⟩⟩
  · have hrun : qua2msh MeshJson.exReal ft exactInverse o d ⟨8, false, true, false⟩ (MeshJson.writeBlocks2d MeshJson.exReal Structured.exBlocks) = save ft d ⟨8, false, true, false⟩ true M0 := by
      unfold qua2msh
      rw [after_ok exRead, after_ok (show quaTarget 8 = .ok (GeoKind.qua8, true) from rfl), after_ok e1]
    obtain ⟨c1, c2⟩ := assembly_cells hc.two h2 e2
    have hvtk : HasVtk .qua8 := by unfold HasVtk; decide +kernel
    have hr := assembly_range (i32_2d exRead).1 (i32_2d exRead).2 (by simp) h2 e2 (proper_fits e2.proper hlen.le)
    obtain ⟨t, vs, ss, p1, p2, p3, p4, p5, p6⟩ := (save_delivers (d := d) ⟨8, false, true, false⟩ (k := .qua8) (v := true) (by simp [hvtk]) e2.proper.valid e2.proper.dims c1 c2 hft hr).1 (by simp)
    rw [hrun]
    rcases p5 with ⟨-, v, rfl, -⟩ | ⟨h, -⟩
    · rcases p6 with ⟨c, l, h, -⟩ | ⟨-, rfl⟩
      · exact absurd h (by simp [BlockOptions.drawing])
      · refine ⟨M0, t, v, ?_, p4, hlen⟩
        have : ∀ r : Run, r.products = [.msh t, .vtu v] → r.status = .ok () → r = ⟨[.msh t, .vtu v], .ok ()⟩ := by rintro ⟨_, _⟩ rfl rfl; rfl
        exact this _ p1 p2
    · exact absurd hvtk h
  · refine (C81_rejects (F := MeshJson.exReal) (ft := ft) (inv := exactInverse) (o := o) (d := d) _ _).1 fun b k M _ hk hn _ => ?_
    exfalso
    cases k <;> first | exact absurd hk (by decide) | exact absurd hn (by decide)

/-- The file of a tetrahedron and a shell; without the option `--region` the program panics. -/
example (o : Orders) : ∃ (ft : FloatText ℝ) (input : Text),
    ∃ m, MeshText.read ft input = .ok m ∧ ValidMesh m ∧ m.ndim = 3 ∧ Unstructured.FacetsSpread m ∧
      msh2tet ft Unstructured.recorder3d o (fun l => l) [] true false none input = ⟨[], .panic⟩ := by
  obtain ⟨ft, hft⟩ := exists_lossless Unstructured.tetra
  obtain ⟨t, h1, h2⟩ := saved Unstructured.tetra Unstructured.tetra_valid (.inr rfl) (by simp [Unstructured.tetra]) hft (by
    refine ⟨by decide, by decide, by decide, by decide, ?_, ?_, ?_, ?_⟩
    · intro p hp
      simp [Unstructured.tetra] at hp
      rcases hp with rfl | rfl | rfl | rfl | rfl <;> (unfold InI32; decide)
    · unfold InI32 Unstructured.tetra; decide +kernel
    · unfold InI32 Unstructured.tetra; decide +kernel
    · unfold InI32 Unstructured.tetra; decide +kernel)
  refine ⟨ft, t, _, h2, Unstructured.tetra_valid, rfl, Unstructured.tetra_spread, ?_⟩
  unfold msh2tet
  rw [after_ok h2]
  rfl

/-- The file of the unit square is drawn, whatever layers are asked for. -/
example (d : DrawOrders) (ho : d.features.Valid) (hE : IterOrder d.iterE) (hF : IterOrder d.iterF) (hB : IterOrder d.iterB) : ∃ (ft : FloatText ℝ) (input : Text),
    ∀ opt : DrawOptions, opt.skipCheck = true → ∃ L, drawmsh ft exactInverse d opt input = ⟨[.svg L], .ok ()⟩ ∧ ShowsOptions opt L := by
  obtain ⟨ft, hft⟩ := exists_lossless Props.Features.square
  have hv := Props.Features.square_valid
  obtain ⟨t, h1, h2⟩ := saved Props.Features.square hv (.inl rfl) (by simp [Props.Features.square]) hft (by
    refine ⟨by decide, by decide, by decide, by decide, ?_, ?_, ?_, ?_⟩
    · intro p hp
      simp [Props.Features.square] at hp
      rcases hp with rfl | rfl | rfl | rfl <;> (unfold InI32; decide)
    · unfold InI32 Props.Features.square; decide +kernel
    · unfold InI32 Props.Features.square; decide +kernel
    · unfold InI32 Props.Features.square; decide +kernel)
  refine ⟨ft, t, fun opt hs => ?_⟩
  obtain ⟨R, L, hR, hL, -⟩ := C77_all_example d.features ho opt.settings hE hF hB
  have hL : drawAll d opt.settings Props.Features.square = .ok L := hL
  refine ⟨L, ?_, shows_options hL⟩
  have hg : ¬ BadGlyph opt Props.Features.square := fun h => absurd h.1 (by simp [Props.Features.square])
  unfold drawmsh
  rw [after_ok h2, if_pos hs, after_ok rfl, after_ok ((setGlyph_iff opt _).2 hg), after_ok hL]
  rfl

end
end Gemlab.Programs
