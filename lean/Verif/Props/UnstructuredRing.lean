import Verif.Proofs.UnstructuredRing
import Verif.Props.Convert2d

/-! # C71: the quarter of a ring in 2D -/
namespace Gemlab.Unstructured
open Gemlab.Mesh Gemlab.Shapes Gemlab.Props.Mesh Gemlab.Props.Features

variable {T : Type}

/-- **C71.** The arguments of `quarter_ring_2d` that are rejected. -/
theorem C71_rejects_2d (lib : Trigen T) (o : Orders) (rmin rmax : ℝ) (nr na : Nat) (target : GeoKind) (gmax : Option ℝ) (renumber : Bool) :
    (nr = 0 → quarterRing2d lib o rmin rmax nr na target gmax renumber = .err "number of divisions along the radius must be ≥ 1") ∧
    (nr ≠ 0 → na = 0 → quarterRing2d lib o rmin rmax nr na target gmax renumber = .err "number of divisions along alpha must be ≥ 1") ∧
    (nr ≠ 0 → na ≠ 0 → target ≠ .tri3 → target ≠ .tri6 → target ≠ .tri10 → target ≠ .tri15 →
      quarterRing2d lib o rmin rmax nr na target gmax renumber = .err "the GeoClass of target must be Tri") := by
  unfold quarterRing2d
  refine ⟨?_, ?_, ?_⟩
  · intro h; rw [if_pos (by omega)]
  · intro h h2; rw [if_neg (by omega), if_pos (by omega)]
  · intro h h2 h3 h4 h5 h6
    rw [if_neg (by omega), if_neg (by omega), if_pos]
    cases target <;> first | exact absurd rfl h3 | exact absurd rfl h4 | exact absurd rfl h5 | exact absurd rfl h6 | decide

theorem constrained_valid {rmin rmax : ℝ} {m m' : Mesh ℝ} (h : ValidMesh m) (hc : IsConstrained rmin rmax m m') : ValidMesh m' := by
  have hlen : m'.points.length = m.points.length := hc.points.length_eq.symm
  have hcells : m'.cells = m.cells := by rw [hc.rest]
  have hdim : m'.ndim = m.ndim := by rw [hc.rest]
  have key : ∀ (i : Nat) (p' : Point ℝ), m'.points[i]? = some p' → ∃ p, m.points[i]? = some p ∧ p'.id = p.id ∧ p'.coords.length = p.coords.length := by
    intro i p' hp'
    have hi : i < m.points.length := by rw [← hlen]; exact (List.getElem?_eq_some_iff.1 hp').1
    have hi' : i < m'.points.length := by omega
    have h2 := (List.forall₂_iff_get.1 hc.points).2 i hi hi'
    simp only [List.get_eq_getElem] at h2
    rw [List.getElem?_eq_getElem hi'] at hp'
    cases hp'
    refine ⟨_, List.getElem?_eq_getElem hi, ?_⟩
    by_cases h5 : m.points[i].marker = -5
    · exact ⟨(h2.1 h5).1, (h2.1 h5).2.2.1⟩
    · by_cases h6 : m.points[i].marker = -6
      · exact ⟨(h2.2.1 h6).1, (h2.2.1 h6).2.2.1⟩
      · rw [h2.2.2 h5 h6]; exact ⟨rfl, rfl⟩
  refine ⟨?_, ?_, ?_, ?_, ?_⟩
  · intro p' hp'
    obtain ⟨i, hi⟩ := List.mem_iff_getElem?.1 hp'
    obtain ⟨p, hp, _, hl⟩ := key i p' hi
    rw [hl, hdim]
    exact h.coords p (List.mem_of_getElem? hp)
  · intro i p' hp'
    obtain ⟨p, hp, hid, _⟩ := key i p' hp'
    rw [hid]
    exact h.pointIds i p hp
  · rw [hcells]; exact h.cellIds
  · rw [hcells]; exact h.nnode
  · rw [hcells, hlen]; exact h.inRange

theorem abs_le_dist (x y : ℝ) : |x| ≤ √(x ^ 2 + y ^ 2) := by
  rw [← Real.sqrt_sq_eq_abs]
  exact Real.sqrt_le_sqrt (by nlinarith [sq_nonneg y])

/-- Points moved onto the circles stay in the range of the numbers. -/
theorem constrained_bounded {rmin rmax B : ℝ} {m m' : Mesh ℝ} (h2 : ∀ p ∈ m.points, p.coords.length = 2) (h0 : 0 ≤ rmin) (h0' : 0 ≤ rmax) (hB : rmin ≤ B) (hB' : rmax ≤ B)
    (hb : ∀ p ∈ m.points, ∀ v ∈ p.coords, -B ≤ v ∧ v ≤ B) (hc : IsConstrained rmin rmax m m') :
    ∀ p ∈ m'.points, ∀ v ∈ p.coords, -B ≤ v ∧ v ≤ B := by
  have circ : ∀ r, 0 ≤ r → r ≤ B → ∀ p p' : Point ℝ, p ∈ m.points → OnCircle r p p' → ∀ v ∈ p'.coords, -B ≤ v ∧ v ≤ B := by
    rintro r hr hrB p p' hp ⟨_, _, hlen, _, ⟨rfl, _⟩ | ⟨hd, _⟩⟩ v hv
    · exact hb _ hp v hv
    · rw [h2 p hp] at hlen
      obtain ⟨x, y, hxy⟩ : ∃ x y, p'.coords = [x, y] := by
        match hcs : p'.coords, hlen with
        | [x, y], _ => exact ⟨x, y, rfl⟩
      unfold axisDist at hd
      rw [hxy] at hd hv
      simp only [List.getD_cons_zero, List.getD_cons_succ] at hd
      have hx := abs_le_dist x y
      have hy := abs_le_dist y x
      rw [hd] at hx
      rw [add_comm, hd] at hy
      simp only [List.mem_cons, List.not_mem_nil, or_false] at hv
      rcases hv with rfl | rfl
      · exact ⟨by linarith [(abs_le.1 hx).1], by linarith [(abs_le.1 hx).2]⟩
      · exact ⟨by linarith [(abs_le.1 hy).1], by linarith [(abs_le.1 hy).2]⟩
  intro p' hp' v hv
  obtain ⟨i, hi⟩ := List.mem_iff_getElem?.1 hp'
  have hlen : m'.points.length = m.points.length := hc.points.length_eq.symm
  have hi' : i < m'.points.length := (List.getElem?_eq_some_iff.1 hi).1
  have hi0 : i < m.points.length := by omega
  have hr := (List.forall₂_iff_get.1 hc.points).2 i hi0 hi'
  simp only [List.get_eq_getElem] at hr
  rw [List.getElem?_eq_getElem hi'] at hi
  cases hi
  have hpm : m.points[i] ∈ m.points := List.getElem_mem hi0
  by_cases h5 : m.points[i].marker = -5
  · exact circ rmin h0 hB _ _ hpm (hr.1 h5) v hv
  · by_cases h6 : m.points[i].marker = -6
    · exact circ rmax h0' hB' _ _ hpm (hr.2.1 h6) v hv
    · rw [hr.2.2 h5 h6] at hv
      exact hb _ hpm v hv

/-- **C71.** After the constraints, the points with the marker -5 are at the distance `rmin` and those with the marker -6 at the distance `rmax` from
the axis, up to `1e-15`. -/
theorem C71_on_circles {rmin rmax : ℝ} {m m' : Mesh ℝ} (hc : IsConstrained rmin rmax m m') (p : Point ℝ) (hp : p ∈ m'.points) :
    (p.marker = -5 → |axisDist p - rmin| ≤ 1 / 10 ^ 15) ∧ (p.marker = -6 → |axisDist p - rmax| ≤ 1 / 10 ^ 15) := by
  have circ : ∀ r (q q' : Point ℝ), OnCircle r q q' → |axisDist q' - r| ≤ 1 / 10 ^ 15 := by
    rintro r q q' ⟨_, _, _, _, ⟨rfl, h⟩ | ⟨h, _⟩⟩
    · rw [abs_sub_comm]; exact h
    · rw [h, sub_self, abs_zero]; positivity
  obtain ⟨i, hi⟩ := List.mem_iff_getElem?.1 hp
  have hlen : m'.points.length = m.points.length := hc.points.length_eq.symm
  have hi' : i < m'.points.length := (List.getElem?_eq_some_iff.1 hi).1
  have hi0 : i < m.points.length := by omega
  have hr := (List.forall₂_iff_get.1 hc.points).2 i hi0 hi'
  simp only [List.get_eq_getElem] at hr
  rw [List.getElem?_eq_getElem hi'] at hi
  cases hi
  by_cases h5 : m.points[i].marker = -5
  · have h := hr.1 h5
    refine ⟨fun _ => circ _ _ _ h, fun h6 => ?_⟩
    rw [h.2.1, h5] at h6
    exact absurd h6 (by decide)
  · by_cases h6 : m.points[i].marker = -6
    · have h := hr.2.1 h6
      refine ⟨fun h5' => ?_, fun _ => circ _ _ _ h⟩
      rw [h.2.1, h6] at h5'
      exact absurd h5' (by decide)
    · rw [hr.2.2 h5 h6]
      exact ⟨fun h => absurd h h5, fun h => absurd h h6⟩

/-- **C71.** `quarter_ring_2d`: unless the generator rejects the sizes, it is given the closed polygon of the quarter of a ring. An error of the
generator is returned. Otherwise the points of its mesh with the markers -5 and -6 are moved onto the circles; for `tri3` and `tri6` this is the result
(renumbered if requested); for `tri10` and `tri15` the result is the converted mesh with the constraints applied once more (never renumbered). -/
theorem C71_quarter_ring_2d {lib : Trigen T} {view : T → TriInput} (hl : lib.Contract view) (o : Orders) (ho : o.Valid) (rmin rmax : ℝ)
    (h0 : 0 ≤ rmin) (h0' : 0 ≤ rmax) (nr na : Nat) (hnr : 1 ≤ nr) (hna : 1 ≤ na) (target : GeoKind)
    (ht : target = .tri3 ∨ target = .tri6 ∨ target = .tri10 ∨ target = .tri15) (gmax : Option ℝ) (renumber : Bool) :
    (∃ e, lib.new (2 * nr + 2 * na) (some (2 * nr + 2 * na)) (some 1) none = .err e ∧ quarterRing2d lib o rmin rmax nr na target gmax renumber = .err e) ∨
    ∃ t, IsRing2d rmin rmax nr na (view t) ∧
      (∀ e, lib.generate t false (decide (target ≠ .tri3)) true gmax none = .err e → quarterRing2d lib o rmin rmax nr na target gmax renumber = .err e) ∧
      (∀ t', lib.generate t false (decide (target ≠ .tri3)) true gmax none = .ok t' → lib.outNpoint t' < 2 ∨ lib.outNcell t' < 1 →
        quarterRing2d lib o rmin rmax nr na target gmax renumber = .panic) ∧
      (∀ t', lib.generate t false (decide (target ≠ .tri3)) true gmax none = .ok t' → lib.GoodOutput t' (decide (target ≠ .tri3)) →
        OffAxis (triMesh lib t' (if target = .tri3 then .tri3 else .tri6)) →
        ∃ m1, IsConstrained rmin rmax (triMesh lib t' (if target = .tri3 then .tri3 else .tri6)) m1 ∧
          (target = .tri3 ∨ target = .tri6 → Ends renumber m1 (quarterRing2d lib o rmin rmax nr na target gmax renumber)) ∧
          (target = .tri10 ∨ target = .tri15 → rmin ≤ f64Max → rmax ≤ f64Max →
            (∀ p ∈ (triMesh lib t' .tri6).points, ∀ v ∈ p.coords, -f64Max ≤ v ∧ v ≤ f64Max) → Spread m1 .tri6 →
            m1.cells.length * target.nnode < usizeMax →
            ∃ M, Mesh.IsRenumbered m1 target M ∧ (Conforming m1 .tri6 → IsConverted m1 .tri6 target M) ∧
              (OffAxis M → ∃ M', quarterRing2d lib o rmin rmax nr na target gmax renumber = .ok M' ∧ IsConstrained rmin rmax M M'))) := by
  have hcls : ¬ (target.classOf ≠ GeoClass.tri) := by rcases ht with rfl | rfl | rfl | rfl <;> decide
  have ho2 : decide (target.nnode > 3) = decide (target ≠ .tri3) := by rcases ht with rfl | rfl | rfl | rfl <;> decide
  have hkind : (if decide (target ≠ .tri3) = true then GeoKind.tri6 else GeoKind.tri3) = if target = .tri3 then .tri3 else .tri6 := by
    rcases ht with rfl | rfl | rfl | rfl <;> decide
  unfold quarterRing2d
  rw [if_neg (by omega), if_neg (by omega), if_neg hcls, ho2]
  rcases ringInput2d_ok hl rmin rmax nr na hnr hna with ⟨e, h1, h2⟩ | ⟨t, h1, h2⟩
  · exact Or.inl ⟨e, h1, by rw [h2]; rfl⟩
  · right
    refine ⟨t, h2, ?_, ?_, ?_⟩
    · intro e he
      rw [h1, Res.bind_ok, he]; rfl
    · intro t' he hbad
      rw [h1, Res.bind_ok, he, Res.bind_ok]
      unfold ringFinish2d
      rw [fromTrigen_panic lib t' hbad]; rfl
    · intro t' he hgood hoff
      rw [h1, Res.bind_ok, he, Res.bind_ok]
      have hval := triMesh_valid lib t' _ hgood
      have hfrom := fromTrigen_ok lib t' _ hgood
      rw [hkind] at hval hfrom
      have hdim : (triMesh lib t' (if target = .tri3 then .tri3 else .tri6)).ndim = 2 := rfl
      obtain ⟨m1, ha, hcon⟩ := applyConstraints_spec rmin rmax h0 h0' _ (fun p hp => by rw [hval.coords p hp, hdim]) hoff
      have hval1 := constrained_valid hval hcon
      have hcells : m1.cells = (triMesh lib t' (if target = .tri3 then .tri3 else .tri6)).cells := by rw [hcon.rest]
      refine ⟨m1, hcon, ?_, ?_⟩
      · intro htt
        unfold ringFinish2d
        rw [hfrom, Res.bind_ok, ha, Res.bind_ok, if_neg (by rcases htt with rfl | rfl <;> decide)]
        apply finish_ends renumber m1 hval1
        rw [← hcon.points.length_eq]
        have := hgood.npoint
        simp only [triMesh, List.length_map, List.length_range]
        omega
      · intro htt hr1 hr2 hbd hsp hmem
        have hne3 : (if target = GeoKind.tri3 then GeoKind.tri3 else GeoKind.tri6) = .tri6 := by rcases htt with rfl | rfl <;> rfl
        rw [hne3] at hcon hval hfrom hcells hdim
        have hne : m1.cells ≠ [] := by
          rw [hcells]
          have := hgood.ncell
          intro hh
          have := congrArg List.length hh
          simp only [triMesh, List.length_map, List.length_range, List.length_nil] at this
          omega
        obtain ⟨M, hM, hR, hC⟩ := C46_converts o ho m1 .tri6 target hval1 (by rw [hcon.rest]; rfl) hne (by
            intro cell hcell
            rw [hcells] at hcell
            simp only [triMesh, List.mem_map] at hcell
            obtain ⟨i, _, rfl⟩ := hcell
            rfl) rfl (by rcases htt with rfl | rfl <;> rfl)
          (constrained_bounded (fun p hp => hval.coords p hp) h0 h0' hr1 hr2 hbd hcon) hsp hmem
        refine ⟨M, hR, hC, fun hoM => ?_⟩
        obtain ⟨M', hM', hcM⟩ := applyConstraints_spec rmin rmax h0 h0' M (fun p hp => by rw [hR.valid.coords p hp, hR.ndim]) hoM
        refine ⟨M', ?_, hcM⟩
        unfold ringFinish2d
        rw [hfrom, Res.bind_ok]
        rw [hne3] at ha
        rw [ha, Res.bind_ok, if_pos (by rcases htt with rfl | rfl <;> decide), hM, Res.bind_ok, hM']

/-- **C71.** The seed of the region is inside the polygon (above the x-axis, right of the y-axis, outside the inner circle, and below the chord of the
outer circle) if the ring is thicker than `2e-4`; it is outside the ring if the thickness is at most `1e-4`. -/
theorem C71_seed (rmin rmax : ℝ) (nr na : Nat) (h0 : 0 ≤ rmin) (v : TriInput) (hv : IsRing2d rmin rmax nr na v) :
    ∃ x y, v.regions = [some (1, x, y, none)] ∧ 0 < x ∧ 0 < y ∧ rmin < √(x ^ 2 + y ^ 2) ∧ (rmin + 2 / 10 ^ 4 < rmax → x + y < rmax) ∧
      (rmax ≤ rmin + 1 / 10 ^ 4 → rmax < √(x ^ 2 + y ^ 2)) := by
  have hd : rmin + 1 / 10 ^ 4 < √((rmin + 1 / 10 ^ 4) ^ 2 + (1 / 10 ^ 4) ^ 2) := by
    apply Real.lt_sqrt_of_sq_lt
    have : (0 : ℝ) < (1 / 10 ^ 4) ^ 2 := by positivity
    linarith
  have hp : (0 : ℝ) < 1 / 10 ^ 4 := by positivity
  refine ⟨_, _, hv.regions, by linarith, hp, by linarith, fun h => ?_, fun h => by linarith⟩
  linarith [show (2 : ℝ) / 10 ^ 4 = 1 / 10 ^ 4 + 1 / 10 ^ 4 by norm_num]

end Gemlab.Unstructured
