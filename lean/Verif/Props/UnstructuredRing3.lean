import Verif.Props.UnstructuredRing
import Verif.Proofs.UnstructuredRing3

/-! # C71: the quarter of a ring in 3D -/
namespace Gemlab.Unstructured
open Gemlab.Mesh Gemlab.Shapes Gemlab.Props.Mesh Gemlab.Props.Features

variable {T : Type}

/-- **C71.** The arguments of `quarter_ring_3d` that are rejected. -/
theorem C71_rejects_3d (lib : Tetgen T) (rmin rmax thickness : ℝ) (nr na : Nat) (target : GeoKind) (gmax : Option ℝ) (renumber : Bool) :
    (nr = 0 → quarterRing3d lib rmin rmax thickness nr na target gmax renumber = .err "number of divisions along the radius must be ≥ 1") ∧
    (nr ≠ 0 → na = 0 → quarterRing3d lib rmin rmax thickness nr na target gmax renumber = .err "number of divisions along alpha must be ≥ 1") ∧
    (nr ≠ 0 → na ≠ 0 → thickness ≤ 0 → quarterRing3d lib rmin rmax thickness nr na target gmax renumber = .err "thickness must be > 0.0") ∧
    (nr ≠ 0 → na ≠ 0 → 0 < thickness → target ≠ .tet4 → target ≠ .tet10 → target ≠ .tet20 →
      quarterRing3d lib rmin rmax thickness nr na target gmax renumber = .err "the GeoClass of target must be Tet") ∧
    (nr ≠ 0 → na ≠ 0 → 0 < thickness → target = .tet20 →
      quarterRing3d lib rmin rmax thickness nr na target gmax renumber = .err "only Tet4 and Tet10 are available currently") := by
  unfold quarterRing3d
  refine ⟨?_, ?_, ?_, ?_, ?_⟩
  · intro h; rw [if_pos (by omega)]
  · intro h h2; rw [if_neg (by omega), if_pos (by omega)]
  · intro h h2 h3; rw [if_neg (by omega), if_neg (by omega), if_pos h3]
  · intro h h2 ht h3 h4 h5
    rw [if_neg (by omega), if_neg (by omega), if_neg (not_le.2 ht), if_pos]
    cases target <;> first | exact absurd rfl h3 | exact absurd rfl h4 | exact absurd rfl h5 | decide
  · rintro h h2 ht rfl
    rw [if_neg (by omega), if_neg (by omega), if_neg (not_le.2 ht), if_neg (by decide), if_pos (by decide)]

theorem raised_step {S : Int → Prop} {m0 f mk : Int} (h : IsRaisedMarker S m0 f) (hS : ∀ s, S s → s ≠ 0) (hmk : mk ≠ 0) :
    IsRaisedMarker (fun s => S s ∨ s = mk) m0 (if f = 0 ∨ f < mk then mk else f) := by
  refine ⟨fun hno => absurd ⟨mk, Or.inr rfl⟩ hno, fun _ => ?_⟩
  by_cases hex : ∃ s, S s
  · obtain ⟨hmem, hub⟩ := h.2 hex
    have hf0 : f ≠ 0 := by
      rcases hmem with hs | ⟨h1, h2⟩
      · exact hS f hs
      · rw [h1]; exact h2
    by_cases hlt : f < mk
    · rw [if_pos (Or.inr hlt)]
      refine ⟨Or.inl (Or.inr rfl), ?_⟩
      rintro s ((hs | rfl) | hs)
      · exact (hub (Or.inl hs)).trans hlt.le
      · exact le_refl _
      · exact (hub (Or.inr hs)).trans hlt.le
    · rw [if_neg (by tauto)]
      refine ⟨?_, ?_⟩
      · rcases hmem with hs | hs
        · exact Or.inl (Or.inl hs)
        · exact Or.inr hs
      · rintro s ((hs | rfl) | hs)
        · exact hub (Or.inl hs)
        · exact not_lt.1 hlt
        · exact hub (Or.inr hs)
  · have hf := h.1 hex
    subst hf
    by_cases hc : f = 0 ∨ f < mk
    · rw [if_pos hc]
      refine ⟨Or.inl (Or.inr rfl), ?_⟩
      rintro s ((hs | rfl) | ⟨rfl, hne⟩)
      · exact absurd ⟨s, hs⟩ hex
      · exact le_refl _
      · rcases hc with hc | hc
        · exact absurd hc hne
        · exact hc.le
    · rw [if_neg hc]
      push Not at hc
      refine ⟨Or.inr ⟨rfl, hc.1⟩, ?_⟩
      rintro s ((hs | rfl) | ⟨rfl, _⟩)
      · exact absurd ⟨s, hs⟩ hex
      · exact hc.2
      · exact le_refl _

theorem raised_congr {S S' : Int → Prop} {m0 f : Int} (h : IsRaisedMarker S m0 f) (hS : ∀ s, S' s ↔ S s) : IsRaisedMarker S' m0 f := by
  have : S' = S := funext fun s => propext (hS s)
  rw [this]; exact h

/-- The points after some of the faces: relation `S q` gives the markers met so far. -/
def RaisedPts (pts : List (Point ℝ)) (S : Nat → Int → Prop) (pts' : List (Point ℝ)) : Prop :=
  pts'.length = pts.length ∧ ∀ (q : Nat) (p : Point ℝ), pts[q]? = some p → ∃ f, pts'[q]? = some ⟨p.id, f, p.coords⟩ ∧ IsRaisedMarker (S q) p.marker f

theorem raisedPts_congr {pts pts' : List (Point ℝ)} {S S' : Nat → Int → Prop} (h : RaisedPts pts S pts') (hS : ∀ q s, S' q s ↔ S q s) : RaisedPts pts S' pts' :=
  ⟨h.1, fun q p hp => by obtain ⟨f, h1, h2⟩ := h.2 q p hp; exact ⟨f, h1, raised_congr h2 (hS q)⟩⟩

theorem raiseMarker_ok {pts pts' : List (Point ℝ)} {S : Nat → Int → Prop} (h : RaisedPts pts S pts') (mk : Int) (hmk : mk ≠ 0)
    (hS : ∀ q s, S q s → s ≠ 0) (buf : List Nat) (m q0 : Nat) (hq : buf[m]? = some q0) (hr : q0 < pts.length) :
    ∃ pts'', raiseMarker mk buf pts' m = .ok pts'' ∧ RaisedPts pts (fun q s => S q s ∨ (q = q0 ∧ s = mk)) pts'' := by
  obtain ⟨f, h1, h2⟩ := h.2 q0 pts[q0] (List.getElem?_eq_getElem hr)
  have hst := raised_step h2 (hS q0) hmk
  have hlt : q0 < pts'.length := by rw [h.1]; exact hr
  unfold raiseMarker
  rw [Res.idx_eq_ok.2 hq, Res.bind_ok, Res.idx_eq_ok.2 h1, Res.bind_ok]
  dsimp only
  have other : ∀ q, q ≠ q0 → ∀ p f', IsRaisedMarker (S q) p f' → IsRaisedMarker (fun s => S q s ∨ (q = q0 ∧ s = mk)) p f' := by
    intro q hne p f' hh
    exact raised_congr hh fun s => by simp [hne]
  by_cases hc : f = 0 ∨ f < mk
  · rw [if_pos hc] at hst ⊢
    refine ⟨_, setIdx_of_lt _ hlt, by rw [List.length_set, h.1], ?_⟩
    intro q p hp
    by_cases hqq : q = q0
    · subst hqq
      rw [List.getElem?_eq_getElem hr] at hp
      cases hp
      refine ⟨mk, by rw [List.getElem?_set_self hlt], raised_congr hst fun s => by simp⟩
    · obtain ⟨f', g1, g2⟩ := h.2 q p hp
      exact ⟨f', by rw [List.getElem?_set_ne (Ne.symm hqq)]; exact g1, other q hqq _ _ g2⟩
  · rw [if_neg hc] at hst ⊢
    refine ⟨pts', rfl, h.1, ?_⟩
    intro q p hp
    by_cases hqq : q = q0
    · subst hqq
      rw [List.getElem?_eq_getElem hr] at hp
      cases hp
      exact ⟨f, h1, raised_congr hst fun s => by simp⟩
    · obtain ⟨f', g1, g2⟩ := h.2 q p hp
      exact ⟨f', g1, other q hqq _ _ g2⟩

theorem raise_ok (lib : Tetgen T) (t : T) (o2 : Bool) (hg : lib.GoodOutput t o2) (hz : ∀ i < lib.outNMarkedFace t, (outFace lib t i).1 ≠ 0)
    (pts : List (Point ℝ)) (hlen : pts.length = lib.outNpoint t) :
    ∃ s, (List.range (lib.outNMarkedFace t)).foldlM (raiseMarkers lib t (if o2 then 6 else 3)) (List.replicate 6 0, pts) = .ok s ∧
      RaisedPts pts (fun q s => ∃ i < lib.outNMarkedFace t, FaceHas lib t (if o2 then 6 else 3) i q ∧ s = (outFace lib t i).1) s.2 := by
  have hn6 : (if o2 = true then 6 else 3) ≤ 6 := by split <;> omega
  obtain ⟨s, e, _, h⟩ := Res.foldlM_range (raiseMarkers lib t (if o2 then 6 else 3)) (lib.outNMarkedFace t) (List.replicate 6 0, pts)
    (fun k s => s.1.length = 6 ∧ RaisedPts pts (fun q mk => ∃ i < k, FaceHas lib t (if o2 then 6 else 3) i q ∧ mk = (outFace lib t i).1) s.2)
    ⟨by simp, rfl, fun q p hp => ⟨p.marker, hp, fun _ => rfl, fun ⟨s, i, hi, _⟩ => by omega⟩⟩ (by
      rintro k ⟨buf, pts'⟩ hk ⟨h6, hR⟩
      dsimp only at h6 hR
      unfold raiseMarkers
      dsimp only
      obtain ⟨hb1, hb2⟩ := hg.faceBuffer k hk buf (List.replicate 6 0) h6 (by simp)
      have hb6 := hg.face k hk buf h6
      obtain ⟨pts'', e, hR'⟩ := Res.foldlM_range (raiseMarker (lib.outMarkedFace t k buf).1 (lib.outMarkedFace t k buf).2) (if o2 then 6 else 3) pts'
        (fun j l => RaisedPts pts (fun q mk => (∃ i < k, FaceHas lib t (if o2 then 6 else 3) i q ∧ mk = (outFace lib t i).1) ∨
          ((∃ m < j, (outFace lib t k).2[m]? = some q) ∧ mk = (outFace lib t k).1)) l)
        (raisedPts_congr hR fun q s => by simp) (by
          intro j l hj hl
          obtain ⟨q0, hq0⟩ : ∃ q0, (lib.outMarkedFace t k buf).2[j]? = some q0 := ⟨_, List.getElem?_eq_getElem (by omega)⟩
          have hq0' : (outFace lib t k).2[j]? = some q0 := by rw [← hq0]; exact (hb2 j hj).symm
          obtain ⟨l', e, hl'⟩ := raiseMarker_ok hl (lib.outMarkedFace t k buf).1 (by rw [hb1]; exact hz k hk) (by
              rintro q s (⟨i, hi, _, rfl⟩ | ⟨_, rfl⟩)
              · exact hz i (by omega)
              · exact hz k hk) _ j q0 hq0 (by rw [hlen]; exact hg.faceRange k hk buf h6 j hj q0 hq0)
          refine ⟨l', e, raisedPts_congr hl' fun q s => ?_⟩
          rw [hb1]
          change _ ↔ _ ∨ (q = q0 ∧ s = (outFace lib t k).1)
          constructor
          · rintro (h | ⟨⟨m, hm, hq⟩, hs⟩)
            · exact Or.inl (Or.inl h)
            · by_cases hmj : m = j
              · subst hmj
                rw [hq0'] at hq
                cases hq
                exact Or.inr ⟨rfl, hs⟩
              · exact Or.inl (Or.inr ⟨⟨m, by omega, hq⟩, hs⟩)
          · rintro ((h | ⟨⟨m, hm, hq⟩, hs⟩) | ⟨rfl, hs⟩)
            · exact Or.inl h
            · exact Or.inr ⟨⟨m, by omega, hq⟩, hs⟩
            · exact Or.inr ⟨⟨j, by omega, hq0'⟩, hs⟩)
      rw [e, Res.bind_ok]
      refine ⟨_, rfl, hb6, raisedPts_congr hR' fun q s => ?_⟩
      constructor
      · rintro ⟨i, hi, hh, hs⟩
        by_cases hik : i = k
        · subst hik
          exact Or.inr ⟨hh, hs⟩
        · exact Or.inl ⟨i, by omega, hh, hs⟩
      · rintro (⟨i, hi, hh, hs⟩ | ⟨hh, hs⟩)
        · exact ⟨i, by omega, hh, hs⟩
        · exact ⟨k, by omega, hh, hs⟩)
  exact ⟨s, e, h⟩

theorem raised_valid {m m' : Mesh ℝ} {S : Nat → Int → Prop} (h : ValidMesh m) (hm : m' = { m with points := m'.points }) (hr : RaisedPts m.points S m'.points) : ValidMesh m' := by
  have hcells : m'.cells = m.cells := by rw [hm]
  have hdim : m'.ndim = m.ndim := by rw [hm]
  have key : ∀ (i : Nat) (p' : Point ℝ), m'.points[i]? = some p' → ∃ p, m.points[i]? = some p ∧ p'.id = p.id ∧ p'.coords = p.coords := by
    intro i p' hp'
    have hi : i < m.points.length := by rw [← hr.1]; exact (List.getElem?_eq_some_iff.1 hp').1
    obtain ⟨f, g, _⟩ := hr.2 i _ (List.getElem?_eq_getElem hi)
    rw [hp'] at g
    cases g
    exact ⟨_, List.getElem?_eq_getElem hi, rfl, rfl⟩
  refine ⟨?_, ?_, ?_, ?_, ?_⟩
  · intro p' hp'
    obtain ⟨i, hi⟩ := List.mem_iff_getElem?.1 hp'
    obtain ⟨p, hp, _, hl⟩ := key i p' hi
    rw [hl, hdim]
    exact h.coords p (List.mem_of_getElem? hp)
  · intro i p' hp'
    obtain ⟨p, hp, hid, _⟩ := key i p' hp'
    rw [hid]
    exact h.pointIds i p hp
  · rw [hcells]; exact h.cellIds
  · rw [hcells]; exact h.nnode
  · rw [hcells, hr.1]; exact h.inRange

/-- **C71.** `quarter_ring_3d`: unless the generator rejects the sizes, it is given the complex of the quarter of a ring. An error of the generator is
returned. Otherwise the points of its mesh get the markers of the marked faces (the greatest one), the points with the markers -5 and -6 are moved
onto the cylinders, and this is the result (renumbered if requested). -/
theorem C71_quarter_ring_3d {lib : Tetgen T} {view : T → TetInput} (hl : lib.Contract view) (rmin rmax thickness : ℝ)
    (h0 : 0 ≤ rmin) (h0' : 0 ≤ rmax) (hth : 0 < thickness) (nr na : Nat) (hnr : 1 ≤ nr) (hna : 1 ≤ na) (target : GeoKind)
    (ht : target = .tet4 ∨ target = .tet10) (gmax : Option ℝ) (renumber : Bool) :
    (∃ e, lib.new (2 * (2 * nr + 2 * na)) (some ((List.range (4 + 2 * na)).map fun k => (ringFacet nr na k).2.length)) (some 1) none = .err e ∧
      quarterRing3d lib rmin rmax thickness nr na target gmax renumber = .err e) ∨
    ∃ t, IsRing3d rmin rmax thickness nr na (view t) ∧
      (∀ e, lib.generate t false (decide (target = .tet10)) gmax none = .err e → quarterRing3d lib rmin rmax thickness nr na target gmax renumber = .err e) ∧
      (∀ t', lib.generate t false (decide (target = .tet10)) gmax none = .ok t' → lib.outNpoint t' < 2 ∨ lib.outNcell t' < 1 →
        quarterRing3d lib rmin rmax thickness nr na target gmax renumber = .panic) ∧
      (∀ t', lib.generate t false (decide (target = .tet10)) gmax none = .ok t' → lib.GoodOutput t' (decide (target = .tet10)) →
        (∀ i < lib.outNMarkedFace t', (outFace lib t' i).1 ≠ 0) →
        ∃ m1, IsRaised lib t' (if target = .tet10 then 6 else 3) (tetMesh lib t' target) m1 ∧
          (OffAxis m1 → ∃ m2, IsConstrained rmin rmax m1 m2 ∧ Ends renumber m2 (quarterRing3d lib rmin rmax thickness nr na target gmax renumber))) := by
  have hcls : ¬ (target.classOf ≠ GeoClass.tet) := by rcases ht with rfl | rfl <;> decide
  have htt : ¬ (target ≠ GeoKind.tet4 ∧ target ≠ GeoKind.tet10) := by tauto
  have ho2 : decide (target.nnode > 4) = decide (target = .tet10) := by rcases ht with rfl | rfl <;> decide
  have hkind : (if decide (target = .tet10) = true then GeoKind.tet10 else GeoKind.tet4) = target := by
    rcases ht with rfl | rfl <;> decide
  have hn : (if decide (target = .tet10) = true then 6 else 3) = (if target = .tet10 then 6 else 3) := by
    rcases ht with rfl | rfl <;> decide
  unfold quarterRing3d
  rw [if_neg (by omega), if_neg (by omega), if_neg (not_le.2 hth), if_neg hcls, if_neg htt, ho2]
  rcases ringInput3d_ok hl rmin rmax thickness nr na hnr hna with ⟨e, h1, h2⟩ | ⟨t, h1, h2⟩
  · exact Or.inl ⟨e, h1, by rw [h2]; rfl⟩
  · right
    refine ⟨t, h2, ?_, ?_, ?_⟩
    · intro e he
      rw [h1, Res.bind_ok, he]; rfl
    · intro t' he hbad
      rw [h1, Res.bind_ok, he, Res.bind_ok]
      unfold ringFinish3d
      rw [fromTetgen_panic lib t' hbad]; rfl
    · intro t' he hgood hz
      rw [h1, Res.bind_ok, he, Res.bind_ok]
      have hval := tetMesh_valid lib t' _ hgood
      have hfrom := fromTetgen_ok lib t' _ hgood
      rw [hkind] at hval hfrom
      have hlen : (tetMesh lib t' target).points.length = lib.outNpoint t' := by simp [tetMesh]
      obtain ⟨s, es, hs⟩ := raise_ok lib t' _ hgood hz _ hlen
      rw [hn] at hs es
      have hdim : (tetMesh lib t' target).ndim = 3 := rfl
      have hval1 : ValidMesh { tetMesh lib t' target with points := s.2 } := raised_valid hval rfl hs
      refine ⟨{ tetMesh lib t' target with points := s.2 }, ⟨rfl, hs.1, hs.2⟩, fun hoff => ?_⟩
      obtain ⟨m2, e2, h2⟩ := applyConstraints_spec rmin rmax h0 h0' _ (fun p hp => by rw [hval1.coords p hp]; exact (by decide : 2 ≤ 3)) hoff
      refine ⟨m2, h2, ?_⟩
      unfold ringFinish3d
      rw [hfrom, Res.bind_ok, hn, es, Res.bind_ok, e2, Res.bind_ok]
      apply finish_ends renumber m2 (constrained_valid hval1 h2)
      rw [← h2.points.length_eq]
      have := hgood.npoint
      have := hs.1
      dsimp only
      omega

end Gemlab.Unstructured
