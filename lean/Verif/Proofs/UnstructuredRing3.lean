import Verif.Proofs.UnstructuredRing
import Verif.Proofs.UnstructuredPlc

/-! # The complex of a quarter of a ring in 3D -/
namespace Gemlab.Unstructured
open Gemlab.Mesh Gemlab.Shapes

variable {T : Type}

theorem foldlM_congr {α σ : Type} (L : List α) (f g : σ → α → Res σ) (s : σ) (h : ∀ a ∈ L, ∀ s, f s a = g s a) : L.foldlM f s = L.foldlM g s := by
  induction L generalizing s with
  | nil => rfl
  | cons a L ih =>
    rw [List.foldlM_cons, List.foldlM_cons, h a (by simp)]
    congr 1
    funext s'
    exact ih s' fun b hb => h b (by simp [hb])

/-! ## Points -/

noncomputable def ringPt3 (rmin rmax thickness : ℝ) (nr na j : Nat) : Int × ℝ × ℝ × ℝ :=
  if j < 2 * nr + 2 * na then ((ringPt rmin rmax nr na j).1, (ringPt rmin rmax nr na j).2.1, (ringPt rmin rmax nr na j).2.2, 0)
  else ((ringPt rmin rmax nr na (j - (2 * nr + 2 * na))).1, (ringPt rmin rmax nr na (j - (2 * nr + 2 * na))).2.1, (ringPt rmin rmax nr na (j - (2 * nr + 2 * na))).2.2, thickness)

/-- One pass of all loops. -/
def layerStep (lib : Tetgen T) (mk : Int) (x y z : ℝ) (s : T × Nat) : Res (T × Nat) := do
  let t ← lib.setPoint s.1 s.2 mk x y z
  pure (t, s.2 + 1)

/-- `p` of `n` points are written. -/
def LayerInv (view : T → TetInput) (v0 : TetInput) (f : Nat → Int × ℝ × ℝ × ℝ) (n p : Nat) (s : T × Nat) : Prop :=
  s.2 = p ∧ view s.1 = { v0 with points := filled f n p }

theorem layerStep_ok {lib : Tetgen T} {view : T → TetInput} (hl : lib.Contract view) (v0 : TetInput) (f : Nat → Int × ℝ × ℝ × ℝ) (n p : Nat) (s : T × Nat)
    (h : LayerInv view v0 f n p s) (hp : p < n) (mk : Int) (x y z : ℝ) (hpt : f p = (mk, x, y, z)) :
    ∃ s', layerStep lib mk x y z s = .ok s' ∧ LayerInv view v0 f n (p + 1) s' := by
  obtain ⟨h1, h2⟩ := h
  obtain ⟨t, e1, v1⟩ := hl.setPoint s.1 s.2 mk x y z (by rw [h2]; simp only [filled_length]; omega)
  refine ⟨(t, s.2 + 1), ?_, by rw [h1], ?_⟩
  · unfold layerStep
    rw [e1, Res.bind_ok]; rfl
  · rw [v1, h2, h1]
    dsimp only
    rw [filled_set _ _ _ _ hpt.symm]

theorem layer_loop {lib : Tetgen T} {view : T → TetInput} (hl : lib.Contract view) (v0 : TetInput) (f : Nat → Int × ℝ × ℝ × ℝ) (n p k : Nat) (s : T × Nat)
    (h : LayerInv view v0 f n p s) (hp : p + k ≤ n) (g : T × Nat → Nat → Res (T × Nat))
    (hg : ∀ i < k, ∃ mk x y z, (∀ s, g s i = layerStep lib mk x y z s) ∧ f (p + i) = (mk, x, y, z)) :
    ∃ s', (List.range k).foldlM g s = .ok s' ∧ LayerInv view v0 f n (p + k) s' := by
  apply Res.foldlM_range g k s (fun i s => LayerInv view v0 f n (p + i) s) h
  intro i s' hi hs'
  obtain ⟨mk, x, y, z, e1, e2⟩ := hg i hi
  rw [e1]
  exact layerStep_ok hl v0 f n (p + i) s' hs' (by omega) mk x y z e2

/-- One layer: the points of the polygon at the height `z`. -/
theorem ringLayer_ok {lib : Tetgen T} {view : T → TetInput} (hl : lib.Contract view) (v0 : TetInput) (f : Nat → Int × ℝ × ℝ × ℝ) (N p : Nat)
    (rmin rmax thickness : ℝ) (nr na : Nat) (hna : 1 ≤ na) (s : T × Nat)
    (h : LayerInv view v0 f N p s) (hp : p + (2 * nr + 2 * na) ≤ N) (k : Nat)
    (hf : ∀ j < 2 * nr + 2 * na, f (p + j) = ((ringPt rmin rmax nr na j).1, (ringPt rmin rmax nr na j).2.1, (ringPt rmin rmax nr na j).2.2, (k : ℝ) * (thickness / ((1 : Nat) : ℝ)))) :
    ∃ s', ringLayer lib rmin rmax thickness nr na s k = .ok s' ∧ LayerInv view v0 f N (p + (2 * nr + 2 * na)) s' := by
  unfold ringLayer
  obtain ⟨s1, e1, i1⟩ := layerStep_ok hl v0 f N p s h (by omega) markerA rmin 0 ((k : ℝ) * (thickness / ((1 : Nat) : ℝ))) (by
    have := hf 0 (by omega)
    rw [Nat.add_zero] at this
    rw [this]
    unfold ringPt
    rw [if_pos rfl])
  have e1' : ∃ t1, lib.setPoint s.1 s.2 markerA rmin 0 ((k : ℝ) * (thickness / ((1 : Nat) : ℝ))) = .ok t1 ∧ s1 = (t1, s.2 + 1) := by
    unfold layerStep at e1
    obtain ⟨t1, a, b⟩ := Res.bind_eq_ok.1 e1
    cases b
    exact ⟨t1, a, rfl⟩
  obtain ⟨t1, e1a, rfl⟩ := e1'
  dsimp only
  rw [e1a, Res.bind_ok]
  obtain ⟨s2, e2, i2⟩ := layer_loop hl v0 f N (p + 1) nr _ i1 (by omega) (layerBottom lib rmin rmax ((k : ℝ) * (thickness / ((1 : Nat) : ℝ))) nr) (by
    intro i hi
    refine ⟨_, _, _, _, fun s => rfl, ?_⟩
    rw [show p + 1 + i = p + (i + 1) by omega, hf (i + 1) (by omega)]
    unfold ringPt
    rw [if_neg (by omega), if_pos (by omega)])
  rw [e2, Res.bind_ok]
  obtain ⟨s3, e3, i3⟩ := layer_loop hl v0 f N (p + 1 + nr) na _ i2 (by omega) (layerOuter lib rmax ((k : ℝ) * (thickness / ((1 : Nat) : ℝ))) na) (by
    intro i hi
    refine ⟨_, _, _, _, fun s => rfl, ?_⟩
    rw [show p + 1 + nr + i = p + (nr + (i + 1)) by omega, hf (nr + (i + 1)) (by omega)]
    unfold ringPt
    rw [if_neg (by omega), if_neg (by omega), if_pos (by omega)]
    have e : nr + (i + 1) - nr = i + 1 := by omega
    rw [e]
    congr 1
    by_cases h : i + 1 = na
    · rw [if_pos h, if_pos (by omega)]
    · rw [if_neg h, if_neg (by omega)])
  rw [e3, Res.bind_ok]
  obtain ⟨s4, e4, i4⟩ := layer_loop hl v0 f N (p + 1 + nr + na) nr _ i3 (by omega) (layerLeft lib rmin rmax ((k : ℝ) * (thickness / ((1 : Nat) : ℝ))) nr) (by
    intro i hi
    refine ⟨_, _, _, _, fun s => rfl, ?_⟩
    rw [show p + 1 + nr + na + i = p + (nr + na + (i + 1)) by omega, hf (nr + na + (i + 1)) (by omega)]
    unfold ringPt
    rw [if_neg (by omega), if_neg (by omega), if_neg (by omega), if_pos (by omega)]
    have e : nr + na + (i + 1) - nr - na = i + 1 := by omega
    rw [e]
    congr 1
    by_cases h : i + 1 = nr
    · rw [if_pos h, if_pos (by omega)]
    · rw [if_neg h, if_neg (by omega)])
  rw [e4, Res.bind_ok]
  obtain ⟨s5, e5, i5⟩ := layer_loop hl v0 f N (p + 1 + nr + na + nr) (na - 1) _ i4 (by omega) (layerInner lib rmin ((k : ℝ) * (thickness / ((1 : Nat) : ℝ))) na) (by
    intro i hi
    refine ⟨_, _, _, _, fun s => rfl, ?_⟩
    rw [show p + 1 + nr + na + nr + i = p + (nr + na + nr + (i + 1)) by omega, hf (nr + na + nr + (i + 1)) (by omega)]
    unfold ringPt
    rw [if_neg (by omega), if_neg (by omega), if_neg (by omega), if_neg (by omega)]
    have e : nr + na + nr + (i + 1) - nr - na - nr = i + 1 := by omega
    rw [e])
  refine ⟨s5, e5, ?_⟩
  rw [show p + 1 + nr + na + nr + (na - 1) = p + (2 * nr + 2 * na) by omega] at i5
  exact i5

/-! ## Facets -/

theorem capFacet_eq (lib : Tetgen T) (f : Nat) (marker : Int) (pivot n : Nat) (t : T) :
    capFacet lib f marker pivot n t = plcFacet lib t f marker ((List.range n).map (pivot + ·)) := by
  unfold capFacet plcFacet
  congr 1
  funext t1
  rw [List.length_map, List.length_range]
  apply foldlM_congr
  intro i hi s
  rw [Res.idx_eq_ok.2 (show ((List.range n).map (pivot + ·))[i]? = some (pivot + i) by
    rw [List.getElem?_map, List.getElem?_range (List.mem_range.1 hi)]; rfl), Res.bind_ok]

theorem range_four : List.range 4 = [0, 1, 2, 3] := by decide

theorem cylFacet_eq (lib : Tetgen T) (first : Nat) (marker : Int) (a b c d : Nat) (t : T) (i : Nat) :
    cylFacet lib first marker [a, b, c, d] t i = plcFacet lib t (first + i) marker [a + i, b + i, c + i, d + i] := by
  unfold cylFacet plcFacet
  congr 1

theorem lastFacet_eq (lib : Tetgen T) (f : Nat) (marker : Int) (a b c d : Nat) (t : T) :
    lastFacet lib f marker a b c d t = plcFacet lib t f marker [a, b, c, d] := by
  unfold lastFacet plcFacet
  congr 1
  funext t1
  simp only [List.length_cons, List.length_nil, range_four, List.foldlM_cons, List.foldlM_nil, Res.idx, List.getElem?_cons_zero, List.getElem?_cons_succ, Res.bind_ok]
  congr 1; funext t2
  congr 1; funext t3
  congr 1; funext t4
  show lib.setFacetPoint t4 f 3 d = lib.setFacetPoint t4 f 3 d >>= fun t => pure t
  cases lib.setFacetPoint t4 f 3 d <;> rfl

/-- The facets on the planes of symmetry: written from both ends. -/
theorem symFacet_ok {lib : Tetgen T} {view : T → TetInput} (hl : lib.Contract view) (F : List (Int × List Nat)) (k : Nat) (hk : k < F.length)
    (t0 : T) (h0 : (view t0).facets = facetsDone F k) (nr : Nat) (hlen : (F.getD k (0, [])).2.length = 2 * (nr + 1))
    (hr : ∀ q ∈ (F.getD k (0, [])).2, q < (view t0).points.length) (lo hi : Nat → Nat)
    (hlo : ∀ i ≤ nr, lo i = (F.getD k (0, [])).2.getD i 0) (hhi : ∀ i ≤ nr, hi i = (F.getD k (0, [])).2.getD (nr + 1 + nr - i) 0) :
    ∃ t1, (lib.setFacetMarker t0 k (F.getD k (0, [])).1 >>= fun t => (List.range (nr + 1)).foldlM (fun t i => do
        let t' ← lib.setFacetPoint t k i (lo i)
        lib.setFacetPoint t' k (nr + 1 + nr - i) (hi i)) t) = .ok t1 ∧ view t1 = { view t0 with facets := facetsDone F (k + 1) } := by
  apply facet_fill hl F k hk t0 h0 (List.range (nr + 1)) _ (fun pre m => m < pre.length ∨ (nr + 1 + nr < m + pre.length ∧ m < 2 * (nr + 1)))
  · intro m
    simp only [List.length_nil]
    omega
  · intro m hm
    simp only [List.length_range]
    omega
  · rintro pre a t ha ⟨suf, hsuf⟩ hv
    have hpa : pre.length = a := by
      have : (List.range (nr + 1))[pre.length]? = some a := by rw [hsuf]; simp
      have := List.getElem?_eq_some_iff.1 this
      simpa using this.2
    have hal : a < nr + 1 := List.mem_range.1 ha
    obtain ⟨t2, e2, v2⟩ := facet_put hl F k hk (view t0) t (fun m => m < pre.length ∨ (nr + 1 + nr < m + pre.length ∧ m < 2 * (nr + 1)))
      (fun m => m < pre.length + 1 ∨ (nr + 1 + nr < m + pre.length ∧ m < 2 * (nr + 1))) a (lo a) (by omega) (hlo a (by omega))
      (by rw [hlo a (by omega)]; exact hr _ (List.mem_of_getElem? (getElem?_getD 0 (by omega)))) (by intro j; omega) hv
    rw [e2, Res.bind_ok]
    refine facet_put hl F k hk (view t0) t2 (fun m => m < pre.length + 1 ∨ (nr + 1 + nr < m + pre.length ∧ m < 2 * (nr + 1)))
      (fun m => m < (pre ++ [a]).length ∨ (nr + 1 + nr < m + (pre ++ [a]).length ∧ m < 2 * (nr + 1))) (nr + 1 + nr - a) (hi a) (by omega) (hhi a (by omega))
      (by rw [hhi a (by omega)]; exact hr _ (List.mem_of_getElem? (getElem?_getD 0 (by omega)))) ?_ v2
    intro j
    rw [List.length_append, List.length_singleton]
    omega

/-! ## All facets -/

def ringF (nr na : Nat) : List (Int × List Nat) := (List.range (4 + 2 * na)).map (ringFacet nr na)

theorem ringF_length (nr na : Nat) : (ringF nr na).length = 4 + 2 * na := by simp [ringF]

theorem ringF_get (nr na k : Nat) (hk : k < 4 + 2 * na) : (ringF nr na).getD k (0, []) = ringFacet nr na k := by
  rw [List.getD_eq_getElem _ _ (by rw [ringF_length]; exact hk)]
  simp [ringF]

theorem ringFacet_range (nr na k : Nat) (hna : 1 ≤ na) (hk : k < 4 + 2 * na) : ∀ q ∈ (ringFacet nr na k).2, q < 2 * (2 * nr + 2 * na) := by
  intro q hq
  unfold ringFacet at hq
  dsimp only at hq
  split_ifs at hq with h0 h1 h2 h3 h4
  · have := List.mem_range.1 hq
    omega
  · simp only [List.mem_map, List.mem_range] at hq
    obtain ⟨i, hi, rfl⟩ := hq
    omega
  · simp only [List.mem_append, List.mem_map, List.mem_range] at hq
    rcases hq with hq | ⟨i, hi, rfl⟩ <;> omega
  · simp only [List.mem_append, List.mem_map, List.mem_range] at hq
    rcases hq with ⟨i, hi, rfl⟩ | ⟨i, hi, rfl⟩ <;> omega
  · have := Nat.mod_lt (nr + na + nr + (k - 4) + 1) (show 0 < 2 * nr + 2 * na by omega)
    simp only [List.mem_cons, List.not_mem_nil, or_false] at hq
    rcases hq with rfl | rfl | rfl | rfl <;> omega
  · simp only [List.mem_cons, List.not_mem_nil, or_false] at hq
    rcases hq with rfl | rfl | rfl | rfl <;> omega

theorem ringFacetCounts_eq (nr na : Nat) (hna : 1 ≤ na) : ringFacetCounts nr na = (ringF nr na).map fun d => d.2.length := by
  apply List.ext_getElem?
  intro k
  by_cases hk : k < 4 + 2 * na
  · unfold ringFacetCounts ringF
    rw [List.getElem?_map, List.getElem?_map, List.getElem?_range hk]
    simp only [Option.map_some]
    unfold ringFacet
    dsimp only
    by_cases h : k < 4
    · rw [List.append_assoc, List.getElem?_append_left (by simp; omega)]
      interval_cases k <;> simp <;> omega
    · rw [if_neg (by omega), if_neg (by omega), if_neg (by omega), if_neg (by omega)]
      by_cases h' : k < 4 + na
      · rw [if_pos h', List.append_assoc, List.getElem?_append_right (by simp; omega), List.getElem?_append_left (by simp; omega), List.getElem?_replicate, if_pos (by simp; omega)]
        rfl
      · rw [if_neg h', List.getElem?_append_right (by simp; omega), List.getElem?_replicate, if_pos (by simp; omega)]
        rfl
  · rw [List.getElem?_eq_none (by simp [ringFacetCounts]; omega), List.getElem?_eq_none (by simp [ringF]; omega)]

theorem ring_facet_step {lib : Tetgen T} {view : T → TetInput} (hl : lib.Contract view) (nr na : Nat) (hna : 1 ≤ na) (k : Nat) (hk : k < 4 + 2 * na) (t : T) (v0 : TetInput)
    (h : view t = { v0 with facets := facetsDone (ringF nr na) k }) (hp : v0.points.length = 2 * (2 * nr + 2 * na)) (mk : Int) (pts : List Nat)
    (hf : ringFacet nr na k = (mk, pts)) :
    ∃ t', plcFacet lib t k mk pts = .ok t' ∧ view t' = { v0 with facets := facetsDone (ringF nr na) (k + 1) } := by
  obtain ⟨t', e, hv⟩ := plcFacet_ok hl (ringF nr na) k (by rw [ringF_length]; exact hk) t (by rw [h]) (by
    rw [ringF_get nr na k hk, h]
    dsimp only
    rw [hp]
    exact ringFacet_range nr na k hna hk)
  rw [ringF_get nr na k hk, hf] at e
  refine ⟨t', e, ?_⟩
  rw [hv, h]

theorem ring_sym_step {lib : Tetgen T} {view : T → TetInput} (hl : lib.Contract view) (nr na : Nat) (hna : 1 ≤ na) (k : Nat) (hk : k < 4 + 2 * na) (t : T) (v0 : TetInput)
    (h : view t = { v0 with facets := facetsDone (ringF nr na) k }) (hp : v0.points.length = 2 * (2 * nr + 2 * na)) (mk : Int) (lo hi : Nat → Nat)
    (hmk : (ringFacet nr na k).1 = mk) (hlen : (ringFacet nr na k).2.length = 2 * (nr + 1))
    (hlo : ∀ i ≤ nr, lo i = (ringFacet nr na k).2.getD i 0) (hhi : ∀ i ≤ nr, hi i = (ringFacet nr na k).2.getD (nr + 1 + nr - i) 0) :
    ∃ t', (lib.setFacetMarker t k mk >>= fun t => (List.range (nr + 1)).foldlM (fun t i => do
        let t' ← lib.setFacetPoint t k i (lo i)
        lib.setFacetPoint t' k (nr + 1 + nr - i) (hi i)) t) = .ok t' ∧ view t' = { v0 with facets := facetsDone (ringF nr na) (k + 1) } := by
  obtain ⟨t', e, hv⟩ := symFacet_ok hl (ringF nr na) k (by rw [ringF_length]; exact hk) t (by rw [h]) nr (by rw [ringF_get nr na k hk]; exact hlen) (by
    rw [ringF_get nr na k hk, h]
    dsimp only
    rw [hp]
    exact ringFacet_range nr na k hna hk) lo hi (by rw [ringF_get nr na k hk]; exact hlo) (by rw [ringF_get nr na k hk]; exact hhi)
  rw [ringF_get nr na k hk, hmk] at e
  refine ⟨t', e, ?_⟩
  rw [hv, h]

theorem ringInput3d_ok {lib : Tetgen T} {view : T → TetInput} (hl : lib.Contract view) (rmin rmax thickness : ℝ) (nr na : Nat) (hnr : 1 ≤ nr) (hna : 1 ≤ na) :
    (∃ e, lib.new (2 * (2 * nr + 2 * na)) (some ((List.range (4 + 2 * na)).map fun k => (ringFacet nr na k).2.length)) (some 1) none = .err e ∧
      ringInput3d lib rmin rmax thickness nr na = .err e) ∨
    ∃ t, ringInput3d lib rmin rmax thickness nr na = .ok t ∧ IsRing3d rmin rmax thickness nr na (view t) := by
  have hn : 2 * (nr + 1) + 2 * (na - 1) = 2 * nr + 2 * na := by omega
  have hcounts : ((List.range (4 + 2 * na)).map fun k => (ringFacet nr na k).2.length) = ringFacetCounts nr na := by
    rw [ringFacetCounts_eq nr na hna, ringF, List.map_map]; rfl
  unfold ringInput3d
  simp only [hn]
  rw [hcounts]
  cases hnew : lib.new (2 * (2 * nr + 2 * na)) (some (ringFacetCounts nr na)) (some 1) none with
  | panic => exact absurd hnew (hl.newNoPanic _ _ _ _)
  | err e => exact Or.inl ⟨e, rfl, rfl⟩
  | ok t0 =>
    right
    rw [Res.bind_ok]
    have hv0 := hl.new _ _ _ _ _ hnew
    simp only [Option.getD_some, Option.getD_none, List.replicate_zero] at hv0
    have hfac0 : ((ringFacetCounts nr na).map fun k => ((none : Option Int), List.replicate k (none : Option Nat))) = facetsDone (ringF nr na) 0 := by
      rw [ringFacetCounts_eq nr na hna, facetsDone_zero, List.map_map]; rfl
    rw [hfac0] at hv0
    obtain ⟨s1, e1, i1⟩ := Res.foldlM_range (ringLayer lib rmin rmax thickness nr na) (1 + 1) (t0, 0)
      (fun k s => LayerInv view ⟨[], facetsDone (ringF nr na) 0, List.replicate 1 none, []⟩ (ringPt3 rmin rmax thickness nr na) (2 * (2 * nr + 2 * na)) (k * (2 * nr + 2 * na)) s)
      ⟨by simp, by rw [hv0]; simp [filled_zero]⟩ (by
        intro k s hk hs
        obtain ⟨s', e, i⟩ := ringLayer_ok hl _ _ _ _ rmin rmax thickness nr na hna s hs (by interval_cases k <;> omega) k (by
          intro j hj
          unfold ringPt3
          interval_cases k
          · rw [if_pos (by omega)]
            simp
          · rw [if_neg (by omega)]
            have : 1 * (2 * nr + 2 * na) + j - (2 * nr + 2 * na) = j := by omega
            rw [this]
            simp)
        refine ⟨s', e, ?_⟩
        show LayerInv view _ _ _ ((k + 1) * (2 * nr + 2 * na)) s'
        rw [Nat.succ_mul k]
        exact i)
    rw [e1, Res.bind_ok]
    obtain ⟨_, v1⟩ := i1
    generalize hpts : filled (ringPt3 rmin rmax thickness nr na) (2 * (2 * nr + 2 * na)) ((1 + 1) * (2 * nr + 2 * na)) = P at v1
    have hPlen : P.length = 2 * (2 * nr + 2 * na) := by rw [← hpts, filled_length]
    let v0 : TetInput := ⟨P, [], List.replicate 1 none, []⟩
    have w1 : view s1.1 = { v0 with facets := facetsDone (ringF nr na) 0 } := v1
    -- caps
    rw [capFacet_eq]
    obtain ⟨t1, e1, w1⟩ := ring_facet_step hl nr na hna 0 (by omega) _ v0 w1 hPlen markerZmin ((List.range (2 * nr + 2 * na)).map (0 + ·)) (by
      unfold ringFacet
      simp [markerZmin])
    rw [e1, Res.bind_ok, capFacet_eq]
    obtain ⟨t2, e2, w2⟩ := ring_facet_step hl nr na hna 1 (by omega) _ v0 w1 hPlen markerZmax ((List.range (2 * nr + 2 * na)).map (0 + (2 * nr + 2 * na) + ·)) (by
      unfold ringFacet
      simp [markerZmax])
    rw [e2, Res.bind_ok]
    -- planes of symmetry
    obtain ⟨t3, e3, w3⟩ := ring_sym_step hl nr na hna 2 (by omega) _ v0 w2 hPlen markerSymX (fun i => 0 + i) (fun i => 0 + (2 * nr + 2 * na) + i) rfl
      (by unfold ringFacet; simp; omega) (by
        intro i hi
        unfold ringFacet
        simp only [OfNat.ofNat_ne_zero, if_false, OfNat.ofNat_ne_one, if_true]
        rw [List.getD_append _ _ _ _ (by simp; omega), List.getD_eq_getElem _ _ (by simp; omega), List.getElem_range]
        omega) (by
        intro i hi
        unfold ringFacet
        simp only [OfNat.ofNat_ne_zero, if_false, OfNat.ofNat_ne_one, if_true]
        rw [List.getD_append_right _ _ _ _ (by simp; omega), List.getD_eq_getElem _ _ (by simp; omega), List.getElem_map, List.getElem_range]
        simp only [List.length_range]
        omega)
    have e3' : symFacetX lib nr 0 (0 + (2 * nr + 2 * na)) t2 = .ok t3 := e3
    rw [e3', Res.bind_ok]
    obtain ⟨t4, e4, w4⟩ := ring_sym_step hl nr na hna 3 (by omega) _ v0 w3 hPlen markerSymY (fun i => 0 + nr + na + nr - i) (fun i => 0 + nr + na + nr + (2 * nr + 2 * na) - i) rfl
      (by unfold ringFacet; simp; omega) (by
        intro i hi
        unfold ringFacet
        simp only [OfNat.ofNat_ne_zero, if_false, OfNat.ofNat_ne_one, if_true, Nat.reduceEqDiff]
        rw [List.getD_append _ _ _ _ (by simp; omega), List.getD_eq_getElem _ _ (by simp; omega), List.getElem_map, List.getElem_range]
        omega) (by
        intro i hi
        unfold ringFacet
        simp only [OfNat.ofNat_ne_zero, if_false, OfNat.ofNat_ne_one, if_true, Nat.reduceEqDiff]
        rw [List.getD_append_right _ _ _ _ (by simp; omega), List.getD_eq_getElem _ _ (by simp; omega), List.getElem_map, List.getElem_range]
        simp only [List.length_map, List.length_range]
        omega)
    have e4' : symFacetY lib nr (0 + nr + na + nr) (0 + nr + na + nr + (2 * nr + 2 * na)) t3 = .ok t4 := e4
    rw [e4', Res.bind_ok]
    -- inner cylinder
    obtain ⟨t5, e5, w5⟩ := Res.foldlM_range (cylFacet lib 4 markerInner [0 + nr + na + nr, 0 + nr + na + nr + 1, 0 + nr + na + nr + (2 * nr + 2 * na) + 1, 0 + nr + na + nr + (2 * nr + 2 * na)]) (na - 1) t4
      (fun i t => view t = { v0 with facets := facetsDone (ringF nr na) (4 + i) }) w4 (by
        intro i t hi ht
        rw [cylFacet_eq]
        apply ring_facet_step hl nr na hna (4 + i) (by omega) t v0 ht hPlen
        unfold ringFacet
        dsimp only
        rw [if_neg (by omega), if_neg (by omega), if_neg (by omega), if_neg (by omega), if_pos (by omega)]
        have : (nr + na + nr + (4 + i - 4) + 1) % (2 * nr + 2 * na) = nr + na + nr + i + 1 := by rw [Nat.mod_eq_of_lt (by omega)]; omega
        rw [this]
        simp only [markerInner, Prod.mk.injEq, List.cons.injEq, and_true, true_and]
        omega)
    rw [e5, Res.bind_ok, lastFacet_eq]
    obtain ⟨t6, e6, w6⟩ := ring_facet_step hl nr na hna (4 + (na - 1)) (by omega) t5 v0 w5 hPlen markerInner
        [0 + nr + na + nr + na - 1, 0, 0 + (2 * nr + 2 * na), 0 + nr + na + nr + (2 * nr + 2 * na) + na - 1] (by
        unfold ringFacet
        dsimp only
        rw [if_neg (by omega), if_neg (by omega), if_neg (by omega), if_neg (by omega), if_pos (by omega)]
        have : (nr + na + nr + (4 + (na - 1) - 4) + 1) % (2 * nr + 2 * na) = 0 := by
          have : nr + na + nr + (4 + (na - 1) - 4) + 1 = 2 * nr + 2 * na := by omega
          rw [this, Nat.mod_self]
        rw [this]
        simp only [markerInner, Prod.mk.injEq, List.cons.injEq, and_true, true_and]
        omega)
    have hi4 : 4 + (na - 1) = 4 + na - 1 := by omega
    rw [hi4] at e6
    rw [e6, Res.bind_ok]
    -- outer cylinder
    have hi5 : 4 + (na - 1) + 1 = 4 + na + 0 := by omega
    rw [hi5] at w6
    obtain ⟨t7, e7, w7⟩ := Res.foldlM_range (cylFacet lib (4 + na) markerOuter [0 + nr, 0 + nr + 1, 0 + nr + (2 * nr + 2 * na) + 1, 0 + nr + (2 * nr + 2 * na)]) (na - 1) t6
      (fun i t => view t = { v0 with facets := facetsDone (ringF nr na) (4 + na + i) }) w6 (by
        intro i t hi ht
        rw [cylFacet_eq]
        apply ring_facet_step hl nr na hna (4 + na + i) (by omega) t v0 ht hPlen
        unfold ringFacet
        dsimp only
        rw [if_neg (by omega), if_neg (by omega), if_neg (by omega), if_neg (by omega), if_neg (by omega)]
        simp only [markerOuter, Prod.mk.injEq, List.cons.injEq, and_true, true_and]
        omega)
    rw [e7, Res.bind_ok, lastFacet_eq]
    obtain ⟨t8, e8, w8⟩ := ring_facet_step hl nr na hna (4 + na + (na - 1)) (by omega) t7 v0 w7 hPlen markerOuter
        [0 + nr + na - 1, 0 + nr + na + nr - nr, 0 + nr + na + nr - nr + (2 * nr + 2 * na), 0 + nr + (2 * nr + 2 * na) + na - 1] (by
        unfold ringFacet
        dsimp only
        rw [if_neg (by omega), if_neg (by omega), if_neg (by omega), if_neg (by omega), if_neg (by omega)]
        simp only [markerOuter, Prod.mk.injEq, List.cons.injEq, and_true, true_and]
        omega)
    have hi6 : 4 + na + (na - 1) = 4 + na + na - 1 := by omega
    rw [hi6] at e8
    rw [e8, Res.bind_ok]
    have hi7 : 4 + na + (na - 1) + 1 = (ringF nr na).length := by rw [ringF_length]; omega
    rw [hi7, facetsDone_all] at w8
    obtain ⟨t9, e9, w9⟩ := hl.setRegion t8 0 1 (rmin + seedGap) seedGap seedGap none (by rw [w8]; simp [v0])
    refine ⟨t9, e9, ?_⟩
    rw [w9, w8]
    refine ⟨⟨_, ring_points rmin rmax nr na hnr hna, ?_⟩, ?_, ?_, rfl⟩
    · show P = _
      rw [← hpts, show (1 + 1) * (2 * nr + 2 * na) = 2 * (2 * nr + 2 * na) by omega, filled_all, show 2 * (2 * nr + 2 * na) = (2 * nr + 2 * na) + (2 * nr + 2 * na) by omega,
        List.range_add, List.map_append, List.map_map]
      congr 1
      · apply List.map_congr_left
        intro j hj
        unfold ringPt3
        rw [if_pos (List.mem_range.1 hj), ringPt_marker rmin rmax nr na j hnr hna]
      · apply List.map_congr_left
        intro j hj
        simp only [Function.comp_apply]
        unfold ringPt3
        rw [if_neg (by omega), Nat.add_sub_cancel_left, ringPt_marker rmin rmax nr na j hnr hna]
    · show (ringF nr na).map facetDone = _
      unfold ringF
      rw [List.map_map]
      rfl
    · show (List.replicate 1 none).set 0 (some (1, rmin + seedGap, seedGap, seedGap, none)) = _
      unfold seedGap
      rfl

end Gemlab.Unstructured
