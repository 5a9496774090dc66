import Verif.Props.FromBlocks
import Verif.Props.Rectangle

/-! # C66: an example (two squares with a marked edge between them) -/
namespace Gemlab.Structured
noncomputable section
open Classical
open Gemlab.Mesh Gemlab.Shapes Gemlab.Block Gemlab.Spec

variable {inv : MatInverse} {o : GenOrders} {target : GeoKind}

/-- The mesh of a rectangular region as a part of a larger grid. -/
theorem region_piece {d : Region} {x0 x1 y0 y1 : ℝ} (hat : d.at_ = rectAt x0 x1 y0 y1) (hx : x0 < x1) (hy : y0 < y1) {n : Nat → Nat} {tick0 tick : Nat → Nat → ℝ}
    {marker : Nat → Nat → Nat → Int} {A : Mesh ℝ} (hP : IsPatch 2 target (Box n) tick0 (d.place 2) (fun _ _ _ => d.marker) (rowMajor n) A) {i0 j0 : Nat}
    (htx : ∀ i ≤ n 0, tick 0 (i0 + i) = x0 + (x1 - x0) * tick0 0 i) (hty : ∀ j ≤ n 1, tick 1 (j0 + j) = y0 + (y1 - y0) * tick0 1 j)
    (hmk : ∀ i j, i < n 0 → j < n 1 → marker (i0 + i) (j0 + j) 0 = d.marker) (h2 : n 2 = 1) :
    Tiles 2 target (fun i j k => i0 ≤ i ∧ j0 ≤ j ∧ Box n (i - i0) (j - j0) k) tick (fun x => x) marker (fun i j k => rowMajor n (i - i0) (j - j0) k) (geomCells A) ∧
    (∀ p < A.points.length, ∀ q < A.points.length, coordsOf A p = coordsOf A q → p = q) := by
  have hplace : ∀ p : List ℝ, p.length = 2 → d.place 2 p = [x0 + (x1 - x0) * p.getD 0 0, y0 + (y1 - y0) * p.getD 1 0] := by
    intro p hp
    unfold Region.place
    rw [hat]
    show isoMap 4 2 _ _ = _
    rw [rect_map]
    match p, hp with
    | [u, w], _ => simp
  have hk : ∀ i j k, Box n i j k → i < n 0 ∧ j < n 1 ∧ k = 0 := by
    intro i j k hb
    obtain ⟨b1, b2, b3⟩ := hb
    exact ⟨b1, b2, by omega⟩
  constructor
  · refine tiles_shift (tiles_of_patch hP) i0 j0 ?_ ?_
    · intro i j k hb
      obtain ⟨h1, h2, rfl⟩ := hk i j k hb
      exact (hmk i j h1 h2).symm
    · intro i j k m hb hm
      obtain ⟨h1, h2, rfl⟩ := hk i j k hb
      beta_reduce
      rw [hplace _ (length_tickPos ..), getD_tickPos (by omega), getD_tickPos (by omega)]
      refine ext_getD (by rw [length_tickPos]; rfl) ?_
      intro a ha
      have ha : a < 2 := by simpa using ha
      rw [getD_tickPos ha]
      rcases (by omega : a = 0 ∨ a = 1) with rfl | rfl
      · show x0 + (x1 - x0) * (tick0 0 i + (tick0 0 (i + 1) - tick0 0 i) * rr target m 0) = tick 0 (i0 + i) + (tick 0 (i0 + i + 1) - tick 0 (i0 + i)) * rr target m 0
        rw [Nat.add_assoc, htx i (by omega), htx (i + 1) (by omega)]
        ring
      · show y0 + (y1 - y0) * (tick0 1 j + (tick0 1 (j + 1) - tick0 1 j) * rr target m 1) = tick 1 (j0 + j) + (tick 1 (j0 + j + 1) - tick 1 (j0 + j)) * rr target m 1
        rw [Nat.add_assoc, hty j (by omega), hty (j + 1) (by omega)]
        ring
  · intro p hp q hq hpq
    obtain ⟨_, _, _, i, j, k, m, hs, hm, rfl⟩ := hP.points p _ (List.getElem?_eq_getElem hp)
    obtain ⟨_, _, _, i', j', k', m', hs', hm', rfl⟩ := hP.points q _ (List.getElem?_eq_getElem hq)
    rw [(hP.coords i j k m hs hm).2, (hP.coords i' j' k' m' hs' hm').2, hplace _ (length_tickPos ..), hplace _ (length_tickPos ..)] at hpq
    exact (hP.shared i j k m i' j' k' m' hs hs' hm hm').2 (affine_inj hx hy (length_tickPos ..) (length_tickPos ..) hpq)

/-- Two squares; the second one has weights; the edge between them is marked. -/
def exBlocks : Blocks2d where
  points := [(0, 0), (1, 0), (2, 0), (0, 1), (1, 1), (2, 1)]
  regions := [(1, 0, 1, 4, 3), (2, 1, 2, 5, 4)]
  divWeights := [([], []), ([1, 3], [1, 1])]
  edgeConstraints := [none, none]
  markedEdges := [(-5, 4, 1)]

def exD0 : Region := ⟨1, [0, 1, 4, 3], [[0, 0], [1, 0], [1, 1], [0, 1]], [[], []], none⟩
def exD1 : Region := ⟨2, [1, 2, 5, 4], [[1, 0], [2, 0], [2, 1], [1, 1]], [[1, 3], [1, 1]], none⟩

theorem exR0 : region2d exBlocks 0 = some exD0 := rfl
theorem exR1 : region2d exBlocks 1 = some exD1 := rfl

theorem exW0 : ¬ exD0.Weighted := fun h => h [] (by simp [exD0]) rfl
theorem exW1 : exD1.Weighted := by intro w hw; simp [exD1] at hw; rcases hw with rfl | rfl <;> simp

theorem exA0 : exD0.Accepted 2 where
  jacobian := by
    show 0 < detN 2 (centreJacobian 4 2 (rectAt 0 1 0 1))
    rw [rect_det]; norm_num
  weights := fun h => absurd h exW0
  side := fun c hc => by cases hc

theorem exA1 : exD1.Accepted 2 where
  jacobian := by
    show 0 < detN 2 (centreJacobian 4 2 (rectAt 1 2 0 1))
    rw [rect_det]; norm_num
  weights := fun _ w hw => by simp [exD1] at hw; rcases hw with rfl | rfl <;> norm_num
  side := fun c hc => by cases hc

theorem example_unmappable {ndim : Nat} {d : Region} (h : d.constraint = none) : ¬ d.Unmappable inv ndim target := by
  rintro ⟨E, F, b, hb, -, ξ, s, S, -, ⟨⟨-, -, hS⟩, -⟩, -⟩
  rw [hb.constraints, h] at hS
  cases hS

theorem exGiven : AllGiven exBlocks.regions.length (region2d exBlocks) := by
  intro i hi
  have : i = 0 ∨ i = 1 := by simp [exBlocks] at hi; omega
  rcases this with rfl | rfl
  · exact ⟨exD0, exR0, fun h => absurd h exW0⟩
  · refine ⟨exD1, exR1, fun _ w hw v hv => ?_⟩
    simp [exD1] at hw
    rcases hw with rfl | rfl <;> simp at hv
    · rcases hv with rfl | rfl <;> norm_num
    · subst hv; norm_num

theorem exUsable (ht : target.classOf = .qua) : AllUsable inv 2 exBlocks.regions.length (region2d exBlocks) target := by
  refine ⟨le_rfl, ht, fun i hi d hd => ?_⟩
  have : i = 0 ∨ i = 1 := by simp [exBlocks] at hi; omega
  rcases this with rfl | rfl
  · rw [exR0] at hd; cases hd; exact ⟨exA0, example_unmappable rfl⟩
  · rw [exR1] at hd; cases hd; exact ⟨exA1, example_unmappable rfl⟩

def exN (a : Nat) : Nat := [4, 2].getD a 1
def exTick (a i : Nat) : ℝ := if a = 0 then [0, 1 / 2, 1, 5 / 4].getD i 2 else i / 2

theorem exGrid (ht : target.classOf = .qua) : Grid 2 target exN exTick ∧ ∀ a < 2, ∀ i < exN a, (6 / 10 ^ 4 : ℝ) ≤ exTick a (i + 1) - exTick a i := by
  have key : ∀ a < 2, ∀ i < exN a, (6 / 10 ^ 4 : ℝ) ≤ exTick a (i + 1) - exTick a i := by
    intro a ha i hi
    rcases (by omega : a = 0 ∨ a = 1) with rfl | rfl
    · simp [exN] at hi
      rcases (by omega : i = 0 ∨ i = 1 ∨ i = 2 ∨ i = 3) with rfl | rfl | rfl | rfl <;> norm_num [exTick]
    · simp [exN] at hi
      rcases (by omega : i = 0 ∨ i = 1) with rfl | rfl <;> norm_num [exTick]
  refine ⟨⟨.inl rfl, ht, ?_, fun _ => rfl, fun a ha i hi => ?_⟩, key⟩
  · intro a ha
    rcases (by omega : a = 0 ∨ a = 1 ∨ a = 2) with rfl | rfl | rfl <;> simp [exN]
  · have := key a ha i hi
    norm_num at this
    linarith

/-- The two meshes can be put together. -/
theorem exCan (ht : target.classOf = .qua) {ms : List (Mesh ℝ)} (hl : ms.length = 2)
    (hms : ∀ (i : Nat) (A : Mesh ℝ), ms[i]? = some A → ∃ d, region2d exBlocks i = some d ∧ IsRegionMesh inv 2 d exBlocks.markedEdges [] target A) : CanAssemble 2 ms := by
  match ms, hl with
  | [A, B], _ =>
    obtain ⟨d, hd, hA⟩ := hms 0 A rfl
    rw [exR0] at hd; cases hd
    obtain ⟨d, hd, hB⟩ := hms 1 B rfl
    rw [exR1] at hd; cases hd
    obtain ⟨hG, hstep⟩ := exGrid ht
    have pA := C66_grid ht hA exA0 rfl (fun h => absurd h exW0) rfl
    obtain ⟨_, hd1, hw1⟩ := exGiven 1 (by simp [exBlocks])
    rw [exR1] at hd1; cases hd1
    have pB := C66_grid ht hB exA1 rfl hw1 rfl
    let mkr : Nat → Nat → Nat → Int := fun i _ _ => if i < 2 then 1 else 2
    have hn0 : exD0.divs 2 0 = 2 ∧ exD0.divs 2 1 = 2 ∧ exD0.divs 2 2 = 1 := by simp [Region.divs, exW0]
    have hn1 : exD1.divs 2 0 = 2 ∧ exD1.divs 2 1 = 2 ∧ exD1.divs 2 2 = 1 := by simp [Region.divs, exW1]; simp [exD1]
    obtain ⟨tA, dA⟩ := region_piece (d := exD0) (x0 := 0) (x1 := 1) (y0 := 0) (y1 := 1) rfl (by norm_num) (by norm_num) pA (tick := exTick) (marker := mkr) (i0 := 0) (j0 := 0)
      (by
        intro i hi
        rw [hn0.1] at hi
        rw [Region.ticks, if_neg exW0]
        rcases (by omega : i = 0 ∨ i = 1 ∨ i = 2) with rfl | rfl | rfl <;> norm_num [exTick, evenTicks])
      (by
        intro i hi
        rw [Region.ticks, if_neg exW0]
        norm_num [exTick, evenTicks])
      (by intro i j hi _; rw [hn0.1] at hi; exact if_pos (by omega)) hn0.2.2
    obtain ⟨tB, dB⟩ := region_piece (d := exD1) (x0 := 1) (x1 := 2) (y0 := 0) (y1 := 1) rfl (by norm_num) (by norm_num) pB (tick := exTick) (marker := mkr) (i0 := 2) (j0 := 0)
      (by
        intro i hi
        rw [hn1.1] at hi
        rw [Region.ticks, if_pos exW1]
        rcases (by omega : i = 0 ∨ i = 1 ∨ i = 2) with rfl | rfl | rfl <;> norm_num [exTick, weightTicks, exD1])
      (by
        intro i hi
        rw [hn1.2.1] at hi
        rw [Region.ticks, if_pos exW1]
        rcases (by omega : i = 0 ∨ i = 1 ∨ i = 2) with rfl | rfl | rfl <;> norm_num [exTick, weightTicks, exD1])
      (by intro i j hi _; exact if_neg (by omega)) hn1.2.2
    have node : ∀ g ∈ allCells [A, B], ∀ v ∈ g.2.2, ∃ i j k m, Box exN i j k ∧ m < target.nnode ∧ v = tickPos 2 exTick target i j k m := by
      intro g hg v hv
      have tAB := tiles_append tA tB (by
        rintro i j k ⟨-, -, h1, -⟩ ⟨h2, -⟩
        rw [hn0.1] at h1; omega)
      have hg' : g ∈ geomCells A ++ geomCells B := by simpa [allCells] using hg
      obtain ⟨c, hc, rfl⟩ := List.mem_iff_getElem.1 hg'
      obtain ⟨i, j, k, hs, rfl⟩ := tAB.onto c hc
      have := tAB.cell i j k hs
      rw [List.getElem?_eq_getElem hc, Option.some.injEq] at this
      rw [this] at hv
      obtain ⟨m, hm, rfl⟩ := List.mem_map.1 hv
      refine ⟨i, j, k, m, ?_, List.mem_range.1 hm, rfl⟩
      rcases hs with ⟨-, -, h1, h2, h3⟩ | ⟨-, -, h1, h2, h3⟩
      · rw [hn0.1] at h1; rw [hn0.2.1] at h2; rw [hn0.2.2] at h3
        refine ⟨?_, ?_, ?_⟩ <;> simp [exN] <;> omega
      · rw [hn1.1] at h1; rw [hn1.2.1] at h2; rw [hn1.2.2] at h3
        refine ⟨?_, ?_, ?_⟩ <;> simp [exN] <;> omega
    have prop : ∀ X ∈ [A, B], Proper X ∧ X.ndim = 2 := by
      intro X hX
      simp at hX
      rcases hX with rfl | rfl
      · exact C66_proper ht hA dA
      · exact C66_proper ht hB dB
    refine ⟨le_rfl, prop, ?_, ?_, fun h => absurd h (by omega), ?_⟩
    · intro X hX pt hpt v hv
      obtain ⟨p, hp', rfl⟩ := List.mem_iff_getElem.1 hpt
      obtain ⟨c, hc, hpc⟩ := (prop X hX).1.used p hp'
      have hco : coordsOf X p = X.points[p].coords := by simp [coordsOf, hp']
      obtain ⟨i, j, k, m, hb, hm, e⟩ := node (c.marker, c.kind, c.points.map (coordsOf X)) (by
        unfold allCells
        refine List.mem_flatten.2 ⟨geomCells X, List.mem_map.2 ⟨X, hX, rfl⟩, List.mem_map.2 ⟨c, hc, rfl⟩⟩) _ (List.mem_map.2 ⟨p, hpc, rfl⟩)
      rw [← hco, e] at hv
      obtain ⟨a, ha, rfl⟩ := List.mem_iff_getElem.1 hv
      have ha2 : a < 2 := by simpa [tickPos] using ha
      have hbt := hG.between hb hm ha2
      have hq : pick i j k a < exN a := by
        rcases (by omega : a = 0 ∨ a = 1) with rfl | rfl
        · exact hb.1
        · exact hb.2.1
      have h3 := hG.mono ha2 (Nat.zero_le (pick i j k a)) (by omega)
      have h4 := hG.mono ha2 (show pick i j k a + 1 ≤ exN a by omega) le_rfl
      have eq := List.getD_eq_getElem _ (0 : ℝ) ha
      rw [← eq]
      have lo : 0 ≤ exTick a 0 ∧ exTick a (exN a) ≤ 2 := by
        rcases (by omega : a = 0 ∨ a = 1) with rfl | rfl <;> norm_num [exTick, exN]
      have := three_le_f64Max
      constructor <;> linarith [hbt.1, hbt.2, lo.1, lo.2]
    · intro g hg x hx g' hg' x' hx'
      obtain ⟨i, j, k, m, hb, hm, rfl⟩ := node g hg x hx
      obtain ⟨i', j', k', m', hb', hm', rfl⟩ := node g' hg' x' hx'
      exact hG.far hb hb' hm hm' (δ := 6 / 10 ^ 4) hstep sqrt_two_small
    · intro k h0 h1
      have : k = 1 := by simp at h1; omega
      subst this
      show Enclosed 2 (allCells [A])
      have e : allCells [A] = geomCells A := by simp [allCells]
      rw [e]
      refine enclosed_stairs tA hG (J := 2) (w := fun _ => 2) ⟨fun i j k => ?_, by simp [exN], by simp, by simp, by simp [exN]⟩
      unfold Box
      rw [hn0.1, hn0.2.1, hn0.2.2]
      omega

/-- The hypotheses are met: the mesh of the two squares has eight cells. -/
example : ∃ (o : GenOrders) (M : Mesh ℝ), o.Valid ∧ fromBlocks2d exactInverse o exBlocks .qua8 false = .ok M ∧ M.cells.length = 8 := by
  obtain ⟨o, ho⟩ := exists_orders
  obtain ⟨ms, h1, h2, h3⟩ := (C66_blocks_2d exactInverse_spec exactInverse_noPanic exactInverse_total ho exBlocks .qua8 exGiven).2 (exUsable rfl)
  have hc := exCan rfl h1 h2
  obtain ⟨M, e1, e2, -⟩ := h3 hc
  refine ⟨o, M, ho, e1, ?_⟩
  have hlen : (geomCells M).length = 8 := by
    rw [e2.cells]
    match ms, h1 with
    | [A, B], _ =>
      obtain ⟨d, hd, b, hb, hA, -⟩ := h2 0 A rfl
      rw [exR0] at hd; cases hd
      obtain ⟨d, hd, b', hb', hB, -⟩ := h2 1 B rfl
      rw [exR1] at hd; cases hd
      have n0 : A.cells.length = 4 := by
        rw [hA.ncell]
        unfold numCells ndivAt
        rw [hb.ndiv_eq, (C41_partition hb.reached).1, if_neg exW0]
        rfl
      have n1 : B.cells.length = 4 := by
        rw [hB.ncell]
        unfold numCells ndivAt
        rw [hb'.ndiv_eq, (C41_partition hb'.reached).1, if_pos exW1]
        rfl
      simp [allCells, geomCells, n0, n1]
  simpa [geomCells] using hlen

/-- Only one region: an error. -/
example : ∃ (o : GenOrders), o.Valid ∧ ∃ e, fromBlocks2d exactInverse o { exBlocks with regions := [(1, 0, 1, 4, 3)] } .qua8 false = .err e := by
  obtain ⟨o, ho⟩ := exists_orders
  refine ⟨o, ho, (C66_blocks_2d exactInverse_spec exactInverse_noPanic exactInverse_total ho _ .qua8 (fun i hi => ?_)).1 (fun h => ?_) false⟩
  · have : i = 0 := by simp at hi; omega
    subst this
    exact ⟨exD0, rfl, fun h => absurd h exW0⟩
  · exact absurd h.1 (by simp)

end
end Gemlab.Structured
