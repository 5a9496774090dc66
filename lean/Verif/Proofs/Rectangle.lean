import Verif.Proofs.Stairs
import Verif.Proofs.EvenBlock
import Verif.Proofs.Segments
import Verif.Proofs.Spacing

/-! # The blocks of a rectangle -/
namespace Gemlab.Structured
noncomputable section
open Classical
open Gemlab.Mesh Gemlab.Shapes Gemlab.Block Gemlab.Spec

variable {inv : MatInverse} {o : GenOrders} {target : GeoKind}

/-- The corners of a rectangle. -/
def rectRows (x0 x1 y0 y1 : ℝ) : List (List ℝ) := [[x0, y0], [x1, y0], [x1, y1], [x0, y1]]

def rectAt (x0 x1 y0 y1 : ℝ) (m j : Nat) : ℝ := at' ((rectRows x0 x1 y0 y1).getD m []) j

theorem rect_map (x0 x1 y0 y1 : ℝ) (ξ : List ℝ) :
    isoMap 4 2 (rectAt x0 x1 y0 y1) ξ = [x0 + (x1 - x0) * ((1 + ξ.getD 0 0) / 2), y0 + (y1 - y0) * ((1 + ξ.getD 1 0) / 2)] := by
  simp [rectAt, rectRows, isoMap, inputKind, List.range_succ, Shapes.calcCoords, GeoKind.nnode, Finset.sum_range_succ, calcInterp, Shapes.interp, qua4Interp, PE.eval, at']
  constructor <;> ring

theorem rect_det (x0 x1 y0 y1 : ℝ) : detN 2 (centreJacobian 4 2 (rectAt x0 x1 y0 y1)) = (x1 - x0) / 2 * ((y1 - y0) / 2) := by
  simp [rectAt, rectRows, detN, Matrix.det_fin_two, centreJacobian, inputKind, GeoKind.nnode, Finset.sum_range_succ, calcDeriv, Shapes.deriv, qua4Deriv, PE.eval, at']
  ring

/-- The block of a rectangle. -/
theorem rectBlock_ok (hinv : InverseSpec inv) (hnp : ∀ n a, inv n a ≠ .panic) (hall : ∀ n a, detN n a ≠ 0 → ∃ r, inv n a = .ok r)
    {x0 x1 y0 y1 : ℝ} (hx : x0 < x1) (hy : y0 < y1) {n ny : Nat} (hn : 1 ≤ n) (marker : Int) :
    (ny = 0 → rectBlock inv x0 x1 y0 y1 n ny marker = .panic) ∧
    (1 ≤ ny → ∃ b, rectBlock inv x0 x1 y0 y1 n ny marker = .ok b ∧ Block.Reached inv 4 2 (rectAt x0 x1 y0 y1) b ∧ b.marker = marker ∧ b.ndiv = [n, ny] ∧
      b.deltaKsi = [n, ny].map equalDivisions ∧ (∀ s, constraintOf b s = none) ∧ b.transformIntoRing = false ∧ (∀ e, b.edgeMarkers.get e = none) ∧
      (∀ f, b.faceMarkers.get f = none)) := by
  have hk := C54_new (nrow := 4) (ndim := 2) (at_ := rectAt x0 x1 y0 y1) hinv hnp hall
  rw [rect_det] at hk
  obtain ⟨b0, hb⟩ := hk.1 ⟨.inl ⟨rfl, .inl rfl⟩, mul_pos (by linarith) (by linarith)⟩
  obtain ⟨i1, i2, -, i4, i5, i6, i7, -⟩ := C54_initial hb
  have hr0 : Block.Reached inv 4 2 (rectAt x0 x1 y0 y1) b0 := .new hb
  have hb' : blockOf inv 2 [[x0, y0], [x1, y0], [x1, y1], [x0, y1]] = .ok b0 := hb
  have hset := C41_set_ndiv hr0 [n, ny]
  constructor
  · rintro rfl
    obtain ⟨e, he⟩ := hset.2.1 (by simp)
    unfold rectBlock
    rw [hb']
    have : applied (b0.setNdiv [n, 0]) = .err e := by unfold applied; rw [he]
    show (Block.unwrapRes (applied (b0.setNdiv [n, 0])) >>= _) = _
    rw [this]
    rfl
  · intro hny
    have hs := hset.1 ⟨rfl, by simp; omega⟩
    have hr1 := Reached.ndiv [n, ny] hr0
    rw [hs] at hr1
    have hr2 := Reached.marker marker hr1
    refine ⟨_, ?_, hr2, rfl, rfl, rfl, i4, i7, i5, i6⟩
    unfold rectBlock
    rw [hb']
    show (Block.unwrapRes (applied (b0.setNdiv [n, ny])) >>= _) = _
    rw [applied_ok hs]
    rfl

theorem box_two {n ny i j k : Nat} : Box (divsOf [n, ny]) i j k ↔ i < n ∧ j < ny ∧ k = 0 := by
  unfold Box divsOf
  simp

/-- The mesh of one block, as a part of the grid. -/
structure RectPart (target : GeoKind) (tick : Nat → Nat → ℝ) (marker : Nat → Nat → Nat → Int) (i0 j0 n ny : Nat) (M : Mesh ℝ) : Prop where
  tiles : Tiles 2 target (fun i j k => i0 ≤ i ∧ j0 ≤ j ∧ i - i0 < n ∧ j - j0 < ny ∧ k = 0) tick (fun x => x) marker (fun i j _ => i - i0 + n * (j - j0)) (geomCells M)
  len : (geomCells M).length = n * ny
  proper : Proper M
  ndim : M.ndim = 2
  zero : ∀ pt ∈ M.points, pt.marker = 0
  edges : M.markedEdges = []
  faces : M.markedFaces = []
  first : ptOf M 0 0 = 0

theorem affine_inj {x0 x1 y0 y1 : ℝ} (hx : x0 < x1) (hy : y0 < y1) {p q : List ℝ} (hp : p.length = 2) (hq : q.length = 2)
    (h : [x0 + (x1 - x0) * p.getD 0 0, y0 + (y1 - y0) * p.getD 1 0] = [x0 + (x1 - x0) * q.getD 0 0, y0 + (y1 - y0) * q.getD 1 0]) : p = q := by
  simp only [List.cons.injEq, and_true] at h
  obtain ⟨h0, h1⟩ := h
  have a0 : p.getD 0 0 = q.getD 0 0 := by
    have : (x1 - x0) * (p.getD 0 0 - q.getD 0 0) = 0 := by linarith
    rcases mul_eq_zero.1 this with e | e <;> linarith
  have a1 : p.getD 1 0 = q.getD 1 0 := by
    have : (y1 - y0) * (p.getD 1 0 - q.getD 1 0) = 0 := by linarith
    rcases mul_eq_zero.1 this with e | e <;> linarith
  refine ext_getD (hp.trans hq.symm) ?_
  intro a ha
  rcases (by omega : a = 0 ∨ a = 1) with rfl | rfl <;> assumption

theorem tiles_rowMajor_length {L : List (Int × GeoKind × List (List ℝ))} {S : Nat → Nat → Nat → Prop} {tick : Nat → Nat → ℝ} {place : List ℝ → List ℝ}
    {marker : Nat → Nat → Nat → Int} {num : Nat → Nat → Nat → Nat} (hT : Tiles 2 target S tick place marker num L) {N : Nat} (h1 : ∀ i j k, S i j k → num i j k < N)
    (h2 : ∀ c < N, ∃ i j k, S i j k ∧ num i j k = c) : L.length = N := by
  apply Nat.le_antisymm
  · by_contra hc
    push Not at hc
    obtain ⟨i, j, k, hs, e⟩ := hT.onto N hc
    have := h1 i j k hs
    omega
  · by_contra hc
    push Not at hc
    obtain ⟨i, j, k, hs, e⟩ := h2 L.length hc
    have := (List.getElem?_eq_some_iff.1 (hT.cell i j k hs)).1
    omega

theorem rect_piece (hinv : InverseSpec inv) (hnp : ∀ n a, inv n a ≠ .panic) (hall : ∀ n a, detN n a ≠ 0 → ∃ r, inv n a = .ok r) (ho : o.Valid)
    {x0 x1 y0 y1 : ℝ} (hx : x0 < x1) (hy : y0 < y1) {n ny : Nat} (hn : 1 ≤ n) (hny : 1 ≤ ny) (hc : CountOk n) (hcy : CountOk ny) (ht : target.classOf = .qua)
    (idx : Nat) (i0 j0 : Nat) {tick : Nat → Nat → ℝ} {marker : Nat → Nat → Nat → Int} {mk : Int}
    (htx : ∀ i ≤ n, tick 0 (i0 + i) = x0 + (x1 - x0) * evenTicks n i) (hty : ∀ j ≤ ny, tick 1 (j0 + j) = y0 + (y1 - y0) * evenTicks ny j)
    (hmk : ∀ i j, i < n → j < ny → marker (i0 + i) (j0 + j) 0 = mk) :
    ∃ b M, rectBlock inv x0 x1 y0 y1 n ny mk = .ok b ∧ cut o target idx b = .ok M ∧ RectPart target tick marker i0 j0 n ny M := by
  obtain ⟨b, b1, b2, b3, b4, b5, b6, b7, b8, b9⟩ := (rectBlock_ok hinv hnp hall hx hy hn mk).2 hny
  obtain ⟨M, m1, m2, m3, m4, m5⟩ := even_block b2 b4 b5 (by
    intro a ha
    rcases (by omega : a = 0 ∨ a = 1) with rfl | rfl
    · exact ⟨hn, hc⟩
    · exact ⟨hny, hcy⟩) (by rw [if_pos rfl]; exact ht) ho idx b6 b7 b8 b9 (target := target)
  have hplace : ∀ p : List ℝ, p.length = 2 → isoMap 4 2 (rectAt x0 x1 y0 y1) (p.map fun x => 2 * x - 1) = [x0 + (x1 - x0) * p.getD 0 0, y0 + (y1 - y0) * p.getD 1 0] := by
    intro p hp
    rw [rect_map]
    match p, hp with
    | [u, w], _ => simp
  have hT := tiles_of_patch m2
  rw [b3] at hT
  have hT2 := tiles_shift hT i0 j0 (tick' := tick) (place' := fun x => x) (marker' := marker) (by
      intro i j k hb
      obtain ⟨h1, h2, rfl⟩ := box_two.1 hb
      exact (hmk i j h1 h2).symm) (by
      intro i j k m hb hm
      obtain ⟨h1, h2, rfl⟩ := box_two.1 hb
      beta_reduce
      rw [hplace _ (length_tickPos ..), getD_tickPos (by omega), getD_tickPos (by omega)]
      refine ext_getD (by rw [length_tickPos]; rfl) ?_
      intro a ha
      have ha : a < 2 := by simpa using ha
      rw [getD_tickPos ha]
      rcases (by omega : a = 0 ∨ a = 1) with rfl | rfl
      · show x0 + (x1 - x0) * (evenTicks n i + (evenTicks n (i + 1) - evenTicks n i) * rr target m 0) = tick 0 (i0 + i) + (tick 0 (i0 + i + 1) - tick 0 (i0 + i)) * rr target m 0
        rw [Nat.add_assoc, htx i (by omega), htx (i + 1) (by omega)]
        ring
      · show y0 + (y1 - y0) * (evenTicks ny j + (evenTicks ny (j + 1) - evenTicks ny j) * rr target m 1) = tick 1 (j0 + j) + (tick 1 (j0 + j + 1) - tick 1 (j0 + j)) * rr target m 1
        rw [Nat.add_assoc, hty j (by omega), hty (j + 1) (by omega)]
        ring)
  have hlen : (geomCells M).length = n * ny := by
    refine tiles_rowMajor_length hT ?_ ?_
    · intro i j k hb
      obtain ⟨h1, h2, rfl⟩ := box_two.1 hb
      show i + n * (j + ny * 0) < n * ny
      have : n * (j + 1) ≤ n * ny := Nat.mul_le_mul_left _ h2
      rw [Nat.mul_add] at this
      simp
      omega
    · intro c hc
      refine ⟨c % n, c / n, 0, box_two.2 ⟨Nat.mod_lt _ hn, Nat.div_lt_of_lt_mul hc, rfl⟩, ?_⟩
      show c % n + n * (c / n + ny * 0) = c
      simp [Nat.mod_add_div]
  refine ⟨b, M, b1, m1, ?_, hlen, ?_, m2.space, ?_, m3, m4, m5⟩
  · refine tiles_congr hT2 ?_ ?_ (fun _ _ _ _ => rfl) (fun _ _ _ _ _ _ => rfl)
    · intro i j k
      rw [box_two]
    · rintro i j k ⟨h1, h2, hb⟩
      obtain ⟨-, -, rfl⟩ := box_two.1 hb
      show i - i0 + n * (j - j0 + ny * 0) = _
      simp
  · refine proper_of_patch m2 (.inl rfl) ?_ m3 m4
    intro i j k m i' j' k' m' hb hb' hm hm' he
    beta_reduce at he
    rw [hplace _ (length_tickPos ..), hplace _ (length_tickPos ..)] at he
    exact affine_inj hx hy (length_tickPos ..) (length_tickPos ..) he
  · intro pt hpt
    obtain ⟨p, hp, rfl⟩ := List.mem_iff_getElem.1 hpt
    exact (m2.points p _ (List.getElem?_eq_getElem hp)).2.1

end
end Gemlab.Structured
