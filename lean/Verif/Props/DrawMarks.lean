import Verif.Spec.DrawMarks
import Verif.Props.Check

/-! # C77: what is drawn on top of the cells -/
namespace Gemlab.Draw
open Gemlab Gemlab.Mesh Gemlab.Shapes Gemlab.Props.Mesh Gemlab.Props.Features Gemlab.Spec Gemlab.Scratchpad
noncomputable section

variable {m : Mesh ℝ} {extractAll : Bool} {x : Extracted ℝ} {F : Features}

theorem pointXyz_ok (hd : m.ndim = 2 ∨ m.ndim = 3) {p : Point ℝ} (hp : p.coords.length = m.ndim) : pointXyz m p = .ok p.coords := by
  unfold pointXyz
  rcases hd with h | h
  · match hc : p.coords with
    | [a, b] => simp [Res.idx, h]
    | [] | [_] | _ :: _ :: _ :: _ => rw [hc, h] at hp; simp at hp
  · match hc : p.coords with
    | [a, b, c] => simp [Res.idx, h]
    | [] | [_] | [_, _] | _ :: _ :: _ :: _ :: _ => rw [hc, h] at hp; simp at hp

/-- **C77.** Points: one dot and one text at each point, in order; the text is the id, followed by the marker in parentheses if it is not zero and asked for. -/
theorem C77_points (h : ValidMesh m) (hd : m.ndim = 2 ∨ m.ndim = 3) (showMarker : Bool) :
    pointDots m = .ok (m.points.map fun p => .dot p.coords) ∧
    pointIds m showMarker = .ok (m.points.map fun p => .text p.coords none
      (if showMarker = true ∧ p.marker ≠ 0 then toString p.id ++ "(" ++ toString p.marker ++ ")" else toString p.id)) := by
  constructor
  · refine Res.mapM_eq_ok_of _ _ _ fun p hp => ?_
    rw [pointXyz_ok hd (h.coords p hp), Res.bind_ok]
    rfl
  · refine Res.mapM_eq_ok_of _ _ _ fun p hp => ?_
    rw [pointXyz_ok hd (h.coords p hp), Res.bind_ok]
    unfold pointText
    congr 2
    by_cases h1 : p.marker = 0 <;> cases showMarker <;> simp [h1] <;> rfl

theorem nodeCoord_ok (h : ValidMesh m) {cell : Cell} (hc : cell ∈ m.cells) {n i : Nat} (hn : n < cell.kind.nnode) (hi : i < m.ndim) :
    nodeCoord m cell n i = .ok ((coordsOf m (cell.points.getD n 0)).getD i 0) := by
  have hn' : n < cell.points.length := by rw [h.nnode _ hc]; exact hn
  have hp := h.inRange _ hc _ (List.getElem_mem hn')
  unfold nodeCoord
  rw [Res.idx_of_lt hn', Res.bind_ok, Res.idx_of_lt hp, Res.bind_ok, Res.idx_of_lt (by rw [h.coords _ (List.getElem_mem hp)]; exact hi)]
  rw [List.getD_eq_getElem _ _ hn']
  unfold coordsOf
  rw [List.getElem?_eq_getElem hp]
  simp only [Option.map_some, Option.getD_some]
  rw [List.getD_eq_getElem _ _ (by rw [h.coords _ (List.getElem_mem hp)]; exact hi)]

/-- The weights of the nodes in the position of the label. -/
def labelWeight (k : GeoKind) (n : Nat) : ℝ :=
  if k = .qua9 ∨ k = .qua17 then (if n = 0 then 3 / 4 else if n = 2 then 1 / 4 else 0)
  else if k = .tri10 then (if n = 0 then 1 / 2 else if n = 9 then 1 / 2 else 0)
  else 1 / k.nnode

theorem sum_two {n a b : Nat} (ha : a < n) (hb : b < n) (hab : a ≠ b) (p q : ℝ) (f : Nat → ℝ) :
    ∑ k ∈ Finset.range n, (if k = a then p else if k = b then q else 0) * f k = p * f a + q * f b := by
  have e : ∀ k, (if k = a then p else if k = b then q else 0) * f k = (if k = a then p * f a else 0) + (if k = b then q * f b else 0) := by
    intro k
    by_cases h1 : k = a
    · subst h1; simp [hab]
    · by_cases h2 : k = b
      · subst h2; simp [h1]
      · simp [h1, h2]
  simp only [e, Finset.sum_add_distrib, Finset.sum_ite_eq', Finset.mem_range, ha, hb, if_true]

theorem labelCoord_ok (h : ValidMesh m) {cell : Cell} (hc : cell ∈ m.cells) {i : Nat} (hi : i < m.ndim) :
    labelCoord m cell i = .ok (∑ n ∈ Finset.range cell.kind.nnode, labelWeight cell.kind n * (coordsOf m (cell.points.getD n 0)).getD i 0) := by
  unfold labelCoord labelWeight
  split_ifs with h1 h2
  · have e : ∀ q < 3, q < cell.kind.nnode := by rcases h1 with h | h <;> rw [h] <;> decide
    rw [nodeCoord_ok h hc (e 0 (by decide)) hi, Res.bind_ok, nodeCoord_ok h hc (e 2 (by decide)) hi, Res.bind_ok, sum_two (e 0 (by decide)) (e 2 (by decide)) (by decide)]
    show Res.ok _ = _
    congr 1
    ring
  · have e : ∀ q < 10, q < cell.kind.nnode := by rw [h2]; decide
    rw [nodeCoord_ok h hc (e 0 (by decide)) hi, Res.bind_ok, nodeCoord_ok h hc (e 9 (by decide)) hi, Res.bind_ok, sum_two (e 0 (by decide)) (e 9 (by decide)) (by decide)]
    show Res.ok _ = _
    congr 1
    ring
  · obtain ⟨s, e1, e2⟩ := Res.foldlM_range (fun acc n => do
      let v ← nodeCoord m cell n i
      pure (acc + v)) cell.points.length (0 : ℝ) (fun k s => s = ∑ n ∈ Finset.range k, (coordsOf m (cell.points.getD n 0)).getD i 0) rfl (by
        intro n s hn hs
        rw [h.nnode _ hc] at hn
        rw [nodeCoord_ok h hc hn hi, Res.bind_ok]
        exact ⟨_, rfl, by rw [hs, Finset.sum_range_succ]⟩)
    rw [e1, Res.bind_ok, e2, h.nnode _ hc, ← Finset.mul_sum]
    show Res.ok _ = _
    congr 1
    ring

theorem labelWeight_sum (k : GeoKind) : ∑ n ∈ Finset.range k.nnode, labelWeight k n = 1 := by
  unfold labelWeight
  split_ifs with h1 h2
  · have e : ∀ q < 3, q < k.nnode := by rcases h1 with h | h <;> rw [h] <;> decide
    have := sum_two (e 0 (by decide)) (e 2 (by decide)) (by decide) (3 / 4) (1 / 4) fun _ => 1
    simp only [mul_one] at this
    rw [this]; norm_num
  · have e : ∀ q < 10, q < k.nnode := by rw [h2]; decide
    have := sum_two (e 0 (by decide)) (e 9 (by decide)) (by decide) (1 / 2) (1 / 2) fun _ => 1
    simp only [mul_one] at this
    rw [this]; norm_num
  · have : (k.nnode : ℝ) ≠ 0 := by cases k <;> simp [GeoKind.nnode]
    rw [Finset.sum_const, Finset.card_range, nsmul_eq_mul]
    field_simp

theorem labelWeight_nonneg (k : GeoKind) (n : Nat) : 0 ≤ labelWeight k n := by
  unfold labelWeight
  split_ifs <;> positivity

theorem cellLabel_ok (h : ValidMesh m) (hd : m.ndim = 2 ∨ m.ndim = 3) (showMarker : Bool) {cell : Cell} (hc : cell ∈ m.cells) :
    cellLabel m showMarker cell = .ok (.text ((List.range m.ndim).map fun i => ∑ n ∈ Finset.range cell.kind.nnode, labelWeight cell.kind n * (coordsOf m (cell.points.getD n 0)).getD i 0)
      none (cellText showMarker cell)) := by
  unfold cellLabel
  rw [Res.mapM_eq_ok_of (labelCoord m cell) _ (List.range m.ndim) fun i hi => labelCoord_ok h hc (List.mem_range.1 hi), Res.bind_ok]
  rcases hd with h2 | h2 <;> rw [h2] <;> simp [Res.idx, List.range_succ]

/-- **C77.** Cells: one text for each cell, in order; it is the id (followed by the marker in parentheses, if asked for), and its position is a weighted mean of the
nodes of the cell. -/
theorem C77_cell_labels (h : ValidMesh m) (hd : m.ndim = 2 ∨ m.ndim = 3) (showMarker : Bool) :
    ∃ l, cellIds m showMarker = .ok l ∧ l.length = m.cells.length ∧ ∀ (c : Nat) (cell : Cell), m.cells[c]? = some cell → ∃ x, l[c]? = some (.text x none
      (if showMarker = true then toString c ++ "(" ++ toString cell.marker ++ ")" else toString c)) ∧ IsMeanOfNodes m cell x := by
  refine ⟨_, Res.mapM_eq_ok_of _ _ _ fun cell hc => cellLabel_ok h hd showMarker hc, by rw [List.length_map], fun c cell hcell => ⟨(List.range m.ndim).map fun i => ∑ n ∈ Finset.range cell.kind.nnode, labelWeight cell.kind n * (coordsOf m (cell.points.getD n 0)).getD i 0, ?_, ?_, labelWeight cell.kind, labelWeight_nonneg _, labelWeight_sum _, ?_⟩⟩
  · rw [List.getElem?_map, hcell, Option.map_some]
    congr 2
    unfold cellText
    rw [h.cellIds c cell hcell]
    rfl
  · simp
  · intro i hi
    rw [List.getD_eq_getElem _ _ (by simpa using hi)]
    simp

/-- The position of the label in the reference cell. -/
def labelRef (k : GeoKind) (j : Nat) : ℝ := ∑ n ∈ Finset.range k.nnode, labelWeight k n * refCoord k n j

/-- The same with rational numbers. -/
def labelWeightQ (k : GeoKind) (n : Nat) : ℚ :=
  if k = .qua9 ∨ k = .qua17 then (if n = 0 then 3 / 4 else if n = 2 then 1 / 4 else 0)
  else if k = .tri10 then (if n = 0 then 1 / 2 else if n = 9 then 1 / 2 else 0)
  else 1 / k.nnode
def labelRefQ (k : GeoKind) (j : Nat) : ℚ := ∑ n ∈ Finset.range k.nnode, labelWeightQ k n * refCoordQ k n j

theorem labelRef_cast (k : GeoKind) (j : Nat) : labelRef k j = (labelRefQ k j : ℝ) := by
  unfold labelRef labelRefQ
  push_cast
  refine Finset.sum_congr rfl fun n _ => ?_
  congr 1
  unfold labelWeight labelWeightQ
  split_ifs <;> push_cast <;> rfl

/-- **C77.** The label does not hide the nodes: if the cell is an affine image of the reference cell (a straight cell with evenly spaced nodes), then the label is the
image of a point strictly inside the reference cell, and, in plane and solid cells, this point is not a node. -/
theorem C77_label_inside (h : ValidMesh m) (hd : m.ndim = 2 ∨ m.ndim = 3) (showMarker : Bool) {cell : Cell} (hc : cell ∈ m.cells) (A : Nat → ℝ) (B : Nat → Nat → ℝ)
    (hX : ∀ n < cell.kind.nnode, ∀ i < m.ndim, (coordsOf m (cell.points.getD n 0)).getD i 0 = A i + ∑ j ∈ Finset.range cell.kind.ndim, B i j * refCoord cell.kind n j) :
    ∃ x t ξ, cellLabel m showMarker cell = .ok (.text x none t) ∧ (∀ i < m.ndim, x.getD i 0 = A i + ∑ j ∈ Finset.range cell.kind.ndim, B i j * ξ j) ∧
      StrictlyInside cell.kind.classOf ξ ∧ (2 ≤ cell.kind.ndim → ∀ n < cell.kind.nnode, ∃ j < cell.kind.ndim, ξ j ≠ refCoord cell.kind n j) := by
  refine ⟨_, _, labelRef cell.kind, cellLabel_ok h hd showMarker hc, fun i hi => ?_, ?_, fun h2 n hn => ?_⟩
  · rw [List.getD_eq_getElem _ _ (by simpa using hi)]
    simp only [List.getElem_map, List.getElem_range]
    have e : ∑ n ∈ Finset.range cell.kind.nnode, labelWeight cell.kind n * (coordsOf m (cell.points.getD n 0)).getD i 0 =
        ∑ n ∈ Finset.range cell.kind.nnode, (labelWeight cell.kind n * A i + ∑ j ∈ Finset.range cell.kind.ndim, B i j * (labelWeight cell.kind n * refCoord cell.kind n j)) := by
      refine Finset.sum_congr rfl fun n hn => ?_
      rw [hX n (Finset.mem_range.1 hn) i hi, mul_add, Finset.mul_sum]
      congr 1
      exact Finset.sum_congr rfl fun j _ => by ring
    rw [e, Finset.sum_add_distrib, ← Finset.sum_mul, labelWeight_sum, one_mul, Finset.sum_comm]
    congr 1
    refine Finset.sum_congr rfl fun j _ => ?_
    rw [← Finset.mul_sum]
    rfl
  · have hq : ∀ k : GeoKind, StrictlyInside k.classOf fun j => ((labelRefQ k j : ℚ) : ℝ) := by
      intro k
      cases k <;> simp only [GeoKind.classOf, StrictlyInside] <;> norm_cast <;> decide +kernel
    have := hq cell.kind
    simp only [← labelRef_cast] at this
    exact this
  · have hq : ∀ k : GeoKind, 2 ≤ k.ndim → ∀ n < k.nnode, ∃ j < k.ndim, labelRefQ k j ≠ refCoordQ k n j := by
      intro k
      cases k <;> decide +kernel
    obtain ⟨j, hj, hne⟩ := hq _ h2 n hn
    refine ⟨j, hj, ?_⟩
    rw [labelRef_cast]
    unfold refCoord
    exact_mod_cast hne

end
end Gemlab.Draw
