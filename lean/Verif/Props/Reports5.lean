import Verif.Props.Reports4
import Verif.Props.GridCells
import Mathlib.Data.Set.Card

/-!
# C83 — the summaries of the grids (`GridCells`: `limits`, `stat`, `Display`)
-/
namespace Gemlab.Reports
open Gemlab Gemlab.MeshText Gemlab.Mesh Gemlab.GridCells

/-! ## Specification -/

/-- The point is in the bounding box of the cell. -/
def InBox (m : Mesh ℝ) (c : Cell) (x : List ℝ) : Prop :=
  ∀ i < m.ndim, (∃ p ∈ c.points, coord m p i ≤ x.getD i 0) ∧ ∃ p ∈ c.points, x.getD i 0 ≤ coord m p i

/-- The point is in the container with number `k`: cubes of the given side, counted from `xmin`, numbered along the first axis first. -/
def InContainer (ndim : Nat) (xmin : List ℝ) (side : ℝ) (ndiv : List Nat) (x : List ℝ) (k : Nat) : Prop :=
  ∃ r : Nat → Nat, (∀ i < ndim, r i < ndiv.getD i 0 ∧ InSlice (xmin.getD i 0) side (ndiv.getD i 0) (r i) (x.getD i 0)) ∧
    k = r 0 + r 1 * ndiv.getD 0 0 + (if ndim = 3 then r 2 * ndiv.getD 0 0 * ndiv.getD 1 0 else 0)

/-- The longest side of the bounding box of the cell is at least `cutoff` times the longest side of all boxes. -/
def LargeCell (m : Mesh ℝ) (cutoff : ℝ) (c : Cell) : Prop :=
  ∃ i < m.ndim, ∃ p ∈ c.points, ∃ q ∈ c.points, ∀ c' ∈ m.cells, ∀ j < m.ndim, ∀ p' ∈ c'.points, ∀ q' ∈ c'.points,
    cutoff * (coord m p' j - coord m q' j) ≤ coord m p i - coord m q i

/-- The numbers of the large cells. -/
def largeIds (m : Mesh ℝ) (cutoff : ℝ) : Set Nat := {k | ∃ c, m.cells[k]? = some c ∧ LargeCell m cutoff c}

/-! ## Containers -/

/-- No repetitions, no empty containers. -/
def Tidy (c : HMap Nat (List Nat)) : Prop := HMap.WF c ∧ ∀ e ∈ c, e.2.Nodup ∧ e.2 ≠ []

theorem tidy_addTo {c : HMap Nat (List Nat)} (h : Tidy c) (key id : Nat) : Tidy (GridCells.addTo c key id) := by
  unfold GridCells.addTo
  refine ⟨HMap.wf_insert _ _ _ h.1, ?_⟩
  intro e he
  rcases HMap.mem_insert he with rfl | he
  · dsimp only
    have hn : ((c.get key).getD []).Nodup := by
      cases hg : c.get key with
      | none => simp
      | some l => exact (h.2 _ (HMap.mem_of_get hg)).1
    split
    · rename_i hi
      exact ⟨hn, fun h0 => by rw [h0] at hi; simp at hi⟩
    · rename_i hi
      refine ⟨?_, by simp⟩
      rw [List.nodup_append]
      exact ⟨hn, by simp, by intro x hx y hy; simp only [List.mem_singleton] at hy; subst hy; rintro rfl; exact hi hx⟩
  · exact h.2 e he

theorem tidy_fill (ndim : Nat) (side : ℝ) (ndiv : List Nat) (xmin : List ℝ) (boxes : List (List ℝ × List ℝ)) (large : List Nat) :
    Tidy (fill ndim side ndiv xmin boxes large) := by
  unfold fill
  have : ∀ (L : List ((List ℝ × List ℝ) × Nat)) (c : HMap Nat (List Nat)), Tidy c → Tidy (L.foldl (fun (c : HMap Nat (List Nat)) bk =>
      if bk.2 ∈ large then c
      else (corners ndim bk.1).foldl (fun c x => GridCells.addTo c (utilContainerKey ndim side ndiv xmin x) bk.2) c) c) := by
    intro L
    induction L with
    | nil => intro c hc; exact hc
    | cons bk L ih =>
      intro c hc
      rw [List.foldl_cons]
      apply ih
      split
      · exact hc
      · have : ∀ (X : List (List ℝ)) (c : HMap Nat (List Nat)), Tidy c →
            Tidy (X.foldl (fun c x => GridCells.addTo c (utilContainerKey ndim side ndiv xmin x) bk.2) c) := by
          intro X
          induction X with
          | nil => intro c hc; exact hc
          | cons x X ihX => intro c hc; exact ihX _ (tidy_addTo hc _ _)
        exact this _ c hc
  exact this _ [] ⟨HMap.wf_nil, by simp⟩

theorem slice_axIdx {x0 side v : ℝ} {n : Nat} (hs : 0 < side) (hn : 1 ≤ n) (h0 : x0 ≤ v) (h1 : v ≤ x0 + side * n) :
    axIdx side x0 n v < n ∧ InSlice x0 side n (axIdx side x0 n v) v := by
  have hfl : ⌊(v - x0) / side⌋₊ ≤ n := by
    have : (v - x0) / side ≤ (n : ℝ) := by rw [div_le_iff₀ hs]; linarith
    calc ⌊(v - x0) / side⌋₊ ≤ ⌊(n : ℝ)⌋₊ := Nat.floor_mono this
      _ = n := Nat.floor_natCast n
  have hnn : 0 ≤ (v - x0) / side := div_nonneg (by linarith) hs.le
  have hle := Nat.floor_le hnn
  have hlt := Nat.lt_floor_add_one ((v - x0) / side)
  rw [le_div_iff₀ hs] at hle
  rw [div_lt_iff₀ hs] at hlt
  unfold axIdx InSlice
  split
  · rename_i he
    rw [he] at hle
    have hv : v = x0 + n * side := by linarith
    refine ⟨by omega, ?_, Or.inr ⟨by omega, hv⟩⟩
    rw [he, hv]
    have : ((n - 1 : Nat) : ℝ) ≤ n := by exact_mod_cast Nat.sub_le _ _
    nlinarith
  · refine ⟨by omega, by linarith, Or.inl (by linarith)⟩

theorem axIdx_of_slice {x0 side v : ℝ} {n r : Nat} (hs : 0 < side) (hr : r < n) (h : InSlice x0 side n r v) : axIdx side x0 n v = r := by
  obtain ⟨h1, h2⟩ := h
  unfold axIdx
  rcases h2 with h2 | ⟨h3, h2⟩
  · have : ⌊(v - x0) / side⌋₊ = r := by
      rw [Nat.floor_eq_iff (div_nonneg (by nlinarith [Nat.cast_nonneg (α := ℝ) r]) hs.le), le_div_iff₀ hs, div_lt_iff₀ hs]
      constructor <;> linarith
    rw [this, if_neg (by omega)]
  · have : ⌊(v - x0) / side⌋₊ = n := by
      rw [h2, add_sub_cancel_left, mul_div_assoc, div_self hs.ne', mul_one, Nat.floor_natCast]
    rw [this, if_pos rfl]; omega

theorem key_iff {ndim : Nat} (hd : ndim = 2 ∨ ndim = 3) {side : ℝ} (hs : 0 < side) {ndiv : List Nat} {xmin x : List ℝ}
    (hn : ∀ i < ndim, 1 ≤ ndiv.getD i 0) (h0 : ∀ i < ndim, at' xmin i ≤ at' x i)
    (h1 : ∀ i < ndim, at' x i ≤ at' xmin i + side * ((ndiv.getD i 0 : Nat) : ℝ)) (k : Nat) :
    utilContainerKey ndim side ndiv xmin x = k ↔ InContainer ndim xmin side ndiv x k := by
  unfold InContainer
  constructor
  · rintro rfl
    refine ⟨fun i => axIdx side (at' xmin i) (ndiv.getD i 0) (at' x i), fun i hi => slice_axIdx hs (hn i hi) (h0 i hi) (h1 i hi), ?_⟩
    rcases hd with rfl | rfl
    · rw [utilKey2]; simp
    · rw [utilKey3]; simp
  · rintro ⟨r, hr, rfl⟩
    change ∀ i < ndim, r i < ndiv.getD i 0 ∧ InSlice (at' xmin i) side (ndiv.getD i 0) (r i) (at' x i) at hr
    rcases hd with rfl | rfl
    · rw [utilKey2, axIdx_of_slice hs (hr 0 (by omega)).1 (hr 0 (by omega)).2, axIdx_of_slice hs (hr 1 (by omega)).1 (hr 1 (by omega)).2]
      simp
    · rw [utilKey3, axIdx_of_slice hs (hr 0 (by omega)).1 (hr 0 (by omega)).2, axIdx_of_slice hs (hr 1 (by omega)).1 (hr 1 (by omega)).2,
        axIdx_of_slice hs (hr 2 (by omega)).1 (hr 2 (by omega)).2]
      simp

variable {m : Mesh ℝ} {tol border cutoff pct : Option ℝ} {g : GridCells}

theorem corner_bounds {ndim : Nat} (hd : ndim = 2 ∨ ndim = 3) (b : List ℝ × List ℝ) (x : List ℝ) (hx : x ∈ corners ndim b)
    (hb : ∀ i < ndim, at' b.1 i ≤ at' b.2 i) : ∀ i < ndim, at' b.1 i ≤ at' x i ∧ at' x i ≤ at' b.2 i := by
  unfold corners at hx
  simp only [List.mem_flatMap, List.mem_map] at hx
  obtain ⟨r, hr, s, hs, t, ht, rfl⟩ := hx
  have ht' : t ∈ [b.1, b.2] := List.mem_of_mem_take ht
  simp only [List.mem_cons, List.not_mem_nil, or_false] at hr hs ht'
  intro i hi
  have h := hb i hi
  rcases hd with rfl | rfl
  · simp only [show ¬ (2 = 3) from by decide, if_false]
    interval_cases i
    · change at' b.1 0 ≤ at' r 0 ∧ at' r 0 ≤ at' b.2 0
      rcases hr with rfl | rfl <;> simp [h]
    · change at' b.1 1 ≤ at' s 1 ∧ at' s 1 ≤ at' b.2 1
      rcases hs with rfl | rfl <;> simp [h]
  · simp only [if_true]
    interval_cases i
    · change at' b.1 0 ≤ at' r 0 ∧ at' r 0 ≤ at' b.2 0
      rcases hr with rfl | rfl <;> simp [h]
    · change at' b.1 1 ≤ at' s 1 ∧ at' s 1 ≤ at' b.2 1
      rcases hs with rfl | rfl <;> simp [h]
    · change at' b.1 2 ≤ at' t 2 ∧ at' t 2 ≤ at' b.2 2
      rcases ht' with rfl | rfl <;> simp [h]

theorem inBox_iff {c : Cell} {b : List ℝ × List ℝ} (h : IsBox m c.points b) (x : List ℝ) :
    InBox m c x ↔ ∀ i < m.ndim, at' b.1 i ≤ at' x i ∧ at' x i ≤ at' b.2 i := by
  constructor
  · intro hx i hi
    obtain ⟨⟨p, hp, h1⟩, ⟨q, hq, h2⟩⟩ := hx i hi
    exact ⟨(h.mem i hi p hp).1.trans h1, le_trans h2 (h.mem i hi q hq).2⟩
  · intro hx i hi
    obtain ⟨p, hp, e1⟩ := h.tight1 i hi
    obtain ⟨q, hq, e2⟩ := h.tight2 i hi
    exact ⟨⟨p, hp, e1.le.trans (hx i hi).1⟩, ⟨q, hq, (hx i hi).2.trans e2.ge⟩⟩

/-- A container holds exactly the cells that are not large and whose bounding box meets the container. -/
theorem has_iff (hd : m.ndim = 2 ∨ m.ndim = 3) (hg : Good m g) (k id : Nat) :
    Has g.containers k id ↔ id ∉ g.largeCells ∧ ∃ c, m.cells[id]? = some c ∧
      ∃ x, InBox m c x ∧ InContainer m.ndim g.xmin g.sideLength g.ndiv x k := by
  have lim : ∀ {c : Cell} {b : List ℝ × List ℝ}, c ∈ m.cells → IsBox m c.points b → ∀ x : List ℝ,
      (∀ i < m.ndim, at' b.1 i ≤ at' x i ∧ at' x i ≤ at' b.2 i) → (∀ i < m.ndim, at' g.xmin i ≤ at' x i) ∧
      (∀ i < m.ndim, at' x i ≤ at' g.xmin i + g.sideLength * ((g.ndiv.getD i 0 : Nat) : ℝ)) := by
    intro c b hc hR x hx
    constructor
    · intro i hi
      obtain ⟨p, hp, e⟩ := hR.tight1 i hi
      exact ((hg.inside c hc p hp i hi).1.trans e.le).trans (hx i hi).1
    · intro i hi
      obtain ⟨p, hp, e⟩ := hR.tight2 i hi
      rw [← hg.xmax i hi]
      exact ((hx i hi).2.trans e.ge).trans (hg.inside c hc p hp i hi).2
  constructor
  · intro h
    rw [hg.containers, fill_spec] at h
    obtain ⟨b, hb, hl, x, hx, rfl⟩ := h
    obtain ⟨c, hc, hR⟩ := forall2_get hg.boxes hb
    have hbnd := corner_bounds hd b x hx (fun i hi => by
      have := hR.extent_nonneg hi; unfold extent at this; linarith)
    refine ⟨hl, c, hc, x, (inBox_iff hR x).2 hbnd, ?_⟩
    obtain ⟨l1, l2⟩ := lim (List.mem_of_getElem? hc) hR x hbnd
    exact (key_iff hd hg.side hg.ndiv l1 l2 _).1 rfl
  · rintro ⟨hl, c, hc, x, hx, hk⟩
    obtain ⟨b, hb, hR⟩ := forall2_get' hg.boxes hc
    have hbnd := (inBox_iff hR x).1 hx
    obtain ⟨l1, l2⟩ := lim (List.mem_of_getElem? hc) hR x hbnd
    rw [← key_iff hd hg.side hg.ndiv l1 l2] at hk
    rcases hg.candidate hd hb hbnd with h | h
    · exact absurd h hl
    · rw [hk] at h; exact h

/-! ## Large cells -/

theorem new_large (hs : Setting m tol border cutoff pct) (hg : new m tol border cutoff pct = .ok g) :
    g.largeCells.Nodup ∧ ∀ k, k ∈ g.largeCells ↔
      k ∈ largeIds m (cutoff.getD (3 / 4)) ∧
      ((largeIds m (cutoff.getD (3 / 4))).ncard : ℝ) ≤ pct.getD (1 / 5) * m.cells.length := by
  obtain ⟨s, hsc, inv⟩ := scan_ok hs.valid
  have hnd : 0 < m.ndim := by rcases hs.ndim with h | h <;> omega
  have hp := hs.params
  obtain ⟨ht, hb, hcut, hpct⟩ := hp
  have hcpos : 0 < m.cells.length := List.length_pos_iff.mpr hs.cells
  unfold new at hg
  dsimp only at hg
  generalize tol.getD (1 / 10000) = t at *
  generalize border.getD (1 / 100) = bd at *
  generalize cutoff.getD (3 / 4) = cut at *
  generalize pct.getD (1 / 5) = pc at *
  rw [if_neg (by linarith), if_neg (by linarith), if_neg (by rintro (h | h) <;> linarith [hcut.1, hcut.2]),
    if_neg (by rintro (h | h) <;> linarith [hpct.1, hpct.2]), hsc, Res.bind_ok] at hg
  have sp := splitLarge_spec m.ndim s.boxes (cut * largestOf m.ndim (at' s.largest))
  generalize splitLarge m.ndim s.boxes (cut * largestOf m.ndim (at' s.largest)) = sl at sp hg
  have hlarge : g.largeCells = if (sl.1.length : ℝ) / (m.cells.length : ℝ) ≤ pc then sl.1 else [] := by
    generalize (if bd > 0 then s.xmin.map (fun v => v - bd) else s.xmin) = xm at hg
    generalize (if bd > 0 then s.xmax.map (fun v => v + bd) else s.xmax) = xM at hg
    by_cases hc : ∃ i < m.ndim, ¬ at' xM i > at' xm i
    · rw [if_pos hc] at hg; cases hg
    · rw [if_neg hc] at hg
      injection hg with hg
      rw [← hg]
  -- the longest side
  have hLge : ∀ bx ∈ s.boxes, ∀ i < m.ndim, extent bx i ≤ largestOf m.ndim (at' s.largest) := fun bx hbx i hi =>
    (inv.largest bx hbx i hi).trans (largestOf_ge _ hi)
  have hbox : ∀ (k : Nat) c, m.cells[k]? = some c → ∃ b, s.boxes[k]? = some b ∧ IsBox m c.points b := fun k c hc => forall2_get' inv.boxes hc
  have hiff : ∀ {c : Cell} {b : List ℝ × List ℝ}, IsBox m c.points b →
      (IsLarge m.ndim (cut * largestOf m.ndim (at' s.largest)) b ↔ LargeCell m cut c) := by
    intro c b hR
    constructor
    · intro hl
      obtain ⟨i, hi, hie⟩ := largestOf_attained hnd (extent b)
      obtain ⟨p, hpm, e2⟩ := hR.tight2 i hi
      obtain ⟨q, hqm, e1⟩ := hR.tight1 i hi
      refine ⟨i, hi, p, hpm, q, hqm, ?_⟩
      intro c' hc' j hj p' hp' q' hq'
      obtain ⟨k', hk', hke'⟩ := List.mem_iff_getElem.mp hc'
      obtain ⟨b', hb', hR'⟩ := hbox k' c' (by rw [List.getElem?_eq_getElem hk', hke'])
      have a1 := (hR'.mem j hj p' hp').2
      have a2 := (hR'.mem j hj q' hq').1
      have a3 := hLge b' (List.mem_of_getElem? hb') j hj
      unfold extent at a3
      have h2 : coord m p' j - coord m q' j ≤ largestOf m.ndim (at' s.largest) := by linarith
      have h3 := mul_le_mul_of_nonneg_left h2 hcut.1
      unfold IsLarge at hl
      rw [hie] at hl
      unfold extent at hl
      linarith
    · rintro ⟨i, hi, p, hpm, q, hqm, hall⟩
      obtain ⟨j, hj, hje⟩ := largestOf_attained hnd (at' s.largest)
      have : ∃ b' ∈ s.boxes, extent b' j = at' s.largest j := by
        rcases inv.attained j hj with h | h
        · exfalso
          obtain ⟨c0, hc0⟩ := List.exists_mem_of_ne_nil _ hs.cells
          obtain ⟨k0, hk0, hke0⟩ := List.mem_iff_getElem.mp hc0
          obtain ⟨b0, hb0, hR0⟩ := hbox k0 c0 (by rw [List.getElem?_eq_getElem hk0, hke0])
          have h1 := inv.largest b0 (List.mem_of_getElem? hb0) j hj
          have h2 := hR0.extent_nonneg hj
          have := f64Max_pos
          linarith
        · exact h
      obtain ⟨b', hb', he⟩ := this
      obtain ⟨k', hk', hke'⟩ := List.mem_iff_getElem.mp hb'
      obtain ⟨c', hc', hR'⟩ := forall2_get inv.boxes (k := k') (b := b') (by rw [List.getElem?_eq_getElem hk', hke'])
      obtain ⟨p', hp', e2⟩ := hR'.tight2 j hj
      obtain ⟨q', hq', e1⟩ := hR'.tight1 j hj
      have h1 := hall c' (List.mem_of_getElem? hc') j hj p' hp' q' hq'
      unfold IsLarge
      rw [hje, ← he]
      have a1 := (hR.mem i hi p hpm).2
      have a2 := (hR.mem i hi q hqm).1
      have a3 := largestOf_ge (extent b) hi
      have e3 : extent b' j = coord m p' j - coord m q' j := by unfold extent; rw [e1, e2]
      have e4 : extent b i = at' b.2 i - at' b.1 i := rfl
      rw [e3]
      linarith
  have hmem : ∀ k, k ∈ sl.1 ↔ k ∈ largeIds m cut := by
    intro k
    rw [sp.mem]
    constructor
    · rintro ⟨b, hb, hl⟩
      obtain ⟨c, hc, hR⟩ := forall2_get inv.boxes hb
      exact ⟨c, hc, (hiff hR).1 hl⟩
    · rintro ⟨c, hc, hl⟩
      obtain ⟨b, hb, hR⟩ := hbox k c hc
      exact ⟨b, hb, (hiff hR).2 hl⟩
  have hcard : (largeIds m cut).ncard = sl.1.length := by
    have : largeIds m cut = (sl.1.toFinset : Set Nat) := by
      ext k; rw [← hmem]; simp
    rw [this, Set.ncard_coe_finset, List.toFinset_card_of_nodup sp.nodup]
  have hle : ((sl.1.length : ℝ) / (m.cells.length : ℝ) ≤ pc) ↔ ((largeIds m cut).ncard : ℝ) ≤ pc * m.cells.length := by
    rw [hcard, div_le_iff₀ (by exact_mod_cast hcpos)]
  rw [hlarge]
  constructor
  · split
    · exact sp.nodup
    · exact List.nodup_nil
  · intro k
    rw [← hle, ← hmem]
    split
    · rename_i h; simp [h]
    · rename_i h; simp [h]

/-! ## The summaries -/

/-- What the summaries of a grid are made of: the numbers of the non-empty containers, the cells in each of them, the large cells. -/
structure Summary (m : Mesh ℝ) (cutoff pct : ℝ) (g : GridCells) (keys large : List Nat) (idsAt : Nat → List Nat) : Prop where
  /-- the containers are listed in ascending order -/
  keysSorted : keys.Pairwise (· < ·)
  /-- a container is listed exactly if it meets the bounding box of a cell that is not large -/
  keysMem : ∀ k, k ∈ keys ↔ ∃ id, id ∉ large ∧ ∃ c, m.cells[id]? = some c ∧
    ∃ x, InBox m c x ∧ InContainer m.ndim g.xmin g.sideLength g.ndiv x k
  /-- the cells of a container are listed in ascending order -/
  idsSorted : ∀ k ∈ keys, (idsAt k).Pairwise (· < ·)
  /-- the cells of a container are those that are not large and whose bounding box meets the container -/
  idsMem : ∀ k ∈ keys, ∀ id, id ∈ idsAt k ↔ id ∉ large ∧ ∃ c, m.cells[id]? = some c ∧
    ∃ x, InBox m c x ∧ InContainer m.ndim g.xmin g.sideLength g.ndiv x k
  largeSorted : large.Pairwise (· < ·)
  /-- the large cells, unless they are more than the given fraction of all cells -/
  largeMem : ∀ k, k ∈ large ↔ k ∈ largeIds m cutoff ∧ ((largeIds m cutoff).ncard : ℝ) ≤ pct * m.cells.length

theorem has_get (c : HMap Nat (List Nat)) {k : Nat} {l : List Nat} (h : c.get k = some l) (id : Nat) : id ∈ l ↔ Has c k id := by
  unfold Has
  rw [h]
  simp

theorem tally_fold (iterS : List Nat → List Nat) (hS : IterOrder iterS) (L : List (List Nat)) (s : Tally) (hs : s.items.Nodup) :
    let r := L.foldl (tally iterS) s
    r.items.Nodup ∧ (∀ x, x ∈ r.items ↔ x ∈ s.items ∨ ∃ l ∈ L, x ∈ l) ∧ r.counts = s.counts ++ L.map List.length ∧
      s.most ≤ r.most ∧ (∀ l ∈ L, l.length ≤ r.most) ∧ (r.most = s.most ∨ ∃ l ∈ L, l.length = r.most) := by
  induction L generalizing s with
  | nil => simp [hs]
  | cons l L ih =>
    obtain ⟨f1, f2⟩ := hset_fold (iterS l) s.items hs
    obtain ⟨h1, h2, h3, h4, h5, h6⟩ := ih (tally iterS s l) f1
    rw [List.foldl_cons]
    simp only [tally] at h1 h2 h3 h4 h5 h6 ⊢
    refine ⟨h1, ?_, ?_, ?_, ?_, ?_⟩
    · intro x
      rw [h2, f2, (hS l).mem_iff]
      simp only [List.mem_cons, exists_eq_or_imp]
      tauto
    · rw [h3]; simp
    · omega
    · intro l' hl'
      rcases List.mem_cons.1 hl' with rfl | hl'
      · omega
      · exact h5 l' hl'
    · rcases h6 with h6 | ⟨l', hl', h6⟩
      · rcases max_choice s.most l.length with h | h
        · left; omega
        · right; exact ⟨l, by simp, by omega⟩
      · right; exact ⟨l', by simp [hl'], h6⟩

/-- **C83.** The summaries of a grid of cells (for the sound inputs of `C35`): the containers and the cells they hold, the large cells, and
the numbers; `ncell` is the number of cells of the mesh. `Display` and `stat` print these numbers; they do not depend on the orders of
iteration of the hash maps and sets (the order of the data of the histogram does). -/
theorem C83_grid_cells (hs : Setting m tol border cutoff pct) (hg : new m tol border cutoff pct = .ok g) :
    ∃ (keys large : List Nat) (idsAt : Nat → List Nat), Summary m (cutoff.getD (3 / 4)) (pct.getD (1 / 5)) g keys large idsAt ∧
      (∀ iter iterS, IterOrder iter → IterOrder iterS →
        showCells iter iterS g = .ok (containersText keys idsAt ++ "large_cells = ".toList ++ idsText large ++
          "\nncell = ".toList ++ showNat m.cells.length ++ "\nncontainer = ".toList ++ showNat keys.length ++
          "\nndiv = ".toList ++ idsText g.ndiv ++ "\n".toList)) ∧
      (∀ dbg hist iter iterS, IterOrder iter → IterOrder iterS →
        ∃ (most : Nat) (counts : List Nat), (∀ k ∈ keys, (idsAt k).length ≤ most) ∧ (keys = [] → most = 0) ∧
          (keys ≠ [] → ∃ k ∈ keys, (idsAt k).length = most) ∧
          counts.Perm (keys.map fun k => (idsAt k).length) ∧
          stat dbg hist iter iterS g = "Summary\n=======\nncell total = ".toList ++ showNat m.cells.length ++
            "\nxmin = ".toList ++ showList (g.xmin.map dbg) ++ "\nxmax = ".toList ++ showList (g.xmax.map dbg) ++
            "\nside_length = ".toList ++ dbg g.sideLength ++ "\nnum of non-empty containers = ".toList ++ showNat keys.length ++
            "\nmax container num items = ".toList ++ showNat most ++
            "\n\nHistogram of container num items\n================================\n".toList ++ hist (List.range (most + 2)) counts) := by
  have hgood := hs.good hg
  obtain ⟨hln, hlm⟩ := new_large hs hg
  have htidy : Tidy g.containers := by rw [hgood.containers]; exact tidy_fill _ _ _ _ _ _
  have hhas := has_iff hs.ndim hgood
  have hkeys : ∀ k, k ∈ g.containers.map (·.1) ↔ ∃ id, Has g.containers k id := by
    intro k
    constructor
    · intro hk
      obtain ⟨⟨k', c⟩, hm, rfl⟩ := List.mem_map.1 hk
      have hg := HMap.get_of_mem htidy.1 hm
      obtain ⟨e, c', hc⟩ := List.exists_cons_of_ne_nil (htidy.2 _ hm).2
      dsimp only at hc
      exact ⟨e, c, hg, by rw [hc]; simp⟩
    · rintro ⟨id, l, hl, _⟩
      by_contra hc
      rw [(HMap.get_eq_none_iff).2 hc] at hl
      cases hl
  set keys := sortIds (g.containers.map (·.1)) with hkeysd
  set idsAt : Nat → List Nat := fun k => sortIds ((g.containers.get k).getD []) with hidsAt
  have hget : ∀ k ∈ keys, ∃ c, g.containers.get k = some c ∧ c.Nodup ∧ idsAt k = sortIds c := by
    intro k hk
    rw [hkeysd, sortIds_mem] at hk
    obtain ⟨⟨k', c⟩, hm, rfl⟩ := List.mem_map.1 hk
    have hg := HMap.get_of_mem htidy.1 hm
    exact ⟨c, hg, (htidy.2 _ hm).1, by simp [hidsAt, hg]⟩
  -- every cell is large or in a container
  have hall : ∀ u : List Nat, u.Nodup → (∀ x, x ∈ u ↔ ∃ k, Has g.containers k x) → u.length + g.largeCells.length = m.cells.length := by
    intro u hu hmem
    have hdis : ∀ x ∈ u, x ∉ g.largeCells := by
      intro x hx
      obtain ⟨k, hk⟩ := (hmem x).1 hx
      exact ((hhas k x).1 hk).1
    have hnd : (u ++ g.largeCells).Nodup := by
      rw [List.nodup_append]
      exact ⟨hu, hln, fun a ha b hb => by rintro rfl; exact hdis a ha hb⟩
    have hperm : (u ++ g.largeCells).Perm (List.range m.cells.length) := by
      rw [List.perm_ext_iff_of_nodup hnd List.nodup_range]
      intro x
      rw [List.mem_append, List.mem_range]
      constructor
      · rintro (hx | hx)
        · obtain ⟨k, hk⟩ := (hmem x).1 hx
          obtain ⟨_, c, hc, _⟩ := (hhas k x).1 hk
          exact (List.getElem?_eq_some_iff.1 hc).1
        · exact hgood.large x hx
      · intro hx
        obtain ⟨b, hb, hR⟩ := forall2_get' hgood.boxes (List.getElem?_eq_getElem hx)
        rcases hgood.candidate hs.ndim hb (x := b.1) (fun i hi => by
          have := hR.extent_nonneg hi
          unfold extent at this
          exact ⟨le_refl _, by linarith⟩) with h | ⟨l, hl, hx⟩
        · exact Or.inr h
        · exact Or.inl ((hmem x).2 ⟨_, l, hl, hx⟩)
    have := hperm.length_eq
    rw [List.length_append, List.length_range] at this
    exact this
  have hkl : keys.length = g.containers.length := by
    rw [hkeysd]; unfold sortIds; rw [List.length_insertionSort, List.length_map]
  refine ⟨keys, sortIds g.largeCells, idsAt, ⟨sortIds_strict htidy.1, ?_, ?_, ?_, sortIds_strict hln, ?_⟩, ?_, ?_⟩
  · intro k
    rw [hkeysd, sortIds_mem, hkeys]
    constructor
    · rintro ⟨id, h⟩
      exact ⟨id, by rw [sortIds_mem]; exact ((hhas k id).1 h).1, ((hhas k id).1 h).2⟩
    · rintro ⟨id, h1, h2⟩
      exact ⟨id, (hhas k id).2 ⟨by rw [sortIds_mem] at h1; exact h1, h2⟩⟩
  · intro k hk
    obtain ⟨c, _, hn, he⟩ := hget k hk
    rw [he]; exact sortIds_strict hn
  · intro k hk id
    obtain ⟨c, hc, _, he⟩ := hget k hk
    rw [he, sortIds_mem, has_get _ hc, hhas, sortIds_mem]
  · intro k; rw [sortIds_mem]; exact hlm k
  · intro iter iterS hI hS
    have hk' : sortIds ((iter g.containers).map (·.1)) = keys := by
      refine strict_ext (sortIds_strict ?_) (sortIds_strict htidy.1) ?_
      · exact ((hI g.containers).map _).nodup_iff.2 htidy.1
      · intro a; rw [sortIds_mem, sortIds_mem]; exact ((hI g.containers).map _).mem_iff
    obtain ⟨u, h1, h2, h3⟩ := showContainers_ok iterS g.containers idsAt keys (by
      intro k hk
      obtain ⟨c, hc, hn, he⟩ := hget k hk
      refine ⟨c, hc, ?_⟩
      rw [he]
      refine strict_ext (sortIds_strict ((hS c).nodup_iff.2 hn)) (sortIds_strict hn) ?_
      intro a; rw [sortIds_mem, sortIds_mem]; exact (hS c).mem_iff) ([], []) List.nodup_nil
    have hul := hall u h2 (by
      intro x
      rw [h3]
      simp only [List.not_mem_nil, false_or]
      constructor
      · rintro ⟨k, hk, hx⟩
        obtain ⟨c, hc, _, he⟩ := hget k hk
        rw [he, sortIds_mem] at hx
        exact ⟨k, c, hc, hx⟩
      · rintro ⟨k, c, hc, hx⟩
        have hk : k ∈ keys := by rw [hkeysd, sortIds_mem, hkeys]; exact ⟨x, c, hc, hx⟩
        refine ⟨k, hk, ?_⟩
        obtain ⟨c', hc', _, he⟩ := hget k hk
        rw [hc] at hc'
        injection hc' with hc'
        rw [he, sortIds_mem, ← hc']
        exact hx)
    have hl : sortIds (iterS g.largeCells) = sortIds g.largeCells := by
      refine strict_ext (sortIds_strict ((hS _).nodup_iff.2 hln)) (sortIds_strict hln) ?_
      intro a; rw [sortIds_mem, sortIds_mem]; exact (hS _).mem_iff
    unfold showCells
    simp only [hk', h1, Res.bind_ok, hl, hul, ← hkl]
    change Res.ok _ = Res.ok _
    congr 1
    simp [showList, idsText]
  · intro dbg hist iter iterS hI hS
    have hmem : ∀ l, l ∈ (iter g.containers).map (·.2) ↔ ∃ k ∈ keys, g.containers.get k = some l := by
      intro l
      rw [((hI g.containers).map _).mem_iff]
      constructor
      · intro h
        obtain ⟨⟨k, c⟩, hm, rfl⟩ := List.mem_map.1 h
        exact ⟨k, by rw [hkeysd, sortIds_mem]; exact List.mem_map.2 ⟨_, hm, rfl⟩, HMap.get_of_mem htidy.1 hm⟩
      · rintro ⟨k, _, h⟩
        exact List.mem_map.2 ⟨_, HMap.mem_of_get h, rfl⟩
    obtain ⟨h1, h2, h3, _, h5, h6⟩ := tally_fold iterS hS ((iter g.containers).map (·.2)) ⟨[], 0, []⟩ List.nodup_nil
    unfold stat
    dsimp only at h1 h2 h3 h5 h6 ⊢
    generalize ((iter g.containers).map (·.2)).foldl (tally iterS) ⟨[], 0, []⟩ = r at h1 h2 h3 h5 h6 ⊢
    have hul := hall r.items h1 (by
      intro x
      rw [h2]
      simp only [List.not_mem_nil, false_or]
      constructor
      · rintro ⟨l, hl, hx⟩
        obtain ⟨k, _, hk⟩ := (hmem l).1 hl
        exact ⟨k, l, hk, hx⟩
      · rintro ⟨k, c, hc, hx⟩
        exact ⟨c, (hmem c).2 ⟨k, by rw [hkeysd, sortIds_mem, hkeys]; exact ⟨x, c, hc, hx⟩, hc⟩, hx⟩)
    have hlen : ∀ k ∈ keys, ∀ c, g.containers.get k = some c → (idsAt k).length = c.length := by
      intro k hk c hc
      obtain ⟨c', hc', _, he⟩ := hget k hk
      rw [hc] at hc'
      injection hc' with hc'
      rw [he, ← hc']
      unfold sortIds
      rw [List.length_insertionSort]
    refine ⟨r.most, r.counts, ?_, ?_, ?_, ?_, ?_⟩
    · intro k hk
      obtain ⟨c, hc, _, _⟩ := hget k hk
      rw [hlen k hk c hc]
      exact h5 c ((hmem c).2 ⟨k, hk, hc⟩)
    · intro h0
      rcases h6 with h6 | ⟨l, hl, _⟩
      · exact h6
      · obtain ⟨k, hk, _⟩ := (hmem l).1 hl
        rw [h0] at hk; simp at hk
    · intro h0
      obtain ⟨k, hk⟩ := List.exists_mem_of_ne_nil _ h0
      obtain ⟨c, hc, _, _⟩ := hget k hk
      have hc5 := h5 c ((hmem c).2 ⟨k, hk, hc⟩)
      rcases h6 with h6 | ⟨l, hl, h6⟩
      · exact ⟨k, hk, by rw [hlen k hk c hc]; omega⟩
      · obtain ⟨k', hk', hc'⟩ := (hmem l).1 hl
        exact ⟨k', hk', by rw [hlen k' hk' l hc']; exact h6⟩
    · rw [h3, List.nil_append]
      have e1 : (((iter g.containers).map (·.2)).map List.length).Perm ((g.containers.map (·.2)).map List.length) :=
        ((hI g.containers).map _).map _
      refine e1.trans ?_
      have e2 : (g.containers.map (·.2)).map List.length = (g.containers.map (·.1)).map fun k => (idsAt k).length := by
        rw [List.map_map, List.map_map]
        apply List.map_congr_left
        intro e he
        have hk : e.1 ∈ keys := by rw [hkeysd, sortIds_mem]; exact List.mem_map.2 ⟨_, he, rfl⟩
        exact (hlen e.1 hk e.2 (HMap.get_of_mem htidy.1 he)).symm
      rw [e2]
      exact ((List.perm_insertionSort (· ≤ ·) _).symm).map _
    · rw [hul, ← hkl]
      rw [show "Summary\n=======\nncell total = ".toList = "Summary\n=======\n".toList ++ "ncell total = ".toList from by decide +kernel,
        show "\nxmin = ".toList = ['\n'] ++ "xmin = ".toList from by decide +kernel,
        show "\nxmax = ".toList = ['\n'] ++ "xmax = ".toList from by decide +kernel,
        show "\nside_length = ".toList = ['\n'] ++ "side_length = ".toList from by decide +kernel,
        show "\nnum of non-empty containers = ".toList = ['\n'] ++ "num of non-empty containers = ".toList from by decide +kernel,
        show "\nmax container num items = ".toList = ['\n'] ++ "max container num items = ".toList from by decide +kernel,
        show "\n\nHistogram of container num items\n================================\n".toList = ['\n'] ++ "\nHistogram of container num items\n================================\n".toList from by decide +kernel]
      simp only [List.append_assoc]

/-- **C83.** The limits given back are those of the grid, described by `C35_new`. -/
theorem C83_limits (hs : Setting m tol border cutoff pct) (hf : GridCells.Finite m) (hg : new m tol border cutoff pct = .ok g) :
    ∀ i < m.ndim, (∀ c ∈ m.cells, ∀ p ∈ c.points, at' (limits g).1 i + border.getD (1 / 100) ≤ coord m p i ∧
          coord m p i + border.getD (1 / 100) ≤ at' (limits g).2 i) ∧
        (∃ c ∈ m.cells, ∃ p ∈ c.points, at' (limits g).1 i + border.getD (1 / 100) = coord m p i) := by
  obtain ⟨g', h1, _, _, _, h⟩ := C35_new hs hf
  rw [hg] at h1
  injection h1 with h1
  subst h1
  exact h

example : ∃ g, new exMesh none none none none = .ok g ∧ Setting exMesh none none none none := by
  obtain ⟨g, h, _⟩ := new_ok exMesh_setting.valid exMesh_setting.ndim exMesh_setting.cells none none none none exMesh_setting.params.tol
    exMesh_setting.params.border exMesh_setting.params.cutoff exMesh_setting.params.pct exMesh_setting.small exMesh_setting.flat
  exact ⟨g, h, exMesh_setting⟩

end Gemlab.Reports
