import Verif.Proofs.Rectangle

/-! # C67: the structured mesh of a rectangle with layers -/
namespace Gemlab.Structured
noncomputable section
open Classical
open Gemlab.Mesh Gemlab.Shapes Gemlab.Block Gemlab.Spec

variable {inv : MatInverse} {o : GenOrders} {target : GeoKind} {xa : ℝ} {xb : Option ℝ} {xc : ℝ} {na nb : Nat} {y : List ℝ} {ny : List Nat} {markers : List Int}

/-- What is checked first. -/
structure RectInput (xa : ℝ) (xb : Option ℝ) (xc : ℝ) (na nb : Nat) (y : List ℝ) (ny : List Nat) (markers : List Int) : Prop where
  hx : xa < xc
  hxb : ∀ x, xb = some x → xa < x ∧ x < xc
  hna : 1 ≤ na
  hnb : 1 ≤ nb
  hlen : 2 ≤ y.length
  hny : ny.length = y.length - 1
  hmk : markers.length = y.length - 1

/-- Layer `l` can be divided. -/
def LayerOk (y : List ℝ) (ny : List Nat) (l : Nat) : Prop := y.getD l 0 < y.getD (l + 1) 0 ∧ 1 ≤ ny.getD l 0

/-- The marker of the layer of the cell. -/
def rectMarker (ny : List Nat) (markers : List Int) (_i j _k : Nat) : Int := markers.getD (segOf ny j) 0

theorem RectInput.segsX (h : RectInput xa xb xc na nb y ny markers) : Segs (rectX xa xb xc) (rectN xb na nb) ∧
    (∀ l < (rectN xb na nb).length, (rectX xa xb xc).getD l 0 < (rectX xa xb xc).getD (l + 1) 0) ∧ na ≤ (rectN xb na nb).sum := by
  have h1 := h.hna
  have h2 := h.hnb
  cases xb with
  | none =>
    refine ⟨⟨rfl, by simp [rectN, h1]⟩, ?_, by simp [rectN]⟩
    intro l hl
    have : l = 0 := by simp [rectN] at hl; omega
    subst this
    simpa [rectX] using h.hx
  | some x =>
    refine ⟨⟨rfl, by simp [rectN, h1, h2]⟩, ?_, by simp [rectN]⟩
    intro l hl
    have h3 := h.hxb x rfl
    have : l = 0 ∨ l = 1 := by simp [rectN] at hl; omega
    rcases this with rfl | rfl
    · simpa [rectX] using h3.1
    · simpa [rectX] using h3.2

theorem RectInput.segsY (h : RectInput xa xb xc na nb y ny markers) (hl : ∀ l < ny.length, LayerOk y ny l) : Segs y ny where
  len := by have := h.hlen; have := h.hny; omega
  pos := by
    intro n hn
    obtain ⟨l, hl', rfl⟩ := List.mem_iff_getElem.1 hn
    have := (hl l hl').2
    simpa [hl'] using this

theorem sum_pos_of {ny : List Nat} (h : ∀ l < ny.length, 1 ≤ ny.getD l 0) {l : Nat} (h0 : 0 < l) (hl : l ≤ ny.length) : 1 ≤ (ny.take l).sum := by
  match ny, l, h0 with
  | [], _, _ => simp at hl; omega
  | n :: ns, l + 1, _ =>
    have := h 0 (by simp)
    simp at this ⊢
    omega

theorem RectInput.grid (h : RectInput xa xb xc na nb y ny markers) (hl : ∀ l < ny.length, LayerOk y ny l) (ht : target.classOf = .qua) :
    Grid 2 target (rectDivs xb na nb ny) (rectTicks xa xb xc na nb y ny) where
  dims := .inl rfl
  cls := by rw [if_pos rfl]; exact ht
  pos := by
    intro a ha
    rcases (by omega : a = 0 ∨ a = 1 ∨ a = 2) with rfl | rfl | rfl
    · have := h.segsX.2.2; have := h.hna; show 1 ≤ (rectN xb na nb).sum; omega
    · show 1 ≤ ny.sum
      have := sum_pos_of (fun l hl' => (hl l hl').2) (l := ny.length) (by have := h.hlen; have := h.hny; omega) le_rfl
      simpa using this
    · exact le_rfl
  two := fun _ => rfl
  incr := by
    intro a ha i hi
    rcases (by omega : a = 0 ∨ a = 1) with rfl | rfl
    · exact segTicks_incr h.segsX.1 h.segsX.2.1 hi
    · exact segTicks_incr (h.segsY hl) (fun l hl' => (hl l hl').1) hi

theorem tick_y (h : RectInput xa xb xc na nb y ny markers) (hl : ∀ l < ny.length, LayerOk y ny l) {l j : Nat} (hl' : l < ny.length) (hj : j ≤ ny.getD l 0) :
    rectTicks xa xb xc na nb y ny 1 ((ny.take l).sum + j) = y.getD l 0 + (y.getD (l + 1) 0 - y.getD l 0) * evenTicks (ny.getD l 0) j :=
  segTicks_eq (h.segsY hl) hl' hj

theorem num_left {i j l : Nat} (hl : l < ny.length) (hj : j < ny.getD l 0) (hi : i < na) (k : Nat) :
    rectNum xb na nb ny i ((ny.take l).sum + j) k = (rectN xb na nb).sum * (ny.take l).sum + (i + na * j) := by
  unfold rectNum
  simp only [segOf_eq hl hj, if_pos hi, Nat.add_sub_cancel_left]

theorem num_right {i j l : Nat} (hl : l < ny.length) (hj : j < ny.getD l 0) (hi : ¬ i < na) (k : Nat) :
    rectNum xb na nb ny i ((ny.take l).sum + j) k = (rectN xb na nb).sum * (ny.take l).sum + na * ny.getD l 0 + ((i - na) + nb * j) := by
  unfold rectNum
  simp only [segOf_eq hl hj, if_neg hi, Nat.add_sub_cancel_left]
  omega

/-- One more mesh. -/
theorem add_piece {S S'' : Nat → Nat → Nat → Prop} {tick : Nat → Nat → ℝ} {marker : Nat → Nat → Nat → Int} {num : Nat → Nat → Nat → Nat}
    {L : List (Int × GeoKind × List (List ℝ))} (hT : Tiles 2 target S tick (fun x => x) marker num L) {i0 j0 n m : Nat} {M : Mesh ℝ}
    (hP : RectPart target tick marker i0 j0 n m M) (hdis : ∀ i j k, S i j k → ¬ (i0 ≤ i ∧ j0 ≤ j ∧ i - i0 < n ∧ j - j0 < m ∧ k = 0))
    (hS : ∀ i j k, S'' i j k ↔ S i j k ∨ (i0 ≤ i ∧ j0 ≤ j ∧ i - i0 < n ∧ j - j0 < m ∧ k = 0))
    (hnum : ∀ i j, i < n → j < m → num (i0 + i) (j0 + j) 0 = L.length + (i + n * j)) : Tiles 2 target S'' tick (fun x => x) marker num (L ++ geomCells M) := by
  refine tiles_congr (tiles_append hT hP.tiles hdis) (fun i j k => (hS i j k).symm) ?_ (fun _ _ _ _ => rfl) (fun _ _ _ _ _ _ => rfl)
  rintro i j k (hs | ⟨h1, h2, h3, h4, rfl⟩)
  · rw [if_pos hs]
  · rw [if_neg (fun hs => hdis _ _ _ hs ⟨h1, h2, h3, h4, rfl⟩)]
    have := hnum (i - i0) (j - j0) h3 h4
    rw [show i0 + (i - i0) = i by omega, show j0 + (j - j0) = j by omega] at this
    exact this.symm

/-- A mesh without marked edges and faces and without markers of points. -/
structure Plain (A : Mesh ℝ) : Prop where
  proper : Proper A
  ndim : A.ndim = 2
  zero : ∀ pt ∈ A.points, pt.marker = 0
  edges : A.markedEdges = []
  faces : A.markedFaces = []

theorem RectPart.plain {tick : Nat → Nat → ℝ} {marker : Nat → Nat → Nat → Int} {i0 j0 n m : Nat} {M : Mesh ℝ} (h : RectPart target tick marker i0 j0 n m M) : Plain M :=
  ⟨h.proper, h.ndim, h.zero, h.edges, h.faces⟩

/-- The meshes after `l` layers. -/
structure Layers (target : GeoKind) (xa : ℝ) (xb : Option ℝ) (xc : ℝ) (na nb : Nat) (y : List ℝ) (ny : List Nat) (markers : List Int) (l : Nat)
    (meshes : List (Mesh ℝ)) : Prop where
  count : meshes.length = (rectN xb na nb).length * l
  tiles : Tiles 2 target (fun i j k => k = 0 ∧ j < (ny.take l).sum ∧ i < (rectN xb na nb).sum) (rectTicks xa xb xc na nb y ny) (fun x => x)
    (rectMarker ny markers) (rectNum xb na nb ny) (allCells meshes)
  len : (allCells meshes).length = (rectN xb na nb).sum * (ny.take l).sum
  plain : ∀ A ∈ meshes, Plain A
  enclosed : ∀ k, 0 < k → k ≤ meshes.length → Enclosed 2 (allCells (meshes.take k))
  first : ∀ A ∈ meshes.head?, ptOf A 0 0 = 0

theorem Layers.zero : Layers target xa xb xc na nb y ny markers 0 [] where
  count := rfl
  tiles := ⟨fun i j k h => by simp at h, fun i j k _ _ _ h => by simp at h, fun c hc => by simp [allCells] at hc⟩
  len := by simp [allCells]
  plain := by simp
  enclosed := by intro k h1 h2; simp at h2; omega
  first := by simp

theorem Layers.step_one (h : RectInput xa none xc na nb y ny markers) (hl : ∀ l < ny.length, LayerOk y ny l) (ht : target.classOf = .qua) {l : Nat} (hlt : l < ny.length)
    {meshes : List (Mesh ℝ)} (hL : Layers target xa none xc na nb y ny markers l meshes) {M : Mesh ℝ}
    (hP : RectPart target (rectTicks xa none xc na nb y ny) (rectMarker ny markers) 0 (ny.take l).sum na (ny.getD l 0) M) :
    Layers target xa none xc na nb y ny markers (l + 1) (meshes ++ [M]) := by
  have hW : (rectN none na nb).sum = na := by simp [rectN]
  have hG := h.grid hl ht (target := target)
  have e := take_sum_succ hlt
  have hpos := (hl l hlt).2
  have hT := add_piece (S'' := fun i j k => k = 0 ∧ j < (ny.take (l + 1)).sum ∧ i < (rectN none na nb).sum) hL.tiles hP (by
      rintro i j k ⟨h1, h2, h3⟩ ⟨h4, h5, h6⟩; omega) (by
      intro i j k; rw [hW, e]; omega) (by
      intro i j hi hj
      rw [Nat.zero_add, num_left hlt hj hi, hL.len])
  have hall : allCells (meshes ++ [M]) = allCells meshes ++ geomCells M := by rw [allCells_append]; simp [allCells]
  rw [← hall] at hT
  refine ⟨?_, hT, ?_, ?_, ?_, ?_⟩
  · rw [List.length_append, hL.count]; simp [rectN]
  · rw [hall, List.length_append, hL.len, hP.len, hW, e]; ring
  · intro A hA
    rcases List.mem_append.1 hA with hA | hA
    · exact hL.plain A hA
    · simp at hA; subst hA; exact hP.plain
  · intro k hk hk'
    rw [List.length_append, List.length_singleton] at hk'
    rcases Nat.lt_or_ge meshes.length k with h1 | h1
    · rw [List.take_of_length_le (by simp; omega)]
      refine enclosed_stairs hT hG (J := (ny.take (l + 1)).sum) (w := fun _ => na) ⟨fun i j k => by rw [hW], ⟨by omega, take_sum_le _ _⟩, fun _ _ => h.hna, fun _ _ => le_rfl, ?_⟩
      show na ≤ (rectN none na nb).sum; omega
    · rw [List.take_append_of_le_length h1]
      exact hL.enclosed k hk h1
  · intro A hA
    cases meshes with
    | nil => simp at hA; subst hA; exact hP.first
    | cons B rest => exact hL.first A (by simpa using hA)

theorem Layers.step_two {x : ℝ} (h : RectInput xa (some x) xc na nb y ny markers) (hl : ∀ l < ny.length, LayerOk y ny l) (ht : target.classOf = .qua) {l : Nat} (hlt : l < ny.length)
    {meshes : List (Mesh ℝ)} (hL : Layers target xa (some x) xc na nb y ny markers l meshes) {M M' : Mesh ℝ}
    (hP : RectPart target (rectTicks xa (some x) xc na nb y ny) (rectMarker ny markers) 0 (ny.take l).sum na (ny.getD l 0) M)
    (hP' : RectPart target (rectTicks xa (some x) xc na nb y ny) (rectMarker ny markers) na (ny.take l).sum nb (ny.getD l 0) M') :
    Layers target xa (some x) xc na nb y ny markers (l + 1) (meshes ++ [M, M']) := by
  have hW : (rectN (some x) na nb).sum = na + nb := by simp [rectN]
  have hG := h.grid hl ht (target := target)
  have e := take_sum_succ hlt
  have hpos := (hl l hlt).2
  have hna := h.hna
  have hnb := h.hnb
  have hT1 := add_piece (S'' := fun i j k => k = 0 ∧ j < (ny.take (l + 1)).sum ∧ i < if j < (ny.take l).sum then na + nb else na) hL.tiles hP (by
      rintro i j k ⟨h1, h2, h3⟩ ⟨h4, h5, h6⟩; omega) (by
      intro i j k; rw [hW, e]; split <;> omega) (by
      intro i j hi hj
      rw [Nat.zero_add, num_left hlt hj hi, hL.len])
  have hT2 := add_piece (S'' := fun i j k => k = 0 ∧ j < (ny.take (l + 1)).sum ∧ i < (rectN (some x) na nb).sum) hT1 hP' (by
      rintro i j k ⟨h1, h2, h3⟩ ⟨h4, h5, h6⟩
      rw [if_neg (by omega)] at h3; omega) (by
      intro i j k; rw [hW, e]; split <;> omega) (by
      intro i j hi hj
      rw [num_right hlt hj (by omega), List.length_append, hL.len, hP.len]
      simp)
  have hall1 : allCells (meshes ++ [M]) = allCells meshes ++ geomCells M := by rw [allCells_append]; simp [allCells]
  have hall : allCells (meshes ++ [M, M']) = allCells meshes ++ geomCells M ++ geomCells M' := by rw [allCells_append]; simp [allCells]
  rw [← hall] at hT2
  rw [← hall1] at hT1
  refine ⟨?_, hT2, ?_, ?_, ?_, ?_⟩
  · rw [List.length_append, hL.count]; simp [rectN]; ring
  · rw [hall, List.length_append, List.length_append, hL.len, hP.len, hP'.len, hW, e]; ring
  · intro A hA
    rcases List.mem_append.1 hA with hA | hA
    · exact hL.plain A hA
    · simp at hA; rcases hA with rfl | rfl
      · exact hP.plain
      · exact hP'.plain
  · intro k hk hk'
    rw [List.length_append] at hk'
    simp at hk'
    rcases Nat.lt_or_ge meshes.length k with h1 | h1
    · rcases (by omega : k = meshes.length + 1 ∨ k = meshes.length + 2) with rfl | rfl
      · have : (meshes ++ [M, M']).take (meshes.length + 1) = meshes ++ [M] := by
          rw [List.take_append]; simp
        rw [this]
        refine enclosed_stairs hT1 hG (J := (ny.take (l + 1)).sum) (w := fun j => if j < (ny.take l).sum then na + nb else na)
          ⟨fun i j k => Iff.rfl, ⟨by omega, take_sum_le _ _⟩, fun j _ => by beta_reduce; split <;> omega, ?_, ?_⟩
        · intro j _
          beta_reduce
          split
          · rw [if_pos (by omega)]
          · split <;> omega
        · show (if 0 < (ny.take l).sum then na + nb else na) ≤ (rectN (some x) na nb).sum
          split <;> omega
      · rw [List.take_of_length_le (by simp)]
        refine enclosed_stairs hT2 hG (J := (ny.take (l + 1)).sum) (w := fun _ => na + nb) ⟨fun i j k => by rw [hW], ⟨by omega, take_sum_le _ _⟩, fun _ _ => by omega, fun _ _ => le_rfl, ?_⟩
        show na + nb ≤ (rectN (some x) na nb).sum; omega
    · rw [List.take_append_of_le_length h1]
      exact hL.enclosed k hk h1
  · intro A hA
    cases meshes with
    | nil => simp at hA; subst hA; exact hP.first
    | cons B rest => exact hL.first A (by simpa using hA)

/-- The mesh of one rectangle, wherever it is in the grid. -/
theorem rect_piece_any (hinv : InverseSpec inv) (hnp : ∀ n a, inv n a ≠ .panic) (hall : ∀ n a, detN n a ≠ 0 → ∃ r, inv n a = .ok r) (ho : o.Valid)
    {x0 x1 y0 y1 : ℝ} (hx : x0 < x1) (hy : y0 < y1) {n m : Nat} (hn : 1 ≤ n) (hny : 1 ≤ m) (hc : CountOk n) (hcy : CountOk m) (ht : target.classOf = .qua)
    (idx : Nat) (mk : Int) :
    ∃ b M, rectBlock inv x0 x1 y0 y1 n m mk = .ok b ∧ cut o target idx b = .ok M ∧ ∀ (i0 j0 : Nat) (tick : Nat → Nat → ℝ) (marker : Nat → Nat → Nat → Int),
      (∀ i ≤ n, tick 0 (i0 + i) = x0 + (x1 - x0) * evenTicks n i) → (∀ j ≤ m, tick 1 (j0 + j) = y0 + (y1 - y0) * evenTicks m j) →
      (∀ i j, i < n → j < m → marker (i0 + i) (j0 + j) 0 = mk) → RectPart target tick marker i0 j0 n m M := by
  obtain ⟨b, M, h1, h2, -⟩ := rect_piece hinv hnp hall ho hx hy hn hny hc hcy ht idx 0 0 (tick := fun a i => if a = 0 then x0 + (x1 - x0) * evenTicks n i else y0 + (y1 - y0) * evenTicks m i)
    (marker := fun _ _ _ => mk) (mk := mk) (by intro i _; simp) (by intro i _; simp) (fun _ _ _ _ => rfl)
  refine ⟨b, M, h1, h2, ?_⟩
  intro i0 j0 tick marker e1 e2 e3
  obtain ⟨b', M', h1', h2', hP⟩ := rect_piece hinv hnp hall ho hx hy hn hny hc hcy ht idx i0 j0 e1 e2 e3
  rw [h1] at h1'; cases h1'
  rw [h2] at h2'; cases h2'
  exact hP

theorem idx_getD {α : Type} {l : List α} {i : Nat} (h : i < l.length) (d : α) : Res.idx l i = .ok (l.getD i d) := by
  rw [Res.idx_of_lt h]; simp [h]

theorem layerOne_ok (hinv : InverseSpec inv) (hnp : ∀ n a, inv n a ≠ .panic) (hall : ∀ n a, detN n a ≠ 0 → ∃ r, inv n a = .ok r) (ho : o.Valid)
    (h : RectInput xa none xc na nb y ny markers) (ht : target.classOf = .qua) (hc : CountOk na) (hcy : ∀ n ∈ ny, CountOk n) {l : Nat} (hl : l < ny.length)
    (hok : LayerOk y ny l) (ms : List (Mesh ℝ)) :
    ∃ M, layerOne inv o xa xc na y ny markers target (y.getD l 0, ms) l = .ok (y.getD (l + 1) 0, ms ++ [M]) ∧
      ((∀ l < ny.length, LayerOk y ny l) → RectPart target (rectTicks xa none xc na nb y ny) (rectMarker ny markers) 0 (ny.take l).sum na (ny.getD l 0) M) := by
  have hy1 : l + 1 < y.length := by have := h.hlen; have := h.hny; omega
  have hm1 : l < markers.length := by have := h.hmk; have := h.hny; omega
  obtain ⟨b, M, h1, h2, hP⟩ := rect_piece_any hinv hnp hall ho h.hx hok.1 h.hna hok.2 hc (hcy _ (by simp [hl])) ht l (markers.getD l 0)
  refine ⟨M, ?_, ?_⟩
  · unfold layerOne
    rw [idx_getD hy1 0, idx_getD hl 0, idx_getD hm1 0]
    simp only [Res.bind_ok]
    rw [if_neg (not_le.2 hok.1), h1]
    simp only [Res.bind_ok]
    rw [h2]
    rfl
  · intro hall'
    refine hP _ _ _ _ ?_ (fun j hj => tick_y h hall' hl hj) ?_
    · intro i hi
      have := segTicks_eq h.segsX.1 (l := 0) (i := i) (by simp [rectN]) (by simpa [rectN] using hi)
      simpa [rectX, rectN, rectTicks] using this
    · intro i j hi hj
      unfold rectMarker
      rw [segOf_eq hl hj]

theorem layerTwo_ok {x : ℝ} (hinv : InverseSpec inv) (hnp : ∀ n a, inv n a ≠ .panic) (hall : ∀ n a, detN n a ≠ 0 → ∃ r, inv n a = .ok r) (ho : o.Valid)
    (h : RectInput xa (some x) xc na nb y ny markers) (ht : target.classOf = .qua) (hc : CountOk na) (hcb : CountOk nb) (hcy : ∀ n ∈ ny, CountOk n) {l : Nat} (hl : l < ny.length)
    (hok : LayerOk y ny l) (ms : List (Mesh ℝ)) :
    ∃ M M', layerTwo inv o xa x xc na nb y ny markers target (y.getD l 0, ms) l = .ok (y.getD (l + 1) 0, ms ++ [M, M']) ∧
      ((∀ l < ny.length, LayerOk y ny l) → RectPart target (rectTicks xa (some x) xc na nb y ny) (rectMarker ny markers) 0 (ny.take l).sum na (ny.getD l 0) M ∧
        RectPart target (rectTicks xa (some x) xc na nb y ny) (rectMarker ny markers) na (ny.take l).sum nb (ny.getD l 0) M') := by
  have hy1 : l + 1 < y.length := by have := h.hlen; have := h.hny; omega
  have hm1 : l < markers.length := by have := h.hmk; have := h.hny; omega
  have hx := h.hxb x rfl
  obtain ⟨b, M, h1, h2, hP⟩ := rect_piece_any hinv hnp hall ho hx.1 hok.1 h.hna hok.2 hc (hcy _ (by simp [hl])) ht (2 * l) (markers.getD l 0)
  obtain ⟨b', M', h1', h2', hP'⟩ := rect_piece_any hinv hnp hall ho hx.2 hok.1 h.hnb hok.2 hcb (hcy _ (by simp [hl])) ht (2 * l + 1) (markers.getD l 0)
  refine ⟨M, M', ?_, ?_⟩
  · unfold layerTwo
    rw [idx_getD hy1 0, idx_getD hl 0, idx_getD hm1 0]
    simp only [Res.bind_ok]
    rw [if_neg (not_le.2 hok.1), h1, h1']
    simp only [Res.bind_ok]
    rw [h2, h2']
    rfl
  · intro hall'
    have hmk : ∀ i0 i j, i < i0 → j < ny.getD l 0 → rectMarker ny markers i ((ny.take l).sum + j) 0 = markers.getD l 0 := by
      intro i0 i j hi hj
      unfold rectMarker
      rw [segOf_eq hl hj]
    refine ⟨hP _ _ _ _ ?_ (fun j hj => tick_y h hall' hl hj) (fun i j _ hj => hmk (i + 1) _ j (by omega) hj), hP' _ _ _ _ ?_ (fun j hj => tick_y h hall' hl hj) (fun i j _ hj => hmk (na + i + 1) _ j (by omega) hj)⟩
    · intro i hi
      have := segTicks_eq h.segsX.1 (l := 0) (i := i) (by simp [rectN]) (by simpa [rectN] using hi)
      simpa [rectX, rectN, rectTicks] using this
    · intro i hi
      have := segTicks_eq h.segsX.1 (l := 1) (i := i) (by simp [rectN]) (by simpa [rectN] using hi)
      simpa [rectX, rectN, rectTicks] using this

/-- The layers, with or without `xb`. -/
def layerOf (inv : MatInverse) (o : GenOrders) (xa : ℝ) (xb : Option ℝ) (xc : ℝ) (na nb : Nat) (y : List ℝ) (ny : List Nat) (markers : List Int) (target : GeoKind) :
    ℝ × List (Mesh ℝ) → Nat → Res (ℝ × List (Mesh ℝ)) :=
  match xb with
  | some x => layerTwo inv o xa x xc na nb y ny markers target
  | none => layerOne inv o xa xc na y ny markers target

theorem layers_fold (hinv : InverseSpec inv) (hnp : ∀ n a, inv n a ≠ .panic) (hall : ∀ n a, detN n a ≠ 0 → ∃ r, inv n a = .ok r) (ho : o.Valid)
    (h : RectInput xa xb xc na nb y ny markers) (ht : target.classOf = .qua) (hc : ∀ n ∈ rectN xb na nb, CountOk n) (hcy : ∀ n ∈ ny, CountOk n) :
    ∀ l ≤ ny.length, (∀ l' < l, LayerOk y ny l') → ∃ meshes, (List.range l).foldlM (layerOf inv o xa xb xc na nb y ny markers target) (y.getD 0 0, []) = .ok (y.getD l 0, meshes) ∧
      ((∀ l < ny.length, LayerOk y ny l) → Layers target xa xb xc na nb y ny markers l meshes) := by
  intro l
  induction l with
  | zero => intro _ _; exact ⟨[], rfl, fun _ => Layers.zero⟩
  | succ l ih =>
    intro hl hok
    obtain ⟨ms, e, hL⟩ := ih (by omega) (fun l' hl' => hok l' (by omega))
    rw [List.range_succ, List.foldlM_append, e]
    cases xb with
    | none =>
      obtain ⟨M, e1, hP⟩ := layerOne_ok hinv hnp hall ho h ht (hc na (by simp [rectN])) hcy (l := l) (by omega) (hok l (by omega)) ms
      refine ⟨ms ++ [M], ?_, fun ha => Layers.step_one h ha ht (by omega) (hL ha) (hP ha)⟩
      simp only [Res.bind_ok, List.foldlM_cons, List.foldlM_nil, layerOf, e1]
      rfl
    | some x =>
      obtain ⟨M, M', e1, hP⟩ := layerTwo_ok hinv hnp hall ho h ht (hc na (by simp [rectN])) (hc nb (by simp [rectN])) hcy (l := l) (by omega) (hok l (by omega)) ms
      refine ⟨ms ++ [M, M'], ?_, fun ha => Layers.step_two h ha ht (by omega) (hL ha) (hP ha).1 (hP ha).2⟩
      simp only [Res.bind_ok, List.foldlM_cons, List.foldlM_nil, layerOf, e1]
      rfl

theorem sqrt_two_small : Real.sqrt (2 : Nat) * (1 / 10000) < 6 / 10 ^ 4 / 4 := by
  have : Real.sqrt (2 : Nat) < 15 / 10 := by
    rw [Real.sqrt_lt' (by norm_num)]; norm_num
  norm_num at this ⊢
  linarith

theorem segTicks_first {y : List ℝ} {ny : List Nat} (hy : 1 ≤ y.length) : segTicks y ny 0 = y.getD 0 0 := by
  match y, hy with
  | a :: rest, _ => rw [segTicks_zero]; rfl

theorem segTicks_last {y : List ℝ} {ny : List Nat} (h : Segs y ny) (hne : 1 ≤ ny.length) : segTicks y ny ny.sum = y.getD ny.length 0 := by
  have hl : ny.length - 1 < ny.length := by omega
  have hp : 1 ≤ ny.getD (ny.length - 1) 0 := h.pos _ (by simp [hl])
  have e := segTicks_eq h hl (i := ny.getD (ny.length - 1) 0) le_rfl
  have e2 := take_sum_succ hl
  rw [show ny.length - 1 + 1 = ny.length by omega, List.take_length] at e2
  rw [← e2, show ny.length - 1 + 1 = ny.length by omega] at e
  rw [e]
  have : evenTicks (ny.getD (ny.length - 1) 0) (ny.getD (ny.length - 1) 0) = 1 := by
    unfold evenTicks
    exact div_self (by exact_mod_cast (by omega : ny.getD (ny.length - 1) 0 ≠ 0))
  rw [this]; ring

/-- The nodes of all cells. -/
theorem Layers.node {l : Nat} {meshes : List (Mesh ℝ)} (hL : Layers target xa xb xc na nb y ny markers l meshes) {g : Int × GeoKind × List (List ℝ)} (hg : g ∈ allCells meshes)
    {v : List ℝ} (hv : v ∈ g.2.2) : ∃ i j k m, Box (rectDivs xb na nb ny) i j k ∧ m < target.nnode ∧ v = tickPos 2 (rectTicks xa xb xc na nb y ny) target i j k m := by
  obtain ⟨c, hc, rfl⟩ := List.mem_iff_getElem.1 hg
  obtain ⟨i, j, k, hs, rfl⟩ := hL.tiles.onto c hc
  have := hL.tiles.cell i j k hs
  rw [List.getElem?_eq_getElem hc, Option.some.injEq] at this
  rw [this] at hv
  obtain ⟨m, hm, rfl⟩ := List.mem_map.1 hv
  refine ⟨i, j, k, m, ⟨hs.2.2, ?_, ?_⟩, List.mem_range.1 hm, rfl⟩
  · exact lt_of_lt_of_le hs.2.1 (take_sum_le _ _)
  · rw [hs.1]; exact Nat.one_pos

theorem can_assemble (h : RectInput xa xb xc na nb y ny markers) (hl : ∀ l < ny.length, LayerOk y ny l) (ht : target.classOf = .qua)
    (hok : RectOk xa xb xc na nb y ny) {l : Nat} {meshes : List (Mesh ℝ)} (hL : Layers target xa xb xc na nb y ny markers l meshes) (h2 : 2 ≤ meshes.length) :
    CanAssemble 2 meshes where
  two := h2
  proper := fun A hA => ⟨(hL.plain A hA).proper, (hL.plain A hA).ndim⟩
  limits := by
    intro A hA pt hpt v hv
    have hG := h.grid hl ht (target := target)
    have hp := hL.plain A hA
    obtain ⟨p, hp', rfl⟩ := List.mem_iff_getElem.1 hpt
    obtain ⟨c, hc, hpc⟩ := hp.proper.used p hp'
    have hco : coordsOf A p = A.points[p].coords := by simp [coordsOf, hp']
    obtain ⟨i, j, k, m, hb, hm, e⟩ := hL.node (g := (c.marker, c.kind, c.points.map (coordsOf A))) (by
      unfold allCells
      refine List.mem_flatten.2 ⟨geomCells A, List.mem_map.2 ⟨A, hA, rfl⟩, List.mem_map.2 ⟨c, hc, rfl⟩⟩) (List.mem_map.2 ⟨p, hpc, rfl⟩)
    rw [← hco, e] at hv
    obtain ⟨a, ha, rfl⟩ := List.mem_iff_getElem.1 hv
    have ha2 : a < 2 := by simpa [tickPos] using ha
    have hbt := hG.between hb hm ha2
    have hq : pick i j k a < rectDivs xb na nb ny a := by
      rcases (by omega : a = 0 ∨ a = 1) with rfl | rfl
      · exact hb.1
      · exact hb.2.1
    have h3 := hG.mono ha2 (Nat.zero_le (pick i j k a)) (by omega)
    have h4 := hG.mono ha2 (show pick i j k a + 1 ≤ rectDivs xb na nb ny a by omega) le_rfl
    have eq := List.getD_eq_getElem _ (0 : ℝ) ha
    rw [← eq]
    have lo : -f64Max ≤ rectTicks xa xb xc na nb y ny a 0 ∧ rectTicks xa xb xc na nb y ny a (rectDivs xb na nb ny a) ≤ f64Max := by
      rcases (by omega : a = 0 ∨ a = 1) with rfl | rfl
      · show -f64Max ≤ segTicks (rectX xa xb xc) (rectN xb na nb) 0 ∧ segTicks (rectX xa xb xc) (rectN xb na nb) (rectN xb na nb).sum ≤ f64Max
        rw [segTicks_last h.segsX.1 (by cases xb <;> simp [rectN]), segTicks_first (by cases xb <;> simp [rectX])]
        have := hok.limX
        cases xb <;> simpa [rectX, rectN] using this
      · show -f64Max ≤ segTicks y ny 0 ∧ segTicks y ny ny.sum ≤ f64Max
        have h5 := h.hlen
        have h6 := h.hny
        rw [segTicks_last (h.segsY hl) (by omega), segTicks_first (by omega)]
        exact ⟨(hok.limY _ (by rw [List.getD_eq_getElem _ _ (show 0 < y.length by omega)]; exact List.getElem_mem _)).1,
          (hok.limY _ (by rw [List.getD_eq_getElem _ _ (show ny.length < y.length by omega)]; exact List.getElem_mem _)).2⟩
    constructor <;> linarith [hbt.1, hbt.2, lo.1, lo.2]
  far := by
    intro g hg x hx g' hg' x' hx'
    have hG := h.grid hl ht (target := target)
    obtain ⟨i, j, k, m, hb, hm, rfl⟩ := hL.node hg hx
    obtain ⟨i', j', k', m', hb', hm', rfl⟩ := hL.node hg' hx'
    exact hG.far hb hb' hm hm' (δ := 6 / 10 ^ 4) (fun a ha i hi => (hok.size a ha i hi).le) sqrt_two_small
  faces := by intro h; omega
  enclosed := fun k hk hk' => hL.enclosed k hk hk'.le

theorem no_marks {M : Mesh ℝ} {meshes : List (Mesh ℝ)} (hM : IsAssembly meshes M) (hp : ∀ A ∈ meshes, Plain A) : M.markedEdges = [] ∧ M.markedFaces = [] := by
  constructor
  · apply List.eq_nil_iff_forall_not_mem.2
    rintro ⟨mk, p, q⟩ hm
    obtain ⟨k, A, hA, ⟨p', q', he, -⟩, -⟩ := (hM.edges mk _ _).1 ⟨p, q, hm, .inl ⟨rfl, rfl⟩⟩
    rw [(hp A (List.mem_of_getElem? hA)).edges] at he
    simp at he
  · apply List.eq_nil_iff_forall_not_mem.2
    rintro ⟨mk, p, q, r, s⟩ hm
    obtain ⟨k, A, hA, ⟨p', q', r', s', he, -⟩, -⟩ := (hM.faces mk _).1 ⟨p, q, r, s, hm, List.Perm.refl _⟩
    rw [(hp A (List.mem_of_getElem? hA)).faces] at he
    simp at he

theorem rect_injOn {n : Nat → Nat} {tick : Nat → Nat → ℝ} {S : Nat → Nat → Nat → Prop} : InjOn 2 target S tick (fun x => x) := fun _ _ _ _ _ _ _ _ _ _ _ _ h => h

/-- The joined layers. -/
theorem rect_join (ho : o.Valid) (h : RectInput xa xb xc na nb y ny markers) (hl : ∀ l < ny.length, LayerOk y ny l) (ht : target.classOf = .qua)
    (hok : RectOk xa xb xc na nb y ny) {meshes : List (Mesh ℝ)} (hL : Layers target xa xb xc na nb y ny markers ny.length meshes) (h2 : 2 ≤ meshes.length) (renumber : Bool) :
    ∃ M, joinAll o renumber meshes = .ok M ∧
      IsPatch 2 target (Box (rectDivs xb na nb ny)) (rectTicks xa xb xc na nb y ny) (fun x => x) (rectMarker ny markers) (rectNum xb na nb ny) M ∧
      M.markedEdges = [] ∧ M.markedFaces = [] := by
  obtain ⟨M, e1, hA, hd⟩ := C65_join_meshes o.join ho.join (can_assemble h hl ht hok hL h2)
  have hG := h.grid hl ht (target := target)
  have hmk := no_marks hA hL.plain
  have hT : Tiles 2 target (Box (rectDivs xb na nb ny)) (rectTicks xa xb xc na nb y ny) (fun x => x) (rectMarker ny markers) (rectNum xb na nb ny) (geomCells M) := by
    rw [hA.cells]
    refine tiles_congr hL.tiles ?_ (fun _ _ _ _ => rfl) (fun _ _ _ _ => rfl) (fun _ _ _ _ _ _ => rfl)
    intro i j k
    rw [List.take_length]
    show (k = 0 ∧ j < ny.sum ∧ i < (rectN xb na nb).sum) ↔ (i < (rectN xb na nb).sum ∧ j < ny.sum ∧ k < 1)
    constructor <;> rintro ⟨a1, a2, a3⟩ <;> exact ⟨by omega, by omega, by omega⟩
  have hP := patch_of_tiles hA.proper hd hT (rect_injOn (n := fun _ => 0)) (by
    intro pt hpt
    obtain ⟨A, hA', pt', hpt', -, e⟩ := hA.points pt hpt
    rw [e]
    exact (hL.plain A hA').zero pt' hpt')
  have hfirst : ptOf M 0 0 = 0 := by
    match meshes, h2, hL, hA with
    | A :: rest, _, hL, hA =>
      have h3 := hL.first A (by simp)
      obtain ⟨-, t, h4⟩ := hA.first A (by simp)
      have h5 : 1 ≤ (geomCells A).length ∨ A.cells = [] := by
        unfold geomCells; cases A.cells <;> simp
      rcases h5 with h5 | h5
      · have h6 : 0 < A.cells.length := by simpa [geomCells, Nat.lt_iff_add_one_le] using h5
        unfold ptOf at h3 ⊢
        rw [← h4, List.getElem?_append_left h6]
        exact h3
      · have := hL.enclosed 1 (by omega) (by simp) 0 (by omega)
        obtain ⟨x, x', hx, -⟩ := this
        unfold BoundaryCorner at hx
        rw [if_pos rfl] at hx
        obtain ⟨y', c, e, ⟨mk, k, X, hc, -⟩, -⟩ := hx
        simp [allCells, geomCells, h5] at hc
  have h0 : rectNum xb na nb ny 0 0 0 = 0 := by
    have hny : 0 < ny.length := by have := h.hlen; have := h.hny; omega
    have := num_left (xb := xb) (na := na) (nb := nb) (ny := ny) (i := 0) (j := 0) (l := 0) hny (by have := (hl 0 hny).2; omega) (by have := h.hna; omega) 0
    simpa using this
  obtain ⟨M', f1, f2, f3, f4⟩ := finish_patch hP hG (m0 := 0) (node_zero target hG.qh).1 (tickPos_zero hG) (by rw [h0]; exact hfirst) renumber
  refine ⟨M', ?_, f2, f3.trans hmk.1, f4.trans hmk.2⟩
  unfold joinAll
  rw [e1]
  exact f1

theorem rect_of_input (h : RectInput xa xb xc na nb y ny markers) (renumber : Bool) :
    rectangle inv o xa xb xc na nb y ny markers target renumber =
      ((List.range ny.length).foldlM (layerOf inv o xa xb xc na nb y ny markers target) (y.getD 0 0, []) >>= fun r =>
        if xb = none ∧ ny.length = 1 then Res.idx r.2 0 else joinAll o renumber r.2) := by
  unfold rectangle
  have h1 := h.hlen
  have h2 := h.hna
  have h3 := h.hnb
  cases xb with
  | none =>
    rw [if_neg (not_le.2 h.hx), if_neg (by simp), if_neg (by omega), if_neg (by omega), if_neg (not_not.2 h.hny), if_neg (not_not.2 h.hmk), idx_getD (by omega) 0, ← h.hny]
    simp [layerOf]
  | some x =>
    have h4 := h.hxb x rfl
    rw [if_neg (not_le.2 h.hx), if_neg (by simp; exact h4), if_neg (by omega), if_neg (by omega), if_neg (not_not.2 h.hny), if_neg (not_not.2 h.hmk), idx_getD (by omega) 0, ← h.hny]
    simp [layerOf]

theorem layerOf_bad (hinv : InverseSpec inv) (hnp : ∀ n a, inv n a ≠ .panic) (hall : ∀ n a, detN n a ≠ 0 → ∃ r, inv n a = .ok r)
    (h : RectInput xa xb xc na nb y ny markers) {l : Nat} (hl : l < ny.length) (ms : List (Mesh ℝ)) :
    (y.getD (l + 1) 0 ≤ y.getD l 0 → ∃ e, layerOf inv o xa xb xc na nb y ny markers target (y.getD l 0, ms) l = .err e) ∧
    (y.getD l 0 < y.getD (l + 1) 0 → ny.getD l 0 = 0 → layerOf inv o xa xb xc na nb y ny markers target (y.getD l 0, ms) l = .panic) := by
  have hy1 : l + 1 < y.length := by have := h.hlen; have := h.hny; omega
  have hm1 : l < markers.length := by have := h.hmk; have := h.hny; omega
  constructor
  · intro hy
    cases xb with
    | none => show ∃ e, layerOne inv o xa xc na y ny markers target (y.getD l 0, ms) l = .err e; unfold layerOne; rw [idx_getD hy1 0]; exact ⟨_, by simp only [Res.bind_ok]; rw [if_pos hy]⟩
    | some x => show ∃ e, layerTwo inv o xa x xc na nb y ny markers target (y.getD l 0, ms) l = .err e; unfold layerTwo; rw [idx_getD hy1 0]; exact ⟨_, by simp only [Res.bind_ok]; rw [if_pos hy]⟩
  · intro hy h0
    cases xb with
    | none =>
      have := (rectBlock_ok hinv hnp hall h.hx hy h.hna (ny := 0) (markers.getD l 0)).1 rfl
      show layerOne inv o xa xc na y ny markers target (y.getD l 0, ms) l = .panic
      unfold layerOne
      rw [idx_getD hy1 0, idx_getD hl 0, idx_getD hm1 0]
      simp only [Res.bind_ok]
      rw [if_neg (not_le.2 hy), h0, this]
      rfl
    | some x =>
      have := (rectBlock_ok hinv hnp hall (h.hxb x rfl).1 hy h.hna (ny := 0) (markers.getD l 0)).1 rfl
      show layerTwo inv o xa x xc na nb y ny markers target (y.getD l 0, ms) l = .panic
      unfold layerTwo
      rw [idx_getD hy1 0, idx_getD hl 0, idx_getD hm1 0]
      simp only [Res.bind_ok]
      rw [if_neg (not_le.2 hy), h0, this]
      rfl

theorem layerOf_target (hinv : InverseSpec inv) (hnp : ∀ n a, inv n a ≠ .panic) (hall : ∀ n a, detN n a ≠ 0 → ∃ r, inv n a = .ok r)
    (h : RectInput xa xb xc na nb y ny markers) (ht : target.classOf ≠ .qua) {l : Nat} (hl : l < ny.length) (hok : LayerOk y ny l) (ms : List (Mesh ℝ)) :
    ∃ e, layerOf inv o xa xb xc na nb y ny markers target (y.getD l 0, ms) l = .err e := by
  have hy1 : l + 1 < y.length := by have := h.hlen; have := h.hny; omega
  have hm1 : l < markers.length := by have := h.hmk; have := h.hny; omega
  cases xb with
  | none =>
    obtain ⟨b, b1, b2, -⟩ := (rectBlock_ok hinv hnp hall h.hx hok.1 h.hna (markers.getD l 0)).2 hok.2
    obtain ⟨e, he⟩ := ring_target (o := o) (i := l) b2 (target := target) ht
    refine ⟨e, ?_⟩
    show layerOne inv o xa xc na y ny markers target (y.getD l 0, ms) l = .err e
    unfold layerOne
    rw [idx_getD hy1 0, idx_getD hl 0, idx_getD hm1 0]
    simp only [Res.bind_ok]
    rw [if_neg (not_le.2 hok.1), b1]
    simp only [Res.bind_ok]
    rw [he]
    rfl
  | some x =>
    obtain ⟨b, b1, b2, -⟩ := (rectBlock_ok hinv hnp hall (h.hxb x rfl).1 hok.1 h.hna (markers.getD l 0)).2 hok.2
    obtain ⟨b', b1', -⟩ := (rectBlock_ok hinv hnp hall (h.hxb x rfl).2 hok.1 h.hnb (markers.getD l 0)).2 hok.2
    obtain ⟨e, he⟩ := ring_target (o := o) (i := 2 * l) b2 (target := target) ht
    refine ⟨e, ?_⟩
    show layerTwo inv o xa x xc na nb y ny markers target (y.getD l 0, ms) l = .err e
    unfold layerTwo
    rw [idx_getD hy1 0, idx_getD hl 0, idx_getD hm1 0]
    simp only [Res.bind_ok]
    rw [if_neg (not_le.2 hok.1), b1, b1']
    simp only [Res.bind_ok]
    rw [he]
    rfl

/-- **C67**: the mesh of a rectangle with layers. Invalid arguments are reported: wrong x-coordinates or numbers of divisions, lists of the wrong
lengths; a layer of zero or negative height, if the layers below are right; a target that is not a quadrilateral. With valid arguments the mesh
is the grid of the rectangle: one cell for each place, with the marker of its layer and its nodes where they should be; nodes at the same
position are the same point, in particular across layers and across `xb`; no other points or cells, and no marked edges and faces. Renumbering
does not change this. Only a layer without divisions is not reported but is a panic. -/
theorem C67_rectangle (hinv : InverseSpec inv) (hnp : ∀ n a, inv n a ≠ .panic) (hall : ∀ n a, detN n a ≠ 0 → ∃ r, inv n a = .ok r) (ho : o.Valid)
    (xa : ℝ) (xb : Option ℝ) (xc : ℝ) (na nb : Nat) (y : List ℝ) (ny : List Nat) (markers : List Int) (target : GeoKind) (renumber : Bool) :
    (¬ RectInput xa xb xc na nb y ny markers → ∃ e, rectangle inv o xa xb xc na nb y ny markers target renumber = .err e) ∧
    (RectInput xa xb xc na nb y ny markers →
      ((∀ l < ny.length, LayerOk y ny l) → target.classOf = .qua → RectOk xa xb xc na nb y ny →
        ∃ M, rectangle inv o xa xb xc na nb y ny markers target renumber = .ok M ∧
          IsPatch 2 target (Box (rectDivs xb na nb ny)) (rectTicks xa xb xc na nb y ny) (fun x => x) (rectMarker ny markers) (rectNum xb na nb ny) M ∧
          M.markedEdges = [] ∧ M.markedFaces = []) ∧
      (LayerOk y ny 0 → target.classOf ≠ .qua → ∃ e, rectangle inv o xa xb xc na nb y ny markers target renumber = .err e) ∧
      ∀ l < ny.length, (∀ l' < l, LayerOk y ny l') → (0 < l → target.classOf = .qua ∧ (∀ n ∈ rectN xb na nb, CountOk n) ∧ ∀ n ∈ ny, CountOk n) →
        (y.getD (l + 1) 0 ≤ y.getD l 0 → ∃ e, rectangle inv o xa xb xc na nb y ny markers target renumber = .err e) ∧
        (y.getD l 0 < y.getD (l + 1) 0 → ny.getD l 0 = 0 → rectangle inv o xa xb xc na nb y ny markers target renumber = .panic)) := by
  constructor
  · intro hbad
    unfold rectangle
    by_cases h1 : xc ≤ xa
    · rw [if_pos h1]; exact ⟨_, rfl⟩
    rw [if_neg h1]
    by_cases h2 : ∃ x, xb = some x ∧ (x ≤ xa ∨ x ≥ xc)
    · rw [if_pos h2]; exact ⟨_, rfl⟩
    rw [if_neg h2]
    by_cases h3 : na < 1 ∨ nb < 1
    · rw [if_pos h3]; exact ⟨_, rfl⟩
    rw [if_neg h3]
    by_cases h4 : y.length < 2
    · rw [if_pos h4]; exact ⟨_, rfl⟩
    rw [if_neg h4]
    by_cases h5 : ny.length = y.length - 1
    swap
    · rw [if_pos h5]; exact ⟨_, rfl⟩
    rw [if_neg (not_not.2 h5)]
    by_cases h6 : markers.length = y.length - 1
    swap
    · rw [if_pos h6]; exact ⟨_, rfl⟩
    refine absurd ⟨not_le.1 h1, ?_, by omega, by omega, by omega, h5, h6⟩ hbad
    intro x hx
    by_contra hc
    apply h2
    refine ⟨x, hx, ?_⟩
    by_cases h7 : x ≤ xa
    · exact .inl h7
    · exact .inr (by by_contra h8; exact hc ⟨not_le.1 h7, not_le.1 h8⟩)
  · intro h
    have hny : 0 < ny.length := by have := h.hlen; have := h.hny; omega
    refine ⟨?_, ?_, ?_⟩
    · intro hl ht hok
      obtain ⟨meshes, e, hL⟩ := layers_fold hinv hnp hall ho h ht hok.count.1 hok.count.2 ny.length le_rfl hl
      have hL := hL hl
      rw [rect_of_input h, e, Res.bind_ok]
      by_cases h1 : xb = none ∧ ny.length = 1
      · rw [if_pos h1]
        obtain ⟨rfl, h1⟩ := h1
        have hlen : meshes.length = 1 := by rw [hL.count, h1]; rfl
        match meshes, hlen with
        | [A], _ =>
          have hp := hL.plain A (by simp)
          refine ⟨A, rfl, ?_, hp.edges, hp.faces⟩
          have hT := hL.tiles
          simp only [allCells, List.map_cons, List.map_nil, List.flatten_cons, List.flatten_nil, List.append_nil] at hT
          have := patch_of_tiles hp.proper hp.ndim hT (rect_injOn (n := fun _ => 0)) hp.zero
          have hbox : (fun i j k => k = 0 ∧ j < (ny.take ny.length).sum ∧ i < (rectN none na nb).sum) = Box (rectDivs none na nb ny) := by
            funext i j k
            rw [List.take_length]
            show (k = 0 ∧ j < ny.sum ∧ i < (rectN none na nb).sum) = (i < (rectN none na nb).sum ∧ j < ny.sum ∧ k < 1)
            apply propext
            constructor <;> rintro ⟨a1, a2, a3⟩ <;> exact ⟨by omega, by omega, by omega⟩
          rw [hbox] at this
          exact this
      · rw [if_neg h1]
        refine rect_join ho h hl ht hok hL ?_ renumber
        rw [hL.count]
        cases xb with
        | none =>
          have : ny.length ≠ 1 := fun h2 => h1 ⟨rfl, h2⟩
          simp [rectN]; omega
        | some x => simp [rectN]; omega
    · intro h0 ht
      rw [rect_of_input h]
      obtain ⟨e, he⟩ := layerOf_target (o := o) hinv hnp hall h ht hny h0 []
      refine ⟨e, ?_⟩
      rw [show ny.length = 1 + (ny.length - 1) by omega, List.range_add, List.foldlM_append]
      simp only [List.range_one, List.foldlM_cons, List.foldlM_nil]
      rw [he]
      rfl
    · intro l hl hbefore hsize
      have hfold : ∃ ms, (List.range l).foldlM (layerOf inv o xa xb xc na nb y ny markers target) (y.getD 0 0, []) = .ok (y.getD l 0, ms) := by
        rcases Nat.eq_zero_or_pos l with rfl | hp
        · exact ⟨[], rfl⟩
        · obtain ⟨s1, s2, s3⟩ := hsize hp
          obtain ⟨ms, e, -⟩ := layers_fold hinv hnp hall ho h s1 s2 s3 l hl.le hbefore
          exact ⟨ms, e⟩
      obtain ⟨ms, hms⟩ := hfold
      rw [rect_of_input h, show ny.length = l + (1 + (ny.length - l - 1)) by omega, List.range_add, List.foldlM_append, hms, Nat.add_comm 1, List.range_succ_eq_map]
      simp only [Res.bind_ok, List.map_cons, List.foldlM_cons, Nat.add_zero]
      obtain ⟨h1, h2⟩ := layerOf_bad (o := o) (target := target) hinv hnp hall h hl ms
      constructor
      · intro hy
        obtain ⟨e, he⟩ := h1 hy
        exact ⟨e, by rw [he]; rfl⟩
      · intro hy h0
        rw [h2 hy h0]
        rfl

/-- **C67**: with one layer and without `xb`, the option to renumber the points has no effect: the mesh is returned as it is. -/
theorem C67_renumber_ignored (xa xc : ℝ) (na nb : Nat) (y0 y1 : ℝ) (n : Nat) (marker : Int) (target : GeoKind) :
    rectangle inv o xa none xc na nb [y0, y1] [n] [marker] target true = rectangle inv o xa none xc na nb [y0, y1] [n] [marker] target false := by
  simp [rectangle]

theorem three_le_f64Max : (3 : ℝ) ≤ f64Max := by
  unfold f64Max
  have : (2 : ℝ) ^ 2 ≤ 2 ^ 1023 := pow_le_pow_right₀ (by norm_num) (by norm_num)
  have h2 : (1 : ℝ) ≤ 2 - 1 / 2 ^ 52 := by norm_num
  generalize (2 : ℝ) ^ 1023 = t at *
  nlinarith

/-- An example: a rectangle from 0 to 3 with `xb = 1`, one and two divisions along x, and two layers with one and two divisions. -/
theorem example_input : RectInput 0 (some 1) 3 1 2 [0, 1, 3] [1, 2] [7, -2] ∧ (∀ l < 2, LayerOk [0, 1, 3] [1, 2] l) ∧ RectOk 0 (some 1) 3 1 2 [0, 1, 3] [1, 2] := by
  have h3 := three_le_f64Max
  refine ⟨⟨by norm_num, by intro x hx; cases hx; norm_num, le_rfl, by norm_num, by simp, rfl, rfl⟩, ?_, ⟨⟨by linarith, h3⟩, ?_, ?_, ?_⟩⟩
  · intro l hl
    rcases (by omega : l = 0 ∨ l = 1) with rfl | rfl <;> (constructor <;> norm_num [LayerOk])
  · intro v hv
    simp at hv
    rcases hv with rfl | rfl | rfl <;> constructor <;> linarith
  · constructor <;> intro n hn <;> simp [rectN] at hn <;> rcases hn with rfl | rfl <;> (unfold CountOk; omega)
  · intro a ha i hi
    rcases (by omega : a = 0 ∨ a = 1) with rfl | rfl
    · simp [rectDivs, rectN] at hi
      rcases (by omega : i = 0 ∨ i = 1 ∨ i = 2) with rfl | rfl | rfl <;> norm_num [rectTicks, rectX, rectN, segTicks, evenTicks]
    · simp [rectDivs] at hi
      rcases (by omega : i = 0 ∨ i = 1 ∨ i = 2) with rfl | rfl | rfl <;> norm_num [rectTicks, segTicks, evenTicks]

/-- The hypotheses are met: the mesh of the example has nine cells. The last one is in the upper layer, cell number 2 in the lower one. -/
example : ∃ (o : GenOrders) (M : Mesh ℝ), o.Valid ∧ rectangle exactInverse o 0 (some 1) 3 1 2 [0, 1, 3] [1, 2] [7, -2] .qua8 true = .ok M ∧
    M.cells.length = 9 ∧ (∃ c, M.cells[8]? = some c ∧ c.marker = -2 ∧ c.kind = .qua8) ∧ (∃ c, M.cells[2]? = some c ∧ c.marker = 7) := by
  obtain ⟨o, ho⟩ := exists_orders
  obtain ⟨h1, h2, h3⟩ := example_input
  obtain ⟨M, e, hP, -⟩ := ((C67_rectangle exactInverse_spec exactInverse_noPanic exactInverse_total ho 0 (some 1) 3 1 2 [0, 1, 3] [1, 2] [7, -2] .qua8 true).2 h1).1 h2 rfl h3
  refine ⟨o, M, ho, e, ?_, ?_, ?_⟩
  · apply Nat.le_antisymm
    · by_contra hc
      push Not at hc
      obtain ⟨i, j, k, ⟨b1, b2, b3⟩, hn⟩ := hP.onto 9 hc
      simp [rectDivs, rectN] at b1 b2 b3
      rcases (by omega : i = 0 ∨ i = 1 ∨ i = 2) with rfl | rfl | rfl <;> rcases (by omega : j = 0 ∨ j = 1 ∨ j = 2) with rfl | rfl | rfl <;>
        simp [rectNum, rectN, segOf] at hn
    · obtain ⟨c, hc, -⟩ := hP.cell 2 2 0 ⟨by simp [rectDivs, rectN], by simp [rectDivs], by simp [rectDivs]⟩
      have := (List.getElem?_eq_some_iff.1 hc).1
      simp [rectNum, rectN, segOf] at this
      omega
  · obtain ⟨c, hc, -, hm, hk, -⟩ := hP.cell 2 2 0 ⟨by simp [rectDivs, rectN], by simp [rectDivs], by simp [rectDivs]⟩
    exact ⟨c, by simpa [rectNum, rectN, segOf] using hc, by simpa [rectMarker, segOf] using hm, hk⟩
  · obtain ⟨c, hc, -, hm, -⟩ := hP.cell 2 0 0 ⟨by simp [rectDivs, rectN], by simp [rectDivs], by simp [rectDivs]⟩
    exact ⟨c, by simpa [rectNum, rectN, segOf] using hc, by simpa [rectMarker, segOf] using hm⟩

/-- The hypotheses of C65 are met by the four blocks of the example. -/
example : ∃ meshes : List (Mesh ℝ), CanAssemble 2 meshes ∧ meshes.length = 4 ∧ (allCells meshes).length = 9 := by
  obtain ⟨o, ho⟩ := exists_orders
  obtain ⟨h1, h2, h3⟩ := example_input
  obtain ⟨meshes, -, hL⟩ := layers_fold exactInverse_spec exactInverse_noPanic exactInverse_total ho h1 (target := .qua8) rfl h3.count.1 h3.count.2 2 le_rfl h2
  have hL := hL h2
  have hc := hL.count
  have hlen := hL.len
  simp [rectN] at hc hlen
  exact ⟨meshes, can_assemble h1 h2 rfl h3 hL (by omega), hc, hlen⟩

end
end Gemlab.Structured
