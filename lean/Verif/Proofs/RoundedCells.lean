import Verif.Proofs.GridCells3
import Verif.Model.RoundedCells

/-! The steps of `GridCells::new` with rounding: limits, bounding boxes, large cells, containers. -/
namespace Gemlab.Rounded.Cells
noncomputable section
open Classical
open Gemlab.Mesh
open Gemlab.GridCells (IsBox coord Scan scanPoint largestOf addTo corners at'_replicate at'_map_range readCoords_ok Lim Lim.step IsBox.step ptsOf points_ne_nil foldl_max_ge Has has_corners)

variable {fl : ℝ → ℝ} {m : Mesh ℝ}

/-- State after some cells. -/
structure ScanInv (fl : ℝ → ℝ) (m : Mesh ℝ) (done : List Cell) (s : Scan) : Prop where
  lim : Lim m (ptsOf done) s.xmin s.xmax
  boxes : List.Forall₂ (fun c b => IsBox m c.points b) done s.boxes
  lenL : s.largest.length = m.ndim
  largest : ∀ b ∈ s.boxes, ∀ i < m.ndim, extent fl b i ≤ at' s.largest i
  attained : ∀ i < m.ndim, at' s.largest i = -f64Max ∨ ∃ b ∈ s.boxes, extent fl b i = at' s.largest i

theorem scanCell_ok (h : ValidMesh m) {done : List Cell} {s : Scan} (hs : ScanInv fl m done s) {c : Cell} (hc : c ∈ m.cells)
    (hne : c.points ≠ []) : ∃ s', scanCell fl m s c = .ok s' ∧ ScanInv fl m (done ++ [c]) s' := by
  have hin := h.inRange c hc
  obtain ⟨s1, h1, p1⟩ := Res.foldlM_list (fun (s : Scan) (pk : Nat × Nat) => scanPoint m (pk.2 == 0) pk.1 s) c.points.zipIdx s
    (fun pre s' => Lim m (ptsOf done ++ pre.map (·.1)) s'.xmin s'.xmax ∧ (pre ≠ [] → IsBox m (pre.map (·.1)) s'.box) ∧
      s'.largest = s.largest ∧ s'.boxes = s.boxes)
    ⟨by simpa using hs.lim, by simp, rfl, rfl⟩
    (by
      rintro pre ⟨p, k⟩ s' hpk ⟨suf, hsuf⟩ ⟨i1, i2, i3, i4⟩
      have hp : p ∈ c.points := by
        have := List.mem_zipIdx hpk
        obtain ⟨_, _, e⟩ := this
        rw [e]; exact List.getElem_mem _
      obtain ⟨xs, hr, hl, hx⟩ := readCoords_ok h (hin p hp)
      have hk : k = pre.length := by
        have hget : c.points.zipIdx[pre.length]? = some (p, k) := by rw [hsuf]; simp
        rw [List.getElem?_zipIdx] at hget
        simp only [Option.map_eq_some_iff, Prod.mk.injEq] at hget
        obtain ⟨_, _, _, e⟩ := hget
        omega
      dsimp only
      unfold scanPoint
      rw [hr, Res.bind_ok]
      refine ⟨_, rfl, ?_, ?_, i3, i4⟩
      · rw [List.map_append, ← List.append_assoc]
        exact i1.step hl hx
      · intro _
        rw [List.map_append]
        by_cases hz : pre = []
        · subst hz
          have : (k == 0) = true := by simp [hk]
          simp only [this, if_true]
          refine ⟨hl, hl, ?_, ?_, ?_⟩
          · intro i hi q hq; simp at hq; subst hq; rw [hx i hi]; exact ⟨le_refl _, le_refl _⟩
          · intro i hi; exact ⟨p, by simp, (hx i hi).symm⟩
          · intro i hi; exact ⟨p, by simp, (hx i hi).symm⟩
        · have : (k == 0) = false := by
            rw [hk]; simp [hz]
          simp only [this, Bool.false_eq_true, if_false]
          exact (i2 hz).step hl hx)
  have hmap : c.points.zipIdx.map (·.1) = c.points := by simp
  obtain ⟨q1, q2, q3, q4⟩ := p1
  have hbox := q2 (by
    intro e
    apply hne
    rw [← hmap, e]; rfl)
  rw [hmap] at q1 hbox
  unfold scanCell
  rw [h1, Res.bind_ok]
  refine ⟨_, rfl, ?_, ?_, by simp, ?_, ?_⟩
  · simpa [ptsOf] using q1
  · dsimp only
    rw [q4]
    exact List.rel_append hs.boxes (.cons hbox .nil)
  · intro b hb i hi
    dsimp only at hb ⊢
    rw [at'_map_range _ _ _ hi, q3]
    rw [q4] at hb
    rcases List.mem_append.mp hb with hb | hb
    · exact (hs.largest b hb i hi).trans (le_max_left _ _)
    · simp only [List.mem_singleton] at hb; subst hb
      exact le_max_right _ _
  · intro i hi
    dsimp only
    rw [at'_map_range _ _ _ hi, q3, q4]
    rcases max_choice (at' s.largest i) (fl (at' s1.box.2 i - at' s1.box.1 i)) with e | e <;> rw [e]
    · rcases hs.attained i hi with e | ⟨b, hb, e⟩
      · exact Or.inl e
      · exact Or.inr ⟨b, by simp [hb], e⟩
    · exact Or.inr ⟨s1.box, by simp, rfl⟩

theorem scan_ok (h : ValidMesh m) : ∃ s, scan fl m = .ok s ∧ ScanInv fl m m.cells s := by
  unfold scan
  apply Res.foldlM_list (scanCell fl m) m.cells _ (fun done s => ScanInv fl m done s)
  · refine ⟨⟨by simp, by simp, ?_, ?_, ?_⟩, .nil, by simp, by simp, ?_⟩
    · intro i _ p hp; simp [ptsOf] at hp
    · intro i hi; exact Or.inl (at'_replicate _ _ _ hi)
    · intro i hi; exact Or.inl (at'_replicate _ _ _ hi)
    · intro i hi; exact Or.inl (at'_replicate _ _ _ hi)
  · intro pre c s hc _ hs
    exact scanCell_ok h hs hc (points_ne_nil h hc)

abbrev IsLarge (fl : ℝ → ℝ) (ndim : Nat) (th : ℝ) (b : List ℝ × List ℝ) : Prop := largestOf ndim (extent fl b) ≥ th

structure SplitSpec (fl : ℝ → ℝ) (ndim : Nat) (boxes : List (List ℝ × List ℝ)) (th : ℝ) (r : List Nat × ℝ) : Prop where
  mem : ∀ k, k ∈ r.1 ↔ ∃ b, boxes[k]? = some b ∧ IsLarge fl ndim th b
  nodup : r.1.Nodup
  length : r.1.length ≤ boxes.length
  all : (∀ b ∈ boxes, IsLarge fl ndim th b) ↔ r.1.length = boxes.length
  low : -f64Max ≤ r.2
  ge : ∀ b ∈ boxes, ¬IsLarge fl ndim th b → ∀ i < ndim, extent fl b i ≤ r.2
  attained : r.2 = -f64Max ∨ ∃ b ∈ boxes, ¬IsLarge fl ndim th b ∧ ∃ i < ndim, r.2 = extent fl b i

theorem splitLarge_spec (ndim : Nat) (boxes : List (List ℝ × List ℝ)) (th : ℝ) : SplitSpec fl ndim boxes th (splitLarge fl ndim boxes th) := by
  induction boxes using List.reverseRecOn with
  | nil =>
    refine ⟨?_, ?_, ?_, ?_, ?_, ?_, ?_⟩ <;> simp [splitLarge]
  | append_singleton boxes b ih =>
    have hz : (boxes ++ [b]).zipIdx = boxes.zipIdx ++ [(b, boxes.length)] := by
      rw [List.zipIdx_append]; simp
    unfold splitLarge at ih ⊢
    rw [hz, List.foldl_append]
    generalize (boxes.zipIdx.foldl _ _ : List Nat × ℝ) = r at ih ⊢
    have hlt : ∀ k ∈ r.1, k < boxes.length := fun k hk => by
      obtain ⟨b, hb, _⟩ := (ih.mem k).mp hk
      exact (List.getElem?_eq_some_iff.mp hb).1
    have hget : ∀ k c, (boxes ++ [b])[k]? = some c ↔ boxes[k]? = some c ∨ (k = boxes.length ∧ c = b) := by
      intro k c
      rw [List.getElem?_append]
      split
      · rename_i hk; constructor
        · exact Or.inl
        · rintro (h | ⟨h, _⟩)
          · exact h
          · omega
      · rename_i hk
        have hn : boxes[k]? = none := List.getElem?_eq_none (by omega)
        rw [hn]
        constructor
        · intro h
          have h0 : k - boxes.length = 0 := by
            by_contra hc
            rw [List.getElem?_eq_none (by simp; omega)] at h; cases h
          rw [h0] at h
          simp at h
          exact Or.inr ⟨by omega, h.symm⟩
        · rintro (h | ⟨h, rfl⟩)
          · cases h
          · subst h; simp
    simp only [List.foldl_cons, List.foldl_nil]
    by_cases hl : largestOf ndim (extent fl b) ≥ th
    · rw [if_pos hl]
      refine ⟨?_, ?_, ?_, ?_, ih.low, ?_, ?_⟩
      · intro k
        simp only [List.mem_append, List.mem_singleton, ih.mem, hget]
        constructor
        · rintro (⟨c, h1, h2⟩ | rfl)
          · exact ⟨c, Or.inl h1, h2⟩
          · exact ⟨b, Or.inr ⟨rfl, rfl⟩, hl⟩
        · rintro ⟨c, h1 | ⟨h1, rfl⟩, h2⟩
          · exact Or.inl ⟨c, h1, h2⟩
          · exact Or.inr h1
      · rw [List.nodup_append]
        refine ⟨ih.nodup, by simp, ?_⟩
        intro a ha c hc
        simp at hc
        have := hlt a ha
        omega
      · simp; exact ih.length
      · simp only [List.length_append, List.length_singleton, Nat.add_right_cancel_iff, ← ih.all, List.mem_append, List.mem_singleton]
        constructor
        · intro h b hb; exact h b (Or.inl hb)
        · rintro h c (hc | rfl)
          · exact h c hc
          · exact hl
      · intro c hc hn
        rcases List.mem_append.mp hc with hc | hc
        · exact ih.ge c hc hn
        · simp at hc; subst hc; exact absurd hl hn
      · rcases ih.attained with h | ⟨c, hc, h⟩
        · exact Or.inl h
        · exact Or.inr ⟨c, by simp [hc], h⟩
    · rw [if_neg hl]
      obtain ⟨f1, f2, f3⟩ := foldl_max_ge (List.range ndim) (extent fl b) r.2
      refine ⟨?_, ih.nodup, ?_, ?_, ih.low.trans f1, ?_, ?_⟩
      · intro k
        simp only [ih.mem, hget]
        constructor
        · rintro ⟨c, h1, h2⟩; exact ⟨c, Or.inl h1, h2⟩
        · rintro ⟨c, h1 | ⟨h1, rfl⟩, h2⟩
          · exact ⟨c, h1, h2⟩
          · exact absurd h2 hl
      · simp; have := ih.length; omega
      · constructor
        · intro h; exact absurd (h b (by simp)) hl
        · intro h; have := ih.length; simp at h; omega
      · intro c hc hn i hi
        rcases List.mem_append.mp hc with hc | hc
        · exact (ih.ge c hc hn i hi).trans f1
        · simp at hc; subst hc; exact f2 i (List.mem_range.mpr hi)
      · rcases f3 with h | ⟨i, hi, h⟩
        · rw [h]
          rcases ih.attained with h | ⟨c, hc, h⟩
          · exact Or.inl h
          · exact Or.inr ⟨c, by simp [hc], h⟩
        · exact Or.inr ⟨b, by simp, hl, i, List.mem_range.mp hi, h⟩

theorem fill_spec (ndim : Nat) (side : ℝ) (ndiv : List Nat) (xmin : List ℝ) (boxes : List (List ℝ × List ℝ)) (large : List Nat)
    (key id : Nat) : Has (fill fl ndim side ndiv xmin boxes large) key id ↔
      ∃ b, boxes[id]? = some b ∧ id ∉ large ∧ ∃ x ∈ corners ndim b, key = containerKey fl ndim side ndiv xmin x := by
  induction boxes using List.reverseRecOn with
  | nil => simp [fill, Has]
  | append_singleton boxes b ih =>
    have hz : (boxes ++ [b]).zipIdx = boxes.zipIdx ++ [(b, boxes.length)] := by
      rw [List.zipIdx_append]; simp
    unfold fill at ih ⊢
    rw [hz, List.foldl_append]
    generalize (boxes.zipIdx.foldl _ _ : HMap Nat (List Nat)) = r at ih ⊢
    simp only [List.foldl_cons, List.foldl_nil]
    have hget : (boxes ++ [b])[id]? = if id = boxes.length then some b else boxes[id]? := by
      rw [List.getElem?_append]
      split
      · rename_i h; rw [if_neg (by omega)]
      · rename_i h
        split
        · rename_i h2; subst h2; simp
        · rw [List.getElem?_eq_none (by simp; omega), List.getElem?_eq_none (by omega)]
    rw [hget]
    by_cases hl : boxes.length ∈ large
    · rw [if_pos hl, ih]
      by_cases hid : id = boxes.length
      · subst hid; simp [hl]
      · simp [hid]
    · rw [if_neg hl, has_corners, ih]
      by_cases hid : id = boxes.length
      · subst hid; simp [hl]
      · simp [hid]

end
end Gemlab.Rounded.Cells
