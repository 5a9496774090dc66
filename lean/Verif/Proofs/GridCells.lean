import Verif.Spec.GridCells
import Verif.Lib.ResList
import Mathlib.Tactic.Linarith
import Mathlib.Tactic.Positivity

/-! The first loop of `GridCells::new`. -/
namespace Gemlab.GridCells
open Gemlab.Mesh
noncomputable section

theorem at'_zipWith (f : ℝ → ℝ → ℝ) (a b : List ℝ) (i : Nat) (ha : i < a.length) (hb : i < b.length) :
    at' (List.zipWith f a b) i = f (at' a i) (at' b i) := by
  unfold at'
  simp [List.getD_eq_getElem?_getD, ha, hb]

theorem at'_replicate (n i : Nat) (v : ℝ) (h : i < n) : at' (List.replicate n v) i = v := by
  unfold at'; simp [List.getD_eq_getElem?_getD, h]

theorem at'_map_range (n i : Nat) (f : Nat → ℝ) (h : i < n) : at' ((List.range n).map f) i = f i := by
  unfold at'; simp [List.getD_eq_getElem?_getD, h]

theorem at'_map (f : ℝ → ℝ) (l : List ℝ) (i : Nat) (h : i < l.length) : at' (l.map f) i = f (at' l i) := by
  unfold at'; simp [List.getD_eq_getElem?_getD, h]

theorem f64Max_pos : 0 < f64Max := by
  unfold f64Max
  have : (1 : ℝ) / 2 ^ 52 ≤ 1 := by rw [div_le_one (by positivity)]; exact one_le_pow₀ (by norm_num)
  have h2 : (0 : ℝ) < 2 ^ 1023 := by positivity
  exact mul_pos (by linarith) h2

variable {m : Mesh ℝ}

theorem readCoords_ok (h : ValidMesh m) {p : Nat} (hp : p < m.points.length) :
    ∃ xs, readCoords m p = .ok xs ∧ xs.length = m.ndim ∧ ∀ i < m.ndim, at' xs i = coord m p i := by
  have hpt : m.points[p]? = some m.points[p] := List.getElem?_eq_getElem hp
  have hlen := h.coords _ (List.getElem_mem hp)
  refine ⟨(List.range m.ndim).map fun i => at' m.points[p].coords i, ?_, by simp, ?_⟩
  · unfold readCoords
    rw [Res.idx_of_lt hp, Res.bind_ok]
    apply Res.mapM_eq_ok_of
    intro i hi
    have hi := List.mem_range.mp hi
    rw [Res.idx_of_lt (by omega)]
    unfold at'
    rw [List.getD_eq_getElem?_getD, List.getElem?_eq_getElem (by omega)]
    rfl
  · intro i hi
    rw [at'_map_range _ _ _ hi]
    unfold coord coordsOf
    rw [hpt]; rfl

theorem coord_finite (h : ValidMesh m) (hf : Finite m) {p : Nat} (hp : p < m.points.length) {i : Nat} (hi : i < m.ndim) :
    -f64Max ≤ coord m p i ∧ coord m p i ≤ f64Max := by
  have hlen := h.coords _ (List.getElem_mem hp)
  refine hf _ (List.getElem_mem hp) _ ?_
  unfold coord coordsOf at'
  rw [List.getElem?_eq_getElem hp]
  simp only [Option.map_some, Option.getD_some]
  rw [List.getD_eq_getElem?_getD, List.getElem?_eq_getElem (by omega)]
  simp

/-- Facts about the limits after some points. -/
structure Lim (m : Mesh ℝ) (pts : List Nat) (xmin xmax : List ℝ) : Prop where
  len1 : xmin.length = m.ndim
  len2 : xmax.length = m.ndim
  mem : ∀ i < m.ndim, ∀ p ∈ pts, at' xmin i ≤ coord m p i ∧ coord m p i ≤ at' xmax i
  tight1 : ∀ i < m.ndim, at' xmin i = f64Max ∨ ∃ p ∈ pts, coord m p i = at' xmin i
  tight2 : ∀ i < m.ndim, at' xmax i = -f64Max ∨ ∃ p ∈ pts, coord m p i = at' xmax i

theorem Lim.step {pts : List Nat} {xmin xmax xs : List ℝ} (h : Lim m pts xmin xmax) {p : Nat} (hl : xs.length = m.ndim)
    (hx : ∀ i < m.ndim, at' xs i = coord m p i) :
    Lim m (pts ++ [p]) (List.zipWith min xmin xs) (List.zipWith max xmax xs) := by
  have e1 : ∀ i < m.ndim, at' (List.zipWith min xmin xs) i = min (at' xmin i) (coord m p i) := fun i hi => by
    rw [at'_zipWith _ _ _ _ (by rw [h.len1]; exact hi) (by rw [hl]; exact hi), hx i hi]
  have e2 : ∀ i < m.ndim, at' (List.zipWith max xmax xs) i = max (at' xmax i) (coord m p i) := fun i hi => by
    rw [at'_zipWith _ _ _ _ (by rw [h.len2]; exact hi) (by rw [hl]; exact hi), hx i hi]
  refine ⟨by simp [h.len1, hl], by simp [h.len2, hl], ?_, ?_, ?_⟩
  · intro i hi q hq
    rw [e1 i hi, e2 i hi]
    rcases List.mem_append.mp hq with hq | hq
    · have := h.mem i hi q hq
      exact ⟨(min_le_left _ _).trans this.1, this.2.trans (le_max_left _ _)⟩
    · simp only [List.mem_singleton] at hq; subst hq
      exact ⟨min_le_right _ _, le_max_right _ _⟩
  · intro i hi
    rw [e1 i hi]
    rcases min_choice (at' xmin i) (coord m p i) with e | e <;> rw [e]
    · rcases h.tight1 i hi with h1 | ⟨q, hq, h1⟩
      · exact Or.inl h1
      · exact Or.inr ⟨q, by simp [hq], h1⟩
    · exact Or.inr ⟨p, by simp, rfl⟩
  · intro i hi
    rw [e2 i hi]
    rcases max_choice (at' xmax i) (coord m p i) with e | e <;> rw [e]
    · rcases h.tight2 i hi with h1 | ⟨q, hq, h1⟩
      · exact Or.inl h1
      · exact Or.inr ⟨q, by simp [hq], h1⟩
    · exact Or.inr ⟨p, by simp, rfl⟩

theorem IsBox.step {pts : List Nat} {b : List ℝ × List ℝ} {xs : List ℝ} (h : IsBox m pts b) {p : Nat} (hl : xs.length = m.ndim)
    (hx : ∀ i < m.ndim, at' xs i = coord m p i) : IsBox m (pts ++ [p]) (List.zipWith min b.1 xs, List.zipWith max b.2 xs) := by
  have e1 : ∀ i < m.ndim, at' (List.zipWith min b.1 xs) i = min (at' b.1 i) (coord m p i) := fun i hi => by
    rw [at'_zipWith _ _ _ _ (by rw [h.len1]; exact hi) (by rw [hl]; exact hi), hx i hi]
  have e2 : ∀ i < m.ndim, at' (List.zipWith max b.2 xs) i = max (at' b.2 i) (coord m p i) := fun i hi => by
    rw [at'_zipWith _ _ _ _ (by rw [h.len2]; exact hi) (by rw [hl]; exact hi), hx i hi]
  refine ⟨by simp [h.len1, hl], by simp [h.len2, hl], ?_, ?_, ?_⟩
  · intro i hi q hq
    rw [e1 i hi, e2 i hi]
    rcases List.mem_append.mp hq with hq | hq
    · have := h.mem i hi q hq
      exact ⟨(min_le_left _ _).trans this.1, this.2.trans (le_max_left _ _)⟩
    · simp only [List.mem_singleton] at hq; subst hq
      exact ⟨min_le_right _ _, le_max_right _ _⟩
  · intro i hi
    rw [e1 i hi]
    rcases min_choice (at' b.1 i) (coord m p i) with e | e <;> rw [e]
    · obtain ⟨q, hq, h1⟩ := h.tight1 i hi
      exact ⟨q, by simp [hq], h1⟩
    · exact ⟨p, by simp, rfl⟩
  · intro i hi
    rw [e2 i hi]
    rcases max_choice (at' b.2 i) (coord m p i) with e | e <;> rw [e]
    · obtain ⟨q, hq, h1⟩ := h.tight2 i hi
      exact ⟨q, by simp [hq], h1⟩
    · exact ⟨p, by simp, rfl⟩

/-- All point ids of the first cells. -/
def ptsOf (cells : List Cell) : List Nat := cells.flatMap (·.points)

/-- State after some cells. -/
structure ScanInv (m : Mesh ℝ) (done : List Cell) (s : Scan) : Prop where
  lim : Lim m (ptsOf done) s.xmin s.xmax
  boxes : List.Forall₂ (fun c b => IsBox m c.points b) done s.boxes
  lenL : s.largest.length = m.ndim
  largest : ∀ b ∈ s.boxes, ∀ i < m.ndim, extent b i ≤ at' s.largest i
  attained : ∀ i < m.ndim, at' s.largest i = -f64Max ∨ ∃ b ∈ s.boxes, extent b i = at' s.largest i

theorem scanCell_ok (h : ValidMesh m) {done : List Cell} {s : Scan} (hs : ScanInv m done s) {c : Cell} (hc : c ∈ m.cells)
    (hne : c.points ≠ []) : ∃ s', scanCell m s c = .ok s' ∧ ScanInv m (done ++ [c]) s' := by
  have hin := h.inRange c hc
  obtain ⟨s1, h1, p1⟩ := Res.foldlM_list (fun (s : Scan) (pk : Nat × Nat) => scanPoint m (pk.2 == 0) pk.1 s) c.points.zipIdx s
    (fun pre s' => Lim m (ptsOf done ++ pre.map (·.1)) s'.xmin s'.xmax ∧ (pre ≠ [] → IsBox m (pre.map (·.1)) s'.box) ∧
      s'.largest = s.largest ∧ s'.boxes = s.boxes)
    ⟨by simpa using hs.lim, by simp, rfl, rfl⟩
    (by
      rintro pre ⟨p, k⟩ s' hpk ⟨suf, hsuf⟩ ⟨i1, i2, i3, i4⟩
      have hp : p ∈ c.points := by
        have := List.mem_zipIdx hpk
        obtain ⟨_, _, e⟩ := this
        rw [e]; exact List.getElem_mem _
      obtain ⟨xs, hr, hl, hx⟩ := readCoords_ok h (hin p hp)
      have hk : k = pre.length := by
        have hget : c.points.zipIdx[pre.length]? = some (p, k) := by rw [hsuf]; simp
        rw [List.getElem?_zipIdx] at hget
        simp only [Option.map_eq_some_iff, Prod.mk.injEq] at hget
        obtain ⟨_, _, _, e⟩ := hget
        omega
      dsimp only
      unfold scanPoint
      rw [hr, Res.bind_ok]
      refine ⟨_, rfl, ?_, ?_, i3, i4⟩
      · rw [List.map_append, ← List.append_assoc]
        exact i1.step hl hx
      · intro _
        rw [List.map_append]
        by_cases hz : pre = []
        · subst hz
          have : (k == 0) = true := by simp [hk]
          simp only [this, if_true]
          refine ⟨hl, hl, ?_, ?_, ?_⟩
          · intro i hi q hq; simp at hq; subst hq; rw [hx i hi]; exact ⟨le_refl _, le_refl _⟩
          · intro i hi; exact ⟨p, by simp, (hx i hi).symm⟩
          · intro i hi; exact ⟨p, by simp, (hx i hi).symm⟩
        · have : (k == 0) = false := by
            rw [hk]; simp [hz]
          simp only [this, Bool.false_eq_true, if_false]
          exact (i2 hz).step hl hx)
  have hmap : c.points.zipIdx.map (·.1) = c.points := by simp
  obtain ⟨q1, q2, q3, q4⟩ := p1
  have hbox := q2 (by
    intro e
    apply hne
    rw [← hmap, e]; rfl)
  rw [hmap] at q1 hbox
  unfold scanCell
  rw [h1, Res.bind_ok]
  refine ⟨_, rfl, ?_, ?_, by simp, ?_, ?_⟩
  · simpa [ptsOf] using q1
  · dsimp only
    rw [q4]
    exact List.rel_append hs.boxes (.cons hbox .nil)
  · intro b hb i hi
    dsimp only at hb ⊢
    rw [at'_map_range _ _ _ hi, q3]
    rw [q4] at hb
    rcases List.mem_append.mp hb with hb | hb
    · exact (hs.largest b hb i hi).trans (le_max_left _ _)
    · simp only [List.mem_singleton] at hb; subst hb
      exact le_max_right _ _
  · intro i hi
    dsimp only
    rw [at'_map_range _ _ _ hi, q3, q4]
    rcases max_choice (at' s.largest i) (at' s1.box.2 i - at' s1.box.1 i) with e | e <;> rw [e]
    · rcases hs.attained i hi with e | ⟨b, hb, e⟩
      · exact Or.inl e
      · exact Or.inr ⟨b, by simp [hb], e⟩
    · exact Or.inr ⟨s1.box, by simp, rfl⟩

theorem nnode_pos (k : GeoKind) : 0 < k.nnode := by cases k <;> decide

theorem points_ne_nil (h : ValidMesh m) {c : Cell} (hc : c ∈ m.cells) : c.points ≠ [] := by
  intro e
  have := h.nnode c hc
  have := nnode_pos c.kind
  rw [e] at *
  simp at *
  omega

theorem scan_ok (h : ValidMesh m) : ∃ s, scan m = .ok s ∧ ScanInv m m.cells s := by
  unfold scan
  apply Res.foldlM_list (scanCell m) m.cells _ (fun done s => ScanInv m done s)
  · refine ⟨⟨by simp, by simp, ?_, ?_, ?_⟩, .nil, by simp, by simp, ?_⟩
    · intro i _ p hp; simp [ptsOf] at hp
    · intro i hi; exact Or.inl (at'_replicate _ _ _ hi)
    · intro i hi; exact Or.inl (at'_replicate _ _ _ hi)
    · intro i hi; exact Or.inl (at'_replicate _ _ _ hi)
  · intro pre c s hc _ hs
    exact scanCell_ok h hs hc (points_ne_nil h hc)

end
end Gemlab.GridCells
