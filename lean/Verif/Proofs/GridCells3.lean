import Verif.Proofs.GridCells2
import Verif.Props.Geometry

/-! The grid built by `GridCells::new` and the search. -/
namespace Gemlab.GridCells
open Gemlab.Mesh
noncomputable section
open Classical

variable {m : Mesh ℝ}

/-- Facts about a grid returned by `new` when there are small cells. -/
structure Good (m : Mesh ℝ) (g : GridCells) : Prop where
  mesh : g.mesh = m
  boxes : List.Forall₂ (fun c b => IsBox m c.points b) m.cells g.boxes
  side : 0 < g.sideLength
  ndiv : ∀ i < m.ndim, 1 ≤ g.ndiv.getD i 0
  inside : ∀ c ∈ m.cells, ∀ p ∈ c.points, ∀ i < m.ndim, at' g.xmin i ≤ coord m p i ∧ coord m p i ≤ at' g.xmax i
  xmax : ∀ i < m.ndim, at' g.xmax i = at' g.xmin i + g.sideLength * ((g.ndiv.getD i 0 : Nat) : ℝ)
  large : ∀ k ∈ g.largeCells, k < m.cells.length
  small : ∀ (k : Nat) b, g.boxes[k]? = some b → k ∉ g.largeCells → ∀ i < m.ndim, extent b i < g.sideLength
  containers : g.containers = fill m.ndim g.sideLength g.ndiv g.xmin g.boxes g.largeCells

theorem forall2_get {α β : Type} {R : α → β → Prop} {l : List α} {l' : List β} (h : List.Forall₂ R l l') {k : Nat} {b : β}
    (hk : l'[k]? = some b) : ∃ a, l[k]? = some a ∧ R a b := by
  induction h generalizing k with
  | nil => simp at hk
  | cons hab _ ih =>
    cases k with
    | zero => simp at hk; subst hk; exact ⟨_, rfl, hab⟩
    | succ k => exact ih hk

theorem forall2_get' {α β : Type} {R : α → β → Prop} {l : List α} {l' : List β} (h : List.Forall₂ R l l') {k : Nat} {a : α}
    (hk : l[k]? = some a) : ∃ b, l'[k]? = some b ∧ R a b := by
  induction h generalizing k with
  | nil => simp at hk
  | cons hab _ ih =>
    cases k with
    | zero => simp at hk; subst hk; exact ⟨_, rfl, hab⟩
    | succ k => exact ih hk

theorem IsBox.extent_nonneg {pts : List Nat} {b : List ℝ × List ℝ} (h : IsBox m pts b) {i : Nat} (hi : i < m.ndim) : 0 ≤ extent b i := by
  obtain ⟨p, hp, e⟩ := h.tight1 i hi
  have := (h.mem i hi p hp).2
  unfold extent
  linarith

/-- The dimensions of the grid: what `new` computes. -/
theorem new_ok (h : ValidMesh m) (hd : m.ndim = 2 ∨ m.ndim = 3) (hc : m.cells ≠ [])
    (tol border cutoff pct : Option ℝ) (ht : 0 < tol.getD (1 / 10000)) (hb : 0 ≤ border.getD (1 / 100))
    (hcut : 0 ≤ cutoff.getD (3 / 4) ∧ cutoff.getD (3 / 4) ≤ 1) (hpct : 0 ≤ pct.getD (1 / 5) ∧ pct.getD (1 / 5) ≤ 1)
    (hsmall : pct.getD (1 / 5) < 1 ∨ SomeSmall m (cutoff.getD (3 / 4)))
    (hflat : 0 < border.getD (1 / 100) ∨ NotFlat m) :
    ∃ g, new m tol border cutoff pct = .ok g ∧ Good m g ∧ g.xmin.length = m.ndim ∧ g.xmax.length = m.ndim ∧
      ∀ i < m.ndim, (∀ c ∈ m.cells, ∀ p ∈ c.points, at' g.xmin i ≤ coord m p i - border.getD (1 / 100) ∧
        coord m p i + border.getD (1 / 100) ≤ at' g.xmax i) ∧
        (at' g.xmin i = f64Max - border.getD (1 / 100) ∨ ∃ c ∈ m.cells, ∃ p ∈ c.points, at' g.xmin i = coord m p i - border.getD (1 / 100)) := by
  obtain ⟨s, hs, inv⟩ := scan_ok h
  unfold new
  dsimp only
  generalize tol.getD (1 / 10000) = t at *
  generalize border.getD (1 / 100) = b at *
  generalize cutoff.getD (3 / 4) = cut at *
  generalize pct.getD (1 / 5) = pc at *
  rw [if_neg (by linarith), if_neg (by linarith), if_neg (by rintro (h | h) <;> linarith [hcut.1, hcut.2]),
    if_neg (by rintro (h | h) <;> linarith [hpct.1, hpct.2]), hs, Res.bind_ok]
  have hnd : 0 < m.ndim := by omega
  have hLge : ∀ bx ∈ s.boxes, ∀ i < m.ndim, extent bx i ≤ largestOf m.ndim (at' s.largest) := fun bx hbx i hi =>
    (inv.largest bx hbx i hi).trans (largestOf_ge _ hi)
  have hboxne : ∃ bx, bx ∈ s.boxes ∧ 0 ≤ extent bx 0 := by
    match hm : m.cells, hc with
    | c :: cs, _ =>
      obtain ⟨bx, hbx, hR⟩ := forall2_get' inv.boxes (k := 0) (a := c) (by rw [hm]; rfl)
      exact ⟨bx, List.mem_of_getElem? hbx, hR.extent_nonneg hnd⟩
  have hL0 : 0 ≤ largestOf m.ndim (at' s.largest) := by
    obtain ⟨bx, h1, h2⟩ := hboxne
    exact h2.trans (hLge bx h1 0 hnd)
  have hlen : s.boxes.length = m.cells.length := inv.boxes.length_eq.symm
  have hcpos : 0 < m.cells.length := List.length_pos_iff.mpr hc
  have sp := splitLarge_spec m.ndim s.boxes (cut * largestOf m.ndim (at' s.largest))
  generalize hsl : splitLarge m.ndim s.boxes (cut * largestOf m.ndim (at' s.largest)) = sl at sp ⊢
  -- the side
  have hside : 2 * t ≤ (if (sl.1.length : ℝ) / (m.cells.length : ℝ) ≤ pc then sl.2 else largestOf m.ndim (at' s.largest)) + 2 * t := by
    split
    · rename_i hp
      have hnot : ¬ ∀ bx ∈ s.boxes, IsLarge m.ndim (cut * largestOf m.ndim (at' s.largest)) bx := by
        rcases hsmall with hlt | ⟨c, hcm, c', hcm', j, hj, p, hpm, q, hqm, hall⟩
        · intro hall
          rw [sp.all, hlen] at hall
          rw [hall, div_self (by exact_mod_cast hcpos.ne')] at hp
          linarith
        · intro hall'
          obtain ⟨k, hk, hke⟩ := List.mem_iff_getElem.mp hcm
          obtain ⟨bx, hbx, hR⟩ := forall2_get' inv.boxes (k := k) (a := c) (by rw [List.getElem?_eq_getElem hk, hke])
          obtain ⟨k', hk', hke'⟩ := List.mem_iff_getElem.mp hcm'
          obtain ⟨bx', hbx', hR'⟩ := forall2_get' inv.boxes (k := k') (a := c') (by rw [List.getElem?_eq_getElem hk', hke'])
          have hl := hall' bx (List.mem_of_getElem? hbx)
          obtain ⟨i, hi, hie⟩ := largestOf_attained hnd (extent bx)
          unfold IsLarge at hl
          rw [hie] at hl
          obtain ⟨r, hr, er⟩ := hR.tight2 i hi
          obtain ⟨s', hs', es⟩ := hR.tight1 i hi
          have h1 := hall i hi r hr s' hs'
          have h2 : coord m p j - coord m q j ≤ largestOf m.ndim (at' s.largest) := by
            have a1 := (hR'.mem j hj p hpm).2
            have a2 := (hR'.mem j hj q hqm).1
            have a3 := hLge bx' (List.mem_of_getElem? hbx') j hj
            unfold extent at a3
            linarith
          have h3 := mul_le_mul_of_nonneg_left h2 hcut.1
          unfold extent at hl
          linarith
      simp only [not_forall] at hnot
      obtain ⟨bx, hbx, hn⟩ := hnot
      obtain ⟨k, hk, hke⟩ := List.mem_iff_getElem.mp hbx
      obtain ⟨c, _, hR⟩ := forall2_get inv.boxes (k := k) (b := bx) (by rw [List.getElem?_eq_getElem hk, hke])
      have := sp.ge bx hbx hn 0 hnd
      have := hR.extent_nonneg hnd
      linarith
    · linarith
  have hsm : ∀ (k : Nat) bx, s.boxes[k]? = some bx → k ∉ (if (sl.1.length : ℝ) / (m.cells.length : ℝ) ≤ pc then sl.1 else []) →
      ∀ i < m.ndim, extent bx i < (if (sl.1.length : ℝ) / (m.cells.length : ℝ) ≤ pc then sl.2 else largestOf m.ndim (at' s.largest)) + 2 * t := by
    intro k bx hbx hk i hi
    split at hk
    · rename_i hp
      rw [if_pos hp]
      have hn : ¬IsLarge m.ndim (cut * largestOf m.ndim (at' s.largest)) bx := fun hl => hk ((sp.mem k).mpr ⟨bx, hbx, hl⟩)
      have := sp.ge bx (List.mem_of_getElem? hbx) hn i hi
      linarith
    · rename_i hp
      rw [if_neg hp]
      have := hLge bx (List.mem_of_getElem? hbx) i hi
      linarith
  generalize (if (sl.1.length : ℝ) / (m.cells.length : ℝ) ≤ pc then sl.2 else largestOf m.ndim (at' s.largest)) + 2 * t = side at hside hsm ⊢
  have hlarge : ∀ k ∈ (if (sl.1.length : ℝ) / (m.cells.length : ℝ) ≤ pc then sl.1 else []), k < m.cells.length := by
    intro k hk
    split at hk
    · obtain ⟨bx, hbx, _⟩ := (sp.mem k).mp hk
      rw [← hlen]; exact (List.getElem?_eq_some_iff.mp hbx).1
    · simp at hk
  generalize (if (sl.1.length : ℝ) / (m.cells.length : ℝ) ≤ pc then sl.1 else []) = large at hsm hlarge ⊢
  -- the limits
  have exmin : ∀ i < m.ndim, at' (if b > 0 then s.xmin.map (fun v => v - b) else s.xmin) i = at' s.xmin i - b := by
    intro i hi
    split
    · rw [at'_map _ _ _ (by rw [inv.lim.len1]; exact hi)]
    · have : b = 0 := by linarith
      rw [this, sub_zero]
  have exmax : ∀ i < m.ndim, at' (if b > 0 then s.xmax.map (fun v => v + b) else s.xmax) i = at' s.xmax i + b := by
    intro i hi
    split
    · rw [at'_map _ _ _ (by rw [inv.lim.len2]; exact hi)]
    · have : b = 0 := by linarith
      rw [this, add_zero]
  have lenmin : (if b > 0 then s.xmin.map (fun v => v - b) else s.xmin).length = m.ndim := by
    split <;> simp [inv.lim.len1]
  generalize (if b > 0 then s.xmin.map (fun v => v - b) else s.xmin) = xmin at exmin lenmin ⊢
  generalize (if b > 0 then s.xmax.map (fun v => v + b) else s.xmax) = xmax at exmax ⊢
  have hmemp : ∀ c ∈ m.cells, ∀ p ∈ c.points, p ∈ ptsOf m.cells := fun c hc p hp => List.mem_flatMap.mpr ⟨c, hc, hp⟩
  have hpos : ∀ i < m.ndim, at' xmax i > at' xmin i := by
    intro i hi
    rw [exmin i hi, exmax i hi]
    rcases hflat with hb0 | hfl
    · match hm : m.cells, hc with
      | c :: cs, _ =>
        have hcm : c ∈ m.cells := by rw [hm]; simp
        obtain ⟨p, ps, hps⟩ := List.exists_cons_of_ne_nil (points_ne_nil h hcm)
        have := inv.lim.mem i hi p (hmemp c hcm p (by rw [hps]; simp))
        linarith [this.1, this.2]
    · obtain ⟨c, hcm, p, hp, c', hcm', q, hq, hlt⟩ := hfl i hi
      have a1 := inv.lim.mem i hi p (hmemp c hcm p hp)
      have a2 := inv.lim.mem i hi q (hmemp c' hcm' q hq)
      linarith [a1.1, a2.2]
  rw [if_neg (by rintro ⟨i, hi, hn⟩; exact hn (hpos i hi))]
  have hside0 : 0 < side := by linarith
  have hndiv : ∀ i < m.ndim, ((List.range m.ndim).map fun i => ⌈(at' xmax i - at' xmin i) / side⌉₊).getD i 0 = ⌈(at' xmax i - at' xmin i) / side⌉₊ := by
    intro i hi
    simp [List.getD_eq_getElem?_getD, hi]
  have hceil : ∀ i < m.ndim, at' xmax i ≤ at' xmin i + side * ((⌈(at' xmax i - at' xmin i) / side⌉₊ : Nat) : ℝ) := by
    intro i hi
    have := Nat.le_ceil ((at' xmax i - at' xmin i) / side)
    rw [div_le_iff₀ hside0] at this
    linarith
  have hxm : ∀ i < m.ndim, at' ((List.range m.ndim).map fun i => at' xmin i + side *
      ((((List.range m.ndim).map fun i => ⌈(at' xmax i - at' xmin i) / side⌉₊).getD i 0 : Nat) : ℝ)) i =
      at' xmin i + side * ((⌈(at' xmax i - at' xmin i) / side⌉₊ : Nat) : ℝ) := by
    intro i hi
    rw [at'_map_range _ _ _ hi, hndiv i hi]
  refine ⟨_, rfl, ⟨rfl, inv.boxes, hside0, ?_, ?_, ?_, hlarge, hsm, rfl⟩, lenmin, by simp, ?_⟩
  · intro i hi
    dsimp only
    rw [hndiv i hi]
    have : 0 < ⌈(at' xmax i - at' xmin i) / side⌉₊ := Nat.ceil_pos.mpr (div_pos (by linarith [hpos i hi]) hside0)
    omega
  · intro c hcm p hp i hi
    dsimp only
    rw [hxm i hi]
    have a1 := inv.lim.mem i hi p (hmemp c hcm p hp)
    have a2 := hceil i hi
    have a3 := exmin i hi
    have a4 := exmax i hi
    constructor <;> linarith [a1.1, a1.2]
  · intro i hi
    dsimp only
    rw [hxm i hi, hndiv i hi]
  · intro i hi
    dsimp only
    rw [hxm i hi]
    have a2 := hceil i hi
    have a3 := exmin i hi
    have a4 := exmax i hi
    refine ⟨fun c hcm p hp => ?_, ?_⟩
    · have a1 := inv.lim.mem i hi p (hmemp c hcm p hp)
      constructor <;> linarith [a1.1, a1.2]
    · rw [a3]
      rcases inv.lim.tight1 i hi with e | ⟨p, hp, e⟩
      · left; rw [e]
      · right
        obtain ⟨c, hcm, hp⟩ := List.mem_flatMap.mp hp
        exact ⟨c, hcm, p, hp, by rw [e]⟩

/-- Every cell the bounding box of which contains the point is large or in the container of the point. -/
theorem Good.candidate {g : GridCells} (hg : Good m g) (hd : m.ndim = 2 ∨ m.ndim = 3) {k : Nat} {b : List ℝ × List ℝ} (hb : g.boxes[k]? = some b)
    {x : List ℝ} (hx : ∀ i < m.ndim, at' b.1 i ≤ at' x i ∧ at' x i ≤ at' b.2 i) :
    k ∈ g.largeCells ∨ ∃ l, g.containers.get (utilContainerKey m.ndim g.sideLength g.ndiv g.xmin x) = some l ∧ k ∈ l := by
  by_cases hk : k ∈ g.largeCells
  · exact Or.inl hk
  right
  obtain ⟨c, hc, hR⟩ := forall2_get hg.boxes hb
  have hcm := List.mem_of_getElem? hc
  obtain ⟨y, hy, hkey⟩ := key_mem hd hg.side (xmin := g.xmin) (x := x) (b := b) hg.ndiv
    (fun i hi => by obtain ⟨p, hp, e⟩ := hR.tight1 i hi; rw [← e]; exact (hg.inside c hcm p hp i hi).1) hx
    (fun i hi => by obtain ⟨p, hp, e⟩ := hR.tight2 i hi; rw [← e, ← hg.xmax i hi]; exact (hg.inside c hcm p hp i hi).2)
    (hg.small k b hb hk)
  rw [hkey]
  rw [hg.containers]
  exact (fill_spec _ _ _ _ _ _ _ _).mpr ⟨b, hb, hk, y, hy, rfl⟩

theorem Good.inRange {g : GridCells} (hg : Good m g) {key : Nat} {l : List Nat} (hl : g.containers.get key = some l) :
    ∀ k ∈ l, k < m.cells.length := by
  intro k hk
  rw [hg.containers] at hl
  obtain ⟨b, hb, _⟩ := (fill_spec _ _ _ _ _ _ _ _).mp ⟨l, hl, hk⟩
  obtain ⟨c, hc, _⟩ := forall2_get hg.boxes hb
  exact (List.getElem?_eq_some_iff.mp hc).1

/-! ### Points in cells -/

theorem sum_le (w : List ℝ) (ps : List Nat) (f : Nat → ℝ) (B : ℝ) (hw : ∀ v ∈ w, 0 ≤ v) (hl : w.length = ps.length)
    (hf : ∀ p ∈ ps, f p ≤ B) : (List.zipWith (fun v p => v * f p) w ps).sum ≤ w.sum * B := by
  induction w generalizing ps with
  | nil => simp
  | cons v w ih =>
    cases ps with
    | nil => simp at hl
    | cons p ps =>
      simp only [List.zipWith_cons_cons, List.sum_cons]
      have h1 := ih ps (fun v hv => hw v (by simp [hv])) (by simpa using hl) fun p hp => hf p (by simp [hp])
      have h2 := mul_le_mul_of_nonneg_left (hf p (by simp)) (hw v (by simp))
      linarith [add_mul v w.sum B]

theorem le_sum (w : List ℝ) (ps : List Nat) (f : Nat → ℝ) (B : ℝ) (hw : ∀ v ∈ w, 0 ≤ v) (hl : w.length = ps.length)
    (hf : ∀ p ∈ ps, B ≤ f p) : w.sum * B ≤ (List.zipWith (fun v p => v * f p) w ps).sum := by
  induction w generalizing ps with
  | nil => simp
  | cons v w ih =>
    cases ps with
    | nil => simp at hl
    | cons p ps =>
      simp only [List.zipWith_cons_cons, List.sum_cons]
      have h1 := ih ps (fun v hv => hw v (by simp [hv])) (by simpa using hl) fun p hp => hf p (by simp [hp])
      have h2 := mul_le_mul_of_nonneg_left (hf p (by simp)) (hw v (by simp))
      linarith [add_mul v w.sum B]

theorem InHull.between {c : Cell} {x : List ℝ} (h : InHull m c x) {i : Nat} (hi : i < m.ndim) {lo hi' : ℝ}
    (hb : ∀ p ∈ c.points, lo ≤ coord m p i ∧ coord m p i ≤ hi') : lo ≤ at' x i ∧ at' x i ≤ hi' := by
  obtain ⟨w, ⟨hl, hs, hx⟩, hw⟩ := h
  rw [hx i hi]
  have h1 := le_sum w c.points (fun p => coord m p i) lo hw hl fun p hp => (hb p hp).1
  have h2 := sum_le w c.points (fun p => coord m p i) hi' hw hl fun p hp => (hb p hp).2
  rw [hs, one_mul] at h1 h2
  exact ⟨h1, h2⟩

theorem inTriangle_iff (z : ℝ × ℝ × ℝ) : inTriangle z = true ↔ 0 ≤ z.1 ∧ 0 ≤ z.2.1 ∧ 0 ≤ z.2.2 := by
  unfold inTriangle; split <;> rename_i hz
  · constructor
    · intro h; simp at h
    · rintro ⟨h1, h2, h3⟩; rcases hz with hz | hz | hz <;> linarith
  · simp only [not_or, not_lt] at hz; simp [hz]

theorem inTetrahedron_iff (z : ℝ × ℝ × ℝ × ℝ) : inTetrahedron z = true ↔ 0 ≤ z.1 ∧ 0 ≤ z.2.1 ∧ 0 ≤ z.2.2.1 ∧ 0 ≤ z.2.2.2 := by
  unfold inTetrahedron; split <;> rename_i hz
  · constructor
    · intro h; simp at h
    · rintro ⟨h1, h2, h3, h4⟩; rcases hz with hz | hz | hz | hz <;> linarith
  · simp only [not_or, not_lt] at hz; simp [hz]

theorem corner_ok (h : ValidMesh m) {c : Cell} (hc : c ∈ m.cells) {k p : Nat} (hk : c.points[k]? = some p) :
    ∃ xs : List ℝ, (do
      let pid ← Res.idx c.points k
      let p ← Res.idx m.points pid
      .ok p.coords : Res (List ℝ)) = .ok xs ∧ xs.length = m.ndim ∧ ∀ i, at' xs i = coord m p i := by
  have hp := h.inRange c hc p (List.mem_of_getElem? hk)
  refine ⟨m.points[p].coords, ?_, h.coords _ (List.getElem_mem hp), fun i => ?_⟩
  · rw [Res.idx_eq_ok.mpr hk, Res.bind_ok, Res.idx_of_lt hp, Res.bind_ok]
  · unfold coord coordsOf; rw [List.getElem?_eq_getElem hp]; rfl

/-- The weights of a simplex are unique: what `in_cell` computes. -/
theorem inCell_spec (h : ValidMesh m) (hs : Simplicial m) {g : GridCells} (hgm : g.mesh = m)
    (hgb : List.Forall₂ (fun c b => IsBox m c.points b) m.cells g.boxes) {k : Nat} {c : Cell} (hc : m.cells[k]? = some c)
    (hnd : NonDegenerate m c) {zeta x : List ℝ} (hz : zeta.length = 4) (hx : x.length = m.ndim) :
    ∃ z, inCell g zeta x k = .ok (decide (InHull m c x), z) ∧ z.length = 4 ∧
      (InHull m c x → Barycentric m c (z.take c.points.length) x ∧ ∀ v ∈ z.take c.points.length, 0 ≤ v) := by
  have hcm := List.mem_of_getElem? hc
  obtain ⟨b, hb, hR⟩ := forall2_get' hgb hc
  have hnn := h.nnode c hcm
  unfold inCell
  rw [Res.idx_eq_ok.mpr hb, Res.bind_ok, hgm]
  by_cases hout : ∃ i < m.ndim, at' x i < at' b.1 i ∨ at' x i > at' b.2 i
  · rw [if_pos hout]
    have hnot : ¬InHull m c x := by
      intro hin
      obtain ⟨i, hi, ho⟩ := hout
      have := hin.between hi (hR.mem i hi)
      rcases ho with ho | ho <;> linarith [this.1, this.2]
    exact ⟨zeta, by simp [hnot], hz, fun hin => absurd hin hnot⟩
  · rw [if_neg hout, Res.idx_eq_ok.mpr hc, Res.bind_ok]
    dsimp only
    rcases hs with ⟨hd, hk⟩ | ⟨hd, hk⟩
    · have hkc := hk c hcm
      rw [if_pos hkc]
      rw [hkc] at hnn
      change c.points.length = 3 at hnn
      match hpts : c.points, hnn with
      | [p, q, r], _ =>
      obtain ⟨xa, ea, la, ha⟩ := corner_ok h hcm (k := 0) (p := p) (by rw [hpts]; rfl)
      obtain ⟨xb, eb, lb, hb'⟩ := corner_ok h hcm (k := 1) (p := q) (by rw [hpts]; rfl)
      obtain ⟨xc, ec, lc, hc'⟩ := corner_ok h hcm (k := 2) (p := r) (by rw [hpts]; rfl)
      rw [hpts] at ea eb ec
      rw [ea, Res.bind_ok, eb, Res.bind_ok, ec, Res.bind_ok, if_neg (by omega)]
      rw [ha, ha, hb', hb', hc', hc']
      have hne : triArea2 (coord m p 0, coord m p 1) (coord m q 0, coord m q 1) (coord m r 0, coord m r 1) ≠ 0 := by
        unfold NonDegenerate at hnd
        rw [hd, hpts] at hnd
        exact hnd
      have key := C34_triangle_coords (coord m p 0, coord m p 1) (coord m q 0, coord m q 1) (coord m r 0, coord m r 1) (at' x 0, at' x 1) hne
      generalize triangleCoords (coord m p 0, coord m p 1) (coord m q 0, coord m q 1) (coord m r 0, coord m r 1) (at' x 0, at' x 1) = z at key
      have hbary : ∀ w1 w2 w3 : ℝ, Barycentric m c [w1, w2, w3] x ↔ (w1, w2, w3) = z := by
        intro w1 w2 w3
        rw [key]
        unfold Barycentric
        rw [hpts, hd]
        simp only [List.length_cons, List.length_nil, List.sum_cons, List.sum_nil, List.zipWith_cons_cons, List.zipWith_nil_left, true_and,
          Prod.smul_mk, Prod.mk_add_mk, Prod.mk.injEq, smul_eq_mul, add_zero]
        constructor
        · rintro ⟨h1, h2⟩
          refine ⟨by linarith, ?_, ?_⟩
          · have := h2 0 (by omega); linarith
          · have := h2 1 (by omega); linarith
        · rintro ⟨h1, h2, h3⟩
          refine ⟨by linarith, fun i hi => ?_⟩
          have : i = 0 ∨ i = 1 := by omega
          rcases this with rfl | rfl <;> linarith
      have hiff : InHull m c x ↔ inTriangle z = true := by
        rw [inTriangle_iff]
        constructor
        · rintro ⟨w, hw, hpos⟩
          have hwl := hw.1
          rw [hpts] at hwl
          match w, hwl with
          | [w1, w2, w3], _ =>
            have := (hbary w1 w2 w3).mp hw
            rw [← this]
            exact ⟨hpos w1 (by simp), hpos w2 (by simp), hpos w3 (by simp)⟩
        · rintro ⟨h1, h2, h3⟩
          refine ⟨[z.1, z.2.1, z.2.2], (hbary _ _ _).mpr rfl, ?_⟩
          intro v hv
          simp only [List.mem_cons, List.not_mem_nil, or_false] at hv
          rcases hv with rfl | rfl | rfl <;> assumption
      refine ⟨[z.1, z.2.1, z.2.2, at' zeta 3], ?_, rfl, ?_⟩
      · congr 2
        rw [Bool.eq_iff_iff, decide_eq_true_iff, hiff]
      · intro hin
        have hpos := (inTriangle_iff z).mp (hiff.mp hin)
        refine ⟨(hbary _ _ _).mpr rfl, ?_⟩
        intro v hv
        simp only [List.length_cons, List.length_nil, List.take_succ_cons, List.take_zero, List.mem_cons, List.not_mem_nil, or_false] at hv
        rcases hv with rfl | rfl | rfl
        · exact hpos.1
        · exact hpos.2.1
        · exact hpos.2.2
    · have hkc := hk c hcm
      rw [if_neg (by rw [hkc]; decide), if_pos hkc]
      rw [hkc] at hnn
      change c.points.length = 4 at hnn
      match hpts : c.points, hnn with
      | [p, q, r, s], _ =>
      obtain ⟨xa, ea, la, ha⟩ := corner_ok h hcm (k := 0) (p := p) (by rw [hpts]; rfl)
      obtain ⟨xb, eb, lb, hb'⟩ := corner_ok h hcm (k := 1) (p := q) (by rw [hpts]; rfl)
      obtain ⟨xc, ec, lc, hc'⟩ := corner_ok h hcm (k := 2) (p := r) (by rw [hpts]; rfl)
      obtain ⟨xd, ed, ld, hd'⟩ := corner_ok h hcm (k := 3) (p := s) (by rw [hpts]; rfl)
      rw [hpts] at ea eb ec ed
      rw [ea, Res.bind_ok, eb, Res.bind_ok, ec, Res.bind_ok, ed, Res.bind_ok, if_neg (by omega)]
      rw [ha, ha, ha, hb', hb', hb', hc', hc', hc', hd', hd', hd']
      have hne : tetVol6 (coord m p 0, coord m p 1, coord m p 2) (coord m q 0, coord m q 1, coord m q 2)
          (coord m r 0, coord m r 1, coord m r 2) (coord m s 0, coord m s 1, coord m s 2) ≠ 0 := by
        unfold NonDegenerate at hnd
        rw [hd, hpts] at hnd
        exact hnd
      have key := C34_tetrahedron_coords (coord m p 0, coord m p 1, coord m p 2) (coord m q 0, coord m q 1, coord m q 2)
          (coord m r 0, coord m r 1, coord m r 2) (coord m s 0, coord m s 1, coord m s 2) (at' x 0, at' x 1, at' x 2) hne
      generalize tetrahedronCoords (coord m p 0, coord m p 1, coord m p 2) (coord m q 0, coord m q 1, coord m q 2)
          (coord m r 0, coord m r 1, coord m r 2) (coord m s 0, coord m s 1, coord m s 2) (at' x 0, at' x 1, at' x 2) = z at key
      have hbary : ∀ w1 w2 w3 w4 : ℝ, Barycentric m c [w1, w2, w3, w4] x ↔ (w1, w2, w3, w4) = z := by
        intro w1 w2 w3 w4
        rw [key]
        unfold Barycentric
        rw [hpts, hd]
        simp only [List.length_cons, List.length_nil, List.sum_cons, List.sum_nil, List.zipWith_cons_cons, List.zipWith_nil_left, true_and,
          Prod.smul_mk, Prod.mk_add_mk, Prod.mk.injEq, smul_eq_mul, add_zero]
        constructor
        · rintro ⟨h1, h2⟩
          refine ⟨by linarith, ?_, ?_, ?_⟩
          · have := h2 0 (by omega); linarith
          · have := h2 1 (by omega); linarith
          · have := h2 2 (by omega); linarith
        · rintro ⟨h1, h2, h3, h4⟩
          refine ⟨by linarith, fun i hi => ?_⟩
          have : i = 0 ∨ i = 1 ∨ i = 2 := by omega
          rcases this with rfl | rfl | rfl <;> linarith
      have hiff : InHull m c x ↔ inTetrahedron z = true := by
        rw [inTetrahedron_iff]
        constructor
        · rintro ⟨w, hw, hpos⟩
          have hwl := hw.1
          rw [hpts] at hwl
          match w, hwl with
          | [w1, w2, w3, w4], _ =>
            have := (hbary w1 w2 w3 w4).mp hw
            rw [← this]
            exact ⟨hpos w1 (by simp), hpos w2 (by simp), hpos w3 (by simp), hpos w4 (by simp)⟩
        · rintro ⟨h1, h2, h3, h4⟩
          refine ⟨[z.1, z.2.1, z.2.2.1, z.2.2.2], (hbary _ _ _ _).mpr rfl, ?_⟩
          intro v hv
          simp only [List.mem_cons, List.not_mem_nil, or_false] at hv
          rcases hv with rfl | rfl | rfl | rfl <;> assumption
      refine ⟨[z.1, z.2.1, z.2.2.1, z.2.2.2], ?_, rfl, ?_⟩
      · congr 2
        rw [Bool.eq_iff_iff, decide_eq_true_iff, hiff]
      · intro hin
        have hpos := (inTetrahedron_iff z).mp (hiff.mp hin)
        refine ⟨(hbary _ _ _ _).mpr rfl, ?_⟩
        intro v hv
        simp only [List.length_cons, List.length_nil, List.take_succ_cons, List.take_zero, List.mem_cons, List.not_mem_nil, or_false] at hv
        rcases hv with rfl | rfl | rfl | rfl
        · exact hpos.1
        · exact hpos.2.1
        · exact hpos.2.2.1
        · exact hpos.2.2.2

/-- The answer of a loop over cells. -/
def Answer (m : Mesh ℝ) (ids : List Nat) (x : List ℝ) (r : Option Nat × List ℝ) : Prop :=
  r.2.length = 4 ∧ match r.1 with
  | some id => id ∈ ids ∧ ∃ c, m.cells[id]? = some c ∧ Barycentric m c (r.2.take c.points.length) x ∧ ∀ v ∈ r.2.take c.points.length, 0 ≤ v
  | none => ∀ id ∈ ids, ∀ c, m.cells[id]? = some c → ¬InHull m c x

theorem searchIn_spec (h : ValidMesh m) (hs : Simplicial m) {g : GridCells} (hgm : g.mesh = m)
    (hgb : List.Forall₂ (fun c b => IsBox m c.points b) m.cells g.boxes) (hnd : ∀ c ∈ m.cells, NonDegenerate m c) {x : List ℝ}
    (hx : x.length = m.ndim) (ids : List Nat) (hids : ∀ k ∈ ids, k < m.cells.length) (zeta : List ℝ) (hz : zeta.length = 4) :
    ∃ r, searchIn g x ids zeta = .ok r ∧ Answer m ids x r := by
  induction ids generalizing zeta with
  | nil => exact ⟨(none, zeta), rfl, hz, by simp⟩
  | cons k ids ih =>
    have hk := hids k (by simp)
    have hc : m.cells[k]? = some m.cells[k] := List.getElem?_eq_getElem hk
    obtain ⟨z, hzc, hzl, hin⟩ := inCell_spec h hs hgm hgb hc (hnd _ (List.getElem_mem hk)) hz hx
    unfold searchIn
    rw [hzc, Res.bind_ok]
    dsimp only
    by_cases hh : InHull m m.cells[k] x
    · rw [if_pos (by simpa using hh)]
      refine ⟨(some k, z), rfl, hzl, by simp, _, hc, hin hh⟩
    · rw [if_neg (by simpa using hh)]
      obtain ⟨r, hr, ha⟩ := ih (fun k hk => hids k (by simp [hk])) z hzl
      refine ⟨r, hr, ha.1, ?_⟩
      have ha2 := ha.2
      split at ha2
      · rename_i id he; exact ⟨by simp [ha2.1], ha2.2⟩
      · rename_i he
        intro id hid c hcid
        rcases List.mem_cons.mp hid with rfl | hid
        · rw [hc] at hcid; simp only [Option.some.injEq] at hcid; subst hcid; exact hh
        · exact ha2 id hid c hcid

end
end Gemlab.GridCells
