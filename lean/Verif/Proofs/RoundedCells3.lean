import Verif.Proofs.RoundedCells2
import Verif.Spec.RoundedCells

/-! The grid built by `GridCells::new` with rounding. -/
namespace Gemlab.Rounded.Cells
noncomputable section
open Classical
open Gemlab.Mesh
open Gemlab.GridCells (IsBox coord largestOf largestOf_ge corners Has forall2_get forall2_get' points_ne_nil ptsOf at'_map at'_map_range IsBox.extent_nonneg)

variable {fl : ℝ → ℝ} {u M : ℝ} {m : Mesh ℝ}

/-- Facts about a grid returned by `new`. -/
structure Good (fl : ℝ → ℝ) (m : Mesh ℝ) (g : GridCells) : Prop where
  mesh : g.mesh = m
  boxes : List.Forall₂ (fun c b => IsBox m c.points b) m.cells g.boxes
  side : 0 < g.sideLength
  inside : ∀ c ∈ m.cells, ∀ p ∈ c.points, ∀ i < m.ndim, at' g.xmin i ≤ coord m p i ∧ coord m p i ≤ at' g.xmax i
  large : ∀ k ∈ g.largeCells, k < m.cells.length
  small : ∀ (k : Nat) b, g.boxes[k]? = some b → k ∉ g.largeCells → ∀ i < m.ndim,
    rawIdx fl g.sideLength (at' g.xmin i) (at' b.2 i) ≤ rawIdx fl g.sideLength (at' g.xmin i) (at' b.1 i) + 1
  containers : g.containers = fill fl m.ndim g.sideLength g.ndiv g.xmin g.boxes g.largeCells

theorem coord_floats (h : ValidMesh m) (hf : Floats fl M m) {p : Nat} (hp : p < m.points.length) {i : Nat} (hi : i < m.ndim) :
    IsFloat fl (coord m p i) ∧ |coord m p i| ≤ M := by
  have hlen := h.coords _ (List.getElem_mem hp)
  refine hf _ (List.getElem_mem hp) _ ?_
  unfold coord coordsOf at'
  rw [List.getElem?_eq_getElem hp]
  simp only [Option.map_some, Option.getD_some]
  rw [List.getD_eq_getElem?_getD, List.getElem?_eq_getElem (by omega)]
  simp

theorem new_ok (R : Rounding fl u) (h : ValidMesh m) (hd : m.ndim = 2 ∨ m.ndim = 3) (hc : m.cells ≠ []) (hf : Floats fl M m) (hMax : M ≤ f64Max)
    (tol border cutoff pct : Option ℝ) (ht : 0 < tol.getD (fl (1 / 10000))) (hb : 0 < border.getD (fl (1 / 100)))
    (hcut : 0 ≤ cutoff.getD (fl (3 / 4)) ∧ cutoff.getD (fl (3 / 4)) ≤ 1) (hpct : 0 ≤ pct.getD (fl (1 / 5)) ∧ pct.getD (fl (1 / 5)) ≤ 1)
    (hsmall : pct.getD (fl (1 / 5)) < fl 1)
    (hT : 5 * (u * (M + border.getD (fl (1 / 100)))) ≤ tol.getD (fl (1 / 10000)))
    (hB : 10 * (u * (M + border.getD (fl (1 / 100)))) ≤ border.getD (fl (1 / 100))) :
    ∃ g, new fl m tol border cutoff pct = .ok g ∧ Good fl m g ∧ g.xmin.length = m.ndim ∧ g.xmax.length = m.ndim := by
  obtain ⟨s, hs, inv⟩ := scan_ok (fl := fl) h
  unfold new
  dsimp only
  generalize tol.getD (fl (1 / 10000)) = t at *
  generalize border.getD (fl (1 / 100)) = b at *
  generalize cutoff.getD (fl (3 / 4)) = cut at *
  generalize pct.getD (fl (1 / 5)) = pc at *
  rw [if_neg (by linarith), if_neg (by linarith), if_neg (by rintro (h | h) <;> linarith [hcut.1, hcut.2]),
    if_neg (by rintro (h | h) <;> linarith [hpct.1, hpct.2]), hs, Res.bind_ok, if_pos hb, if_pos hb]
  have hnd : 0 < m.ndim := by omega
  have hLge : ∀ bx ∈ s.boxes, ∀ i < m.ndim, extent fl bx i ≤ largestOf m.ndim (at' s.largest) := fun bx hbx i hi =>
    (inv.largest bx hbx i hi).trans (largestOf_ge _ hi)
  have hlen : s.boxes.length = m.cells.length := inv.boxes.length_eq.symm
  have hcpos : 0 < m.cells.length := List.length_pos_iff.mpr hc
  have sp := splitLarge_spec (fl := fl) m.ndim s.boxes (fl (cut * largestOf m.ndim (at' s.largest)))
  generalize splitLarge fl m.ndim s.boxes (fl (cut * largestOf m.ndim (at' s.largest))) = sl at sp ⊢
  -- the limits of the mesh
  have hmemp : ∀ c ∈ m.cells, ∀ p ∈ c.points, p ∈ ptsOf m.cells := fun c hc p hp => List.mem_flatMap.mpr ⟨c, hc, hp⟩
  have hfl : ∀ p ∈ ptsOf m.cells, ∀ i < m.ndim, IsFloat fl (coord m p i) ∧ |coord m p i| ≤ M := by
    intro p hp i hi
    obtain ⟨c, hcm, hp⟩ := List.mem_flatMap.mp hp
    exact coord_floats h hf (h.inRange c hcm p hp) hi
  obtain ⟨c0, cs, hc0⟩ := List.exists_cons_of_ne_nil hc
  have hc0m : c0 ∈ m.cells := by rw [hc0]; simp
  obtain ⟨p0, ps, hp0⟩ := List.exists_cons_of_ne_nil (points_ne_nil h hc0m)
  have hp0m := hmemp c0 hc0m p0 (by rw [hp0]; simp)
  have hmin : ∀ i < m.ndim, IsFloat fl (at' s.xmin i) ∧ |at' s.xmin i| ≤ M := by
    intro i hi
    rcases inv.lim.tight1 i hi with e | ⟨p, hp, e⟩
    · have h1 := hfl p0 hp0m i hi
      have h2 := (inv.lim.mem i hi p0 hp0m).1
      have : at' s.xmin i = coord m p0 i := by
        have := (abs_le.1 h1.2).2
        linarith
      rw [this]; exact h1
    · rw [← e]; exact hfl p hp i hi
  have hmax : ∀ i < m.ndim, IsFloat fl (at' s.xmax i) ∧ |at' s.xmax i| ≤ M := by
    intro i hi
    rcases inv.lim.tight2 i hi with e | ⟨p, hp, e⟩
    · have h1 := hfl p0 hp0m i hi
      have h2 := (inv.lim.mem i hi p0 hp0m).2
      have : at' s.xmax i = coord m p0 i := by
        have := (abs_le.1 h1.2).1
        linarith
      rw [this]; exact h1
    · rw [← e]; exact hfl p hp i hi
  have hle : ∀ i < m.ndim, at' s.xmin i ≤ at' s.xmax i := fun i hi =>
    (inv.lim.mem i hi p0 hp0m).1.trans (inv.lim.mem i hi p0 hp0m).2
  have emin : ∀ i < m.ndim, at' (s.xmin.map (fun v => fl (v - b))) i = fl (at' s.xmin i - b) := fun i hi => at'_map _ _ _ (by rw [inv.lim.len1]; exact hi)
  have emax : ∀ i < m.ndim, at' (s.xmax.map (fun v => fl (v + b))) i = fl (at' s.xmax i + b) := fun i hi => at'_map _ _ _ (by rw [inv.lim.len2]; exact hi)
  -- boxes
  have hbox : ∀ (k : Nat) bx, s.boxes[k]? = some bx → ∀ i < m.ndim, at' s.xmin i ≤ at' bx.1 i ∧ at' bx.1 i ≤ at' bx.2 i ∧ at' bx.2 i ≤ at' s.xmax i := by
    intro k bx hbx i hi
    obtain ⟨c, hck, hR⟩ := forall2_get inv.boxes hbx
    have hcm := List.mem_of_getElem? hck
    obtain ⟨p, hp, e1⟩ := hR.tight1 i hi
    obtain ⟨q, hq, e2⟩ := hR.tight2 i hi
    refine ⟨?_, ?_, ?_⟩
    · rw [← e1]; exact (inv.lim.mem i hi p (hmemp c hcm p hp)).1
    · rw [← e1]; exact (hR.mem i hi p hp).2
    · rw [← e2]; exact (inv.lim.mem i hi q (hmemp c hcm q hq)).2
  -- the side
  generalize hSide : (if fl (fl (sl.1.length : ℝ) / fl (m.cells.length : ℝ)) ≤ pc then sl.2 else largestOf m.ndim (at' s.largest)) = L
  generalize hLarge : (if fl (fl (sl.1.length : ℝ) / fl (m.cells.length : ℝ)) ≤ pc then sl.1 else []) = large
  have hlarge : ∀ k ∈ large, k < m.cells.length := by
    intro k hk
    rw [← hLarge] at hk
    split at hk
    · obtain ⟨bx, hbx, _⟩ := (sp.mem k).mp hk
      rw [← hlen]; exact (List.getElem?_eq_some_iff.mp hbx).1
    · simp at hk
  have hext : ∀ (k : Nat) bx, s.boxes[k]? = some bx → k ∉ large → ∀ i < m.ndim, extent fl bx i ≤ L := by
    intro k bx hbx hk i hi
    rw [← hLarge] at hk
    rw [← hSide]
    split at hk
    · rename_i hp
      rw [if_pos hp]
      exact sp.ge bx (List.mem_of_getElem? hbx) (fun hl => hk ((sp.mem k).mpr ⟨bx, hbx, hl⟩)) i hi
    · rename_i hp
      rw [if_neg hp]
      exact hLge bx (List.mem_of_getElem? hbx) i hi
  have hexists : ∃ (k : Nat) (bx : List ℝ × List ℝ), s.boxes[k]? = some bx ∧ k ∉ large := by
    by_cases hp : fl (fl (sl.1.length : ℝ) / fl (m.cells.length : ℝ)) ≤ pc
    · have hnot : ¬ ∀ bx ∈ s.boxes, IsLarge fl m.ndim (fl (cut * largestOf m.ndim (at' s.largest))) bx := by
        intro hall
        rw [sp.all, hlen] at hall
        have hn0 : fl (m.cells.length : ℝ) ≠ 0 := (R.pos (by exact_mod_cast hcpos)).ne'
        rw [hall, div_self hn0] at hp
        linarith
      simp only [not_forall] at hnot
      obtain ⟨bx, hbx, hn⟩ := hnot
      obtain ⟨k, hk, hke⟩ := List.mem_iff_getElem.mp hbx
      refine ⟨k, bx, by rw [List.getElem?_eq_getElem hk, hke], ?_⟩
      rw [← hLarge, if_pos hp]
      intro hkl
      obtain ⟨b', hb', hl⟩ := (sp.mem k).mp hkl
      rw [List.getElem?_eq_getElem hk, hke] at hb'
      cases hb'
      exact hn hl
    · have : 0 < s.boxes.length := by omega
      refine ⟨0, s.boxes[0], List.getElem?_eq_getElem this, ?_⟩
      rw [← hLarge, if_neg hp]; simp
  have hK : ∀ i < m.ndim, ∀ side : ℝ, 0 < side → _ := fun i hi side hside =>
    limits R (hmin i hi).1 (hmax i hi).1 (hle i hi) (hmin i hi).2 (hmax i hi).2 hb hB hside
  have gap : ∀ (k : Nat) bx, s.boxes[k]? = some bx → k ∉ large → ∀ i < m.ndim, _ := fun k bx hbx hk i hi =>
    rawIdx_gap R (x0 := fl (at' s.xmin i - b)) (K := M + b) (t := t) (((hK i hi 1 one_pos).1).trans (hbox k bx hbx i hi).1) (hbox k bx hbx i hi).2.1
      (hext k bx hbx hk i hi) ht (by have h1 := (hK i hi 1 one_pos).2.2.1; have h2 := (hbox k bx hbx i hi).2.2; linarith) hT
  have hside : 0 < fl (L + fl (2 * t)) := by
    obtain ⟨k, bx, hbx, hk⟩ := hexists
    exact (gap k bx hbx hk 0 hnd).1
  rw [if_neg (by
    rintro ⟨i, hi, hn⟩
    rw [emin i hi, emax i hi] at hn
    exact hn (hK i hi 1 one_pos).2.1)]
  have hndiv : ∀ i < m.ndim, ((List.range m.ndim).map fun i => ⌈fl (fl (at' (s.xmax.map (fun v => fl (v + b))) i - at' (s.xmin.map (fun v => fl (v - b))) i) /
      fl (L + fl (2 * t)))⌉₊).getD i 0 = ⌈fl (fl (fl (at' s.xmax i + b) - fl (at' s.xmin i - b)) / fl (L + fl (2 * t)))⌉₊ := by
    intro i hi
    simp only [List.getD_eq_getElem?_getD, List.getElem?_map, List.getElem?_range hi, Option.map_some, Option.getD_some]
    rw [emin i hi, emax i hi]
  refine ⟨_, rfl, ⟨rfl, inv.boxes, hside, ?_, hlarge, ?_, rfl⟩, by simp [inv.lim.len1], by simp⟩
  · intro c hcm p hp i hi
    dsimp only
    rw [at'_map_range _ _ _ hi, emin i hi, hndiv i hi]
    obtain ⟨k1, -, -, k2⟩ := hK i hi _ hside
    have := inv.lim.mem i hi p (hmemp c hcm p hp)
    exact ⟨k1.trans this.1, this.2.trans k2⟩
  · intro k bx hbx hk i hi
    dsimp only
    rw [emin i hi]
    exact (gap k bx hbx hk i hi).2

/-- Every cell the bounding box of which contains the point is large or in the container of the point. -/
theorem Good.candidate (R : Rounding fl u) {g : GridCells} (hg : Good fl m g) (hd : m.ndim = 2 ∨ m.ndim = 3) {k : Nat} {b : List ℝ × List ℝ} (hb : g.boxes[k]? = some b)
    {x : List ℝ} (hx : ∀ i < m.ndim, at' b.1 i ≤ at' x i ∧ at' x i ≤ at' b.2 i) :
    k ∈ g.largeCells ∨ ∃ l, g.containers.get (containerKey fl m.ndim g.sideLength g.ndiv g.xmin x) = some l ∧ k ∈ l := by
  by_cases hk : k ∈ g.largeCells
  · exact Or.inl hk
  right
  obtain ⟨y, hy, hkey⟩ := key_mem R hd hg.side (xmin := g.xmin) (x := x) (b := b) (ndiv := g.ndiv) hx (hg.small k b hb hk)
  rw [hkey, hg.containers]
  exact (fill_spec _ _ _ _ _ _ _ _).mpr ⟨b, hb, hk, y, hy, rfl⟩

theorem Good.inRange {g : GridCells} (hg : Good fl m g) {key : Nat} {l : List Nat} (hl : g.containers.get key = some l) :
    ∀ k ∈ l, k < m.cells.length := by
  intro k hk
  rw [hg.containers] at hl
  obtain ⟨b, hb, _⟩ := (fill_spec _ _ _ _ _ _ _ _).mp ⟨l, hl, hk⟩
  obtain ⟨c, hc, _⟩ := forall2_get hg.boxes hb
  exact (List.getElem?_eq_some_iff.mp hc).1

end
end Gemlab.Rounded.Cells
