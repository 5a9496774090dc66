import Verif.Proofs.Tiles

/-! # The distance of the nodes of a grid -/
namespace Gemlab.Structured
noncomputable section
open Classical
open Gemlab.Mesh Gemlab.Shapes Gemlab.Block Gemlab.Spec

variable {ndim : Nat} {target : GeoKind} {n : Nat → Nat} {tick : Nat → Nat → ℝ}

/-- Different positions along a direction are separated by a fourth of the smallest cell. -/
theorem Grid.gap (h : Grid ndim target n tick) {i j k m i' j' k' m' a : Nat} (hb : Box n i j k) (hb' : Box n i' j' k') (hm : m < target.nnode) (hm' : m' < target.nnode)
    (ha : a < ndim) {δ : ℝ} (hδ : ∀ i < n a, δ ≤ tick a (i + 1) - tick a i) (hp : 0 < δ) :
    (tickPos ndim tick target i j k m).getD a 0 = (tickPos ndim tick target i' j' k' m').getD a 0 ∨
      δ / 4 ≤ |(tickPos ndim tick target i j k m).getD a 0 - (tickPos ndim tick target i' j' k' m').getD a 0| := by
  have main : ∀ i j k m i' j' k' m', Box n i j k → Box n i' j' k' → m < target.nnode → m' < target.nnode → pick i j k a ≤ pick i' j' k' a →
      (tickPos ndim tick target i j k m).getD a 0 = (tickPos ndim tick target i' j' k' m').getD a 0 ∨
      δ / 4 ≤ |(tickPos ndim tick target i j k m).getD a 0 - (tickPos ndim tick target i' j' k' m').getD a 0| := by
    intro i j k m i' j' k' m' hb hb' hm hm' hle
    rw [getD_tickPos ha, getD_tickPos ha]
    have ha' : a < target.ndim := h.ndim_eq ▸ ha
    have l1 := pick_lt hb (h.lt3 ha)
    have l2 := pick_lt hb' (h.lt3 ha)
    have d1 := hδ _ l1
    have d2 := hδ _ l2
    obtain ⟨s0, s1⟩ := rr_bounds h.qh hm ha'
    obtain ⟨t0, t1⟩ := rr_bounds h.qh hm' ha'
    rcases Nat.eq_or_lt_of_le hle with he | hlt
    · rw [he]
      have gap : rr target m a = rr target m' a ∨ 1 / 4 ≤ |rr target m a - rr target m' a| := by
        rcases rr_gap h.qh hm hm' ha' with e | e | e
        · exact .inl e
        · right; rw [le_abs]; right; linarith
        · right; rw [le_abs]; left; linarith
      rcases gap with e | e
      · left; rw [e]
      · right
        set D := tick a (pick i' j' k' a + 1) - tick a (pick i' j' k' a)
        rw [show tick a (pick i' j' k' a) + D * rr target m a - (tick a (pick i' j' k' a) + D * rr target m' a) = D * (rr target m a - rr target m' a) by ring,
          abs_mul, abs_of_pos (by linarith)]
        nlinarith [abs_nonneg (rr target m a - rr target m' a)]
    · have m1 := h.mono ha (show pick i j k a + 1 ≤ pick i' j' k' a by omega) (by omega)
      have e1 : rr target m' a = 0 ∨ 1 / 4 ≤ rr target m' a := by rcases rr_cases h.qh hm' ha' with e | e | e <;> [left; right; right] <;> linarith
      have e2 : rr target m a = 1 ∨ rr target m a ≤ 3 / 4 := by rcases rr_cases h.qh hm ha' with e | e | e <;> [right; left; right] <;> linarith
      set p := pick i j k a
      set q := pick i' j' k' a
      have hD1 : (tick a (p + 1) - tick a p) * rr target m a ≤ tick a (p + 1) - tick a p := mul_le_of_le_one_right (by linarith) s1
      have hD2 : 0 ≤ (tick a (q + 1) - tick a q) * rr target m' a := mul_nonneg (by linarith) t0
      by_cases hq : q = p + 1
      · rcases e1 with e1 | e1
        · rcases e2 with e2 | e2
          · left; rw [e1, e2, hq]; ring
          · right; rw [le_abs]; right
            have : (tick a (p + 1) - tick a p) * rr target m a ≤ (tick a (p + 1) - tick a p) * (3 / 4) := mul_le_mul_of_nonneg_left e2 (by linarith)
            linarith
        · right; rw [le_abs]; right
          have : (tick a (q + 1) - tick a q) * (1 / 4) ≤ (tick a (q + 1) - tick a q) * rr target m' a := mul_le_mul_of_nonneg_left e1 (by linarith)
          linarith
      · right
        have m2 := h.mono ha (show p + 2 ≤ q by omega) (by omega)
        have d3 := hδ (p + 1) (by omega)
        rw [le_abs]; right
        have : 0 ≤ (tick a (q + 1) - tick a q) * rr target m' a := mul_nonneg (by linarith) t0
        have : (tick a (p + 1) - tick a p) * rr target m a ≤ tick a (p + 1) - tick a p := mul_le_of_le_one_right (by linarith) s1
        have : tick a (p + 1 + 1) = tick a (p + 2) := rfl
        linarith
  rcases Nat.le_total (pick i j k a) (pick i' j' k' a) with hle | hle
  · exact main i j k m i' j' k' m' hb hb' hm hm' hle
  · rcases main i' j' k' m' i j k m hb' hb hm' hm hle with e | e
    · exact .inl e.symm
    · exact .inr (by rw [abs_sub_comm]; exact e)

theorem euclid_ge {x y : List ℝ} {a : Nat} (ha : a < x.length) : |x.getD a 0 - y.getD a 0| ≤ euclid x y := by
  unfold euclid
  rw [← Real.sqrt_sq_eq_abs]
  apply Real.sqrt_le_sqrt
  exact Finset.single_le_sum (f := fun i => (x.getD i 0 - y.getD i 0) ^ 2) (fun i _ => sq_nonneg _) (Finset.mem_range.2 ha)

theorem Grid.far (h : Grid ndim target n tick) {i j k m i' j' k' m' : Nat} (hb : Box n i j k) (hb' : Box n i' j' k') (hm : m < target.nnode) (hm' : m' < target.nnode)
    {δ : ℝ} (hδ : ∀ a < ndim, ∀ i < n a, δ ≤ tick a (i + 1) - tick a i) (hs : Real.sqrt ndim * (1 / 10000) < δ / 4) :
    SameOrFar ndim (tickPos ndim tick target i j k m) (tickPos ndim tick target i' j' k' m') := by
  have hp : 0 < δ := by have := Real.sqrt_nonneg (ndim : ℝ); linarith [mul_nonneg this (by norm_num : (0 : ℝ) ≤ 1 / 10000)]
  by_cases he : tickPos ndim tick target i j k m = tickPos ndim tick target i' j' k' m'
  · exact .inl he
  · right
    have : ∃ a < ndim, (tickPos ndim tick target i j k m).getD a 0 ≠ (tickPos ndim tick target i' j' k' m').getD a 0 := by
      by_contra hc
      push Not at hc
      apply he
      apply List.ext_getElem (by rw [length_tickPos, length_tickPos])
      intro a h1 h2
      have := hc a (by rwa [length_tickPos] at h1)
      simpa [h1, h2] using this
    obtain ⟨a, ha, hne⟩ := this
    have g := (h.gap hb hb' hm hm' ha (hδ a ha) hp).resolve_left hne
    exact hs.trans_le (g.trans (euclid_ge (by rw [length_tickPos]; exact ha)))

end
end Gemlab.Structured
