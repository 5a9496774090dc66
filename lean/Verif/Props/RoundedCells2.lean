import Verif.Props.RoundedCells
import Verif.Props.RoundedTetrahedron2

/-!
# C95: examples in double precision

A point found; a point strictly inside a cell that is not found.
-/
namespace Gemlab.Rounded.Cells
noncomputable section
open Classical
open Gemlab.Mesh
open Gemlab.GridCells (IsBox coord Simplicial InHull InHull.between forall2_get forall2_get' one_le_f64Max at'_map_range)

/-- The ends of the common edge of the two triangles of the example. -/
def gapLo : ℝ := 5629499534213119 / 2 ^ 53
def gapHi : ℝ := 4785074604081153 / 2 ^ 51

/-- A point to the right of the common edge. -/
def gapP : ℝ × ℝ := (3 / 2 + 1 / 2 ^ 52, 7318349394477057 / 2 ^ 52)

/-- Two triangles with a common vertical edge. -/
def gapMesh : Mesh ℝ :=
  { ndim := 2
    points := [⟨0, 0, [1 / 2, 1 / 2]⟩, ⟨1, 0, [3 / 2, gapLo]⟩, ⟨2, 0, [5 / 2, 1 / 2]⟩, ⟨3, 0, [3 / 2, gapHi]⟩]
    cells := [⟨0, 1, .tri3, [0, 1, 3]⟩, ⟨1, 1, .tri3, [2, 3, 1]⟩]
    markedEdges := [], markedFaces := [] }

theorem gap_num : side3 binary64 gapP (3 / 2, gapHi) (3 / 2, gapLo) = (-1 / 9007199254740992) :=
  side3_eval (d1 := (3377699720527873 / 2251799813685248)) (m1 := (2533274790395905 / 1125899906842624)) (d2 := (-2251799813685249 / 2251799813685248)) (m2 := (-6755399441055747 / 4503599627370496)) (s := (3377699720527873 / 4503599627370496)) (d3 := (-2251799813685249 / 4503599627370496)) (m3 := (-6755399441055747 / 9007199254740992))
    (b64_tie 6755399441055746 53 (by norm_num) (by norm_num [gapP, gapHi, gapLo]) (by norm_num))
    (b64_round 5066549580791810 51 (by norm_num) (by norm_num [gapP, gapHi, gapLo]) (by norm_num [gapP, gapHi, gapLo]) (by norm_num))
    (b64_tie_neg 4503599627370497 53 (by norm_num) (by norm_num [gapP, gapHi, gapLo]) (by norm_num))
    (b64_exact (-6755399441055747) 52 (by norm_num) (by norm_num [gapP, gapHi, gapLo]) (by norm_num))
    (b64_exact (3377699720527873) 52 (by norm_num) (by norm_num [gapP, gapHi, gapLo]) (by norm_num))
    (b64_exact (-2251799813685249) 52 (by norm_num) (by norm_num [gapP, gapHi, gapLo]) (by norm_num))
    (b64_exact (-6755399441055747) 53 (by norm_num) (by norm_num [gapP, gapHi, gapLo]) (by norm_num))
    (b64_exact (-1) 53 (by norm_num) (by norm_num [gapP, gapHi, gapLo]) (by norm_num))

theorem three_le_f64Max : (3 : ℝ) ≤ f64Max := by
  unfold f64Max
  have h1 : (2 : ℝ) ≤ 2 ^ 1023 := by
    calc (2 : ℝ) = 2 ^ 1 := by norm_num
      _ ≤ 2 ^ 1023 := pow_le_pow_right₀ (by norm_num) (by norm_num)
  have h2 : (3 / 2 : ℝ) ≤ 2 - 1 / 2 ^ 52 := by norm_num
  calc (3 : ℝ) = 3 / 2 * 2 := by norm_num
    _ ≤ _ := mul_le_mul h2 h1 (by norm_num) (by norm_num)

theorem gap_floats : Floats binary64 3 gapMesh := by
  intro p hp v hv
  have h (k : ℤ) (n : ℕ) (hk : k.natAbs ≤ 2 ^ 53) (hx : v = k / 2 ^ n) : IsFloat binary64 v := b64_exact k n hk hx hx
  simp only [gapMesh, List.mem_cons, List.not_mem_nil, or_false] at hp
  rcases hp with rfl | rfl | rfl | rfl <;> simp only [List.mem_cons, List.not_mem_nil, or_false] at hv <;> rcases hv with rfl | rfl
  · exact ⟨h 1 1 (by norm_num) (by norm_num), by norm_num [abs_le]⟩
  · exact ⟨h 1 1 (by norm_num) (by norm_num), by norm_num [abs_le]⟩
  · exact ⟨h 3 1 (by norm_num) (by norm_num), by norm_num [abs_le]⟩
  · exact ⟨h 5629499534213119 53 (by norm_num) (by norm_num [gapLo]), by norm_num [abs_le, gapLo]⟩
  · exact ⟨h 5 1 (by norm_num) (by norm_num), by norm_num [abs_le]⟩
  · exact ⟨h 1 1 (by norm_num) (by norm_num), by norm_num [abs_le]⟩
  · exact ⟨h 3 1 (by norm_num) (by norm_num), by norm_num [abs_le]⟩
  · exact ⟨h 4785074604081153 51 (by norm_num) (by norm_num [gapHi]), by norm_num [abs_le, gapHi]⟩

/-- The default parameters are good for meshes of this size. -/
theorem gap_setting : Setting binary64 ((2 : ℝ) ^ (-53 : ℤ)) 3 gapMesh none none none none := by
  have R := binary64_rounding
  have up := fun (x : ℝ) (h : 0 ≤ x) => R.upper h
  have lo := fun (x : ℝ) (h : 0 ≤ x) => R.lower h
  have e : (2 : ℝ) ^ (-53 : ℤ) = 1 / 9007199254740992 := by norm_num
  rw [e] at up lo
  have u1 := up (1 / 100) (by norm_num)
  have u2 := up (3 / 4) (by norm_num)
  have u3 := up (1 / 5) (by norm_num)
  have l1 := lo (1 / 10000) (by norm_num)
  have l2 := lo (1 / 100) (by norm_num)
  have l3 := lo (3 / 4) (by norm_num)
  have l4 := lo (1 / 5) (by norm_num)
  have l5 := lo 1 (by norm_num)
  refine ⟨ValidMesh.of_check (by decide +kernel) (by simp [gapMesh]), .inl rfl, by simp [gapMesh], gap_floats, three_le_f64Max, ?_, ?_, ⟨?_, ?_⟩, ⟨?_, ?_, ?_⟩, ?_, ?_⟩ <;>
    simp only [Option.getD_none] <;> (try rw [e]) <;> linarith

theorem gap_simplicial : Simplicial gapMesh := .inl ⟨rfl, by simp [gapMesh]⟩

theorem gap_tri0 : triOf gapMesh 0 1 3 = ![(1 / 2, 1 / 2), (3 / 2, gapLo), (3 / 2, gapHi)] := by
  norm_num [triOf, coord, coordsOf, gapMesh, at']

theorem gap_tri1 : triOf gapMesh 2 3 1 = ![(5 / 2, 1 / 2), (3 / 2, gapHi), (3 / 2, gapLo)] := by
  norm_num [triOf, coord, coordsOf, gapMesh, at']

theorem gap_area1 : 3 / 2 < area2 (triOf gapMesh 2 3 1) ∧ 3 / 2 < area2 (triOf gapMesh 0 1 3) := by
  rw [gap_tri0, gap_tri1]
  constructor <;> simp only [area2, Matrix.cons_val, triArea2, gapLo, gapHi] <;> norm_num

theorem gap_thick : ∀ c ∈ gapMesh.cells, Thick ((2 : ℝ) ^ (-53 : ℤ)) 3 gapMesh c := by
  intro c hc
  simp only [gapMesh, List.mem_cons, List.not_mem_nil, or_false] at hc
  have e : 23 * ((2 : ℝ) ^ (-53 : ℤ) * 3 ^ 2) < 3 / 2 := by norm_num
  rcases hc with rfl | rfl
  · exact e.trans (lt_of_lt_of_le gap_area1.2 (le_abs_self _))
  · exact e.trans (lt_of_lt_of_le gap_area1.1 (le_abs_self _))

theorem fin01 : (0 : Fin 3) + 1 = 1 := rfl
theorem fin02 : (0 : Fin 3) + 2 = 2 := rfl
theorem fin11 : (1 : Fin 3) + 1 = 2 := rfl
theorem fin12 : (1 : Fin 3) + 2 = 0 := rfl
theorem fin21 : (2 : Fin 3) + 1 = 0 := rfl
theorem fin22 : (2 : Fin 3) + 2 = 1 := rfl

/-- **C95 (example).** The hypotheses of `C95_found` are met by a mesh, default parameters and a point in its first cell. -/
theorem C95_example {iter : List Nat → List Nat} (hit : IterOrder iter) : ∃ g id z, new binary64 gapMesh none none none none = .ok g ∧
    search binary64 iter g [0, 0, 0, 0] [1, 1] = .ok (some id, z) := by
  obtain ⟨g, hg, _⟩ := C95_new binary64_rounding gap_setting
  obtain ⟨id, z, h⟩ := C95_found binary64_rounding (by norm_num) gap_setting hg gap_simplicial gap_thick hit (zeta := [0, 0, 0, 0]) (x := [1, 1]) rfl rfl
    ⟨⟨0, 1, .tri3, [0, 1, 3]⟩, by simp [gapMesh], by
      change ∀ i, 23 * ((2 : ℝ) ^ (-53 : ℤ) * 3 ^ 2) ≤ depth (triOf gapMesh 0 1 3) i (1, 1)
      have hs : SignType.sign (area2 (triOf gapMesh 0 1 3)) = 1 := sign_pos (lt_trans (by norm_num) gap_area1.2)
      rw [forall3]
      rw [gap_tri0] at hs ⊢
      simp only [depth, hs]
      refine ⟨?_, ?_, ?_⟩ <;> simp only [fin01, fin02, fin11, fin12, fin21, fin22, Matrix.cons_val, triArea2, gapLo, gapHi] <;> norm_num⟩
  exact ⟨g, id, z, hg, h⟩

/-- **C95 (gap).** In double precision with the default parameters, a point strictly inside a cell and next to its axis-aligned edge may be found in no cell: the test of
its own cell fails by rounding and the bounding box of the other cell does not contain it. -/
theorem C95_gap {iter : List Nat → List Nat} (hit : IterOrder iter) : ∃ g z, new binary64 gapMesh none none none none = .ok g ∧
    search binary64 iter g [0, 0, 0, 0] [gapP.1, gapP.2] = .ok (none, z) ∧ (∀ i, 0 < depth (triOf gapMesh 2 3 1) i gapP) ∧
    IsFloat binary64 gapP.1 ∧ IsFloat binary64 gapP.2 := by
  obtain ⟨g, hg, _⟩ := C95_new binary64_rounding gap_setting
  have hdep : ∀ i, 0 < depth (triOf gapMesh 2 3 1) i gapP := by
    have hs : SignType.sign (area2 (triOf gapMesh 2 3 1)) = 1 := sign_pos (lt_trans (by norm_num) gap_area1.1)
    rw [forall3]
    rw [gap_tri1] at hs ⊢
    simp only [depth, hs]
    refine ⟨?_, ?_, ?_⟩ <;> simp only [fin01, fin02, fin11, fin12, fin21, fin22, Matrix.cons_val, triArea2, gapLo, gapHi, gapP] <;> norm_num
  have good := gap_setting.good binary64_rounding hg
  have hull : InHull gapMesh ⟨1, 1, .tri3, [2, 3, 1]⟩ [gapP.1, gapP.2] :=
    hull3 rfl rfl (lt_trans (by norm_num) gap_area1.1).ne' fun i => (hdep i).le
  have hcm : (⟨1, 1, .tri3, [2, 3, 1]⟩ : Cell) ∈ gapMesh.cells := by simp [gapMesh]
  obtain ⟨r, hr, hl, hm⟩ := (search_core binary64_rounding gap_setting hg gap_simplicial hit (zeta := [0, 0, 0, 0]) (x := [gapP.1, gapP.2]) rfl rfl).2 (by
    rintro ⟨i, hi, ho⟩
    have := hull.between hi (good.inside _ hcm · · i hi)
    rcases ho with ho | ho <;> linarith [this.1, this.2])
  obtain ⟨r1, r2⟩ := r
  cases r1 with
  | none =>
    refine ⟨g, r2, hg, hr, hdep, ?_, ?_⟩
    · exact b64_exact 6755399441055745 52 (by norm_num) (by norm_num [gapP]) (by norm_num [gapP])
    · exact b64_exact 7318349394477057 52 (by norm_num) (by norm_num [gapP]) (by norm_num [gapP])
  | some id =>
    exfalso
    dsimp only at hm
    obtain ⟨c, b, hc, hb, hin, hcomp⟩ := hm
    obtain ⟨b', hb', hR⟩ := forall2_get' good.boxes hc
    rw [hb] at hb'; cases hb'
    have hid : id < 2 := (List.getElem?_eq_some_iff.mp hc).1
    interval_cases id
    · simp only [gapMesh, List.getElem?_cons_zero, Option.some.injEq] at hc
      subst hc
      obtain ⟨p, hp, e⟩ := hR.tight2 0 (by decide)
      have h1 := (hin 0 (by decide)).2
      rw [← e] at h1
      simp only [List.mem_cons, List.not_mem_nil, or_false] at hp
      rcases hp with rfl | rfl | rfl <;> norm_num [coord, coordsOf, gapMesh, at', gapP] at h1
    · simp only [gapMesh, List.getElem?_cons_succ, List.getElem?_cons_zero, Option.some.injEq] at hc
      subst hc
      change found binary64 (triOf gapMesh 2 3 1) gapP = true at hcomp
      rw [found_iff] at hcomp
      have h0 := hcomp 0
      have hin3 : ∀ k, In 3 (triOf gapMesh 2 3 1 k) := by
        rw [forall3, gap_tri1]
        refine ⟨⟨?_, ?_⟩, ⟨?_, ?_⟩, ?_, ?_⟩ <;> simp only [Matrix.cons_val, gapLo, gapHi] <;> norm_num [abs_le]
      have hs := area_sign binary64_rounding hin3 (gap_thick _ hcm)
      rw [zeta_eq] at h0
      have hn : num binary64 (triOf gapMesh 2 3 1) gapP 0 = (-1 / 9007199254740992) := by
        rw [gap_tri1]; exact gap_num
      rcases hs with ⟨-, hpos⟩ | ⟨hneg, -⟩
      · rw [hn, neg_div, neg_div, binary64_odd] at h0
        have := binary64_rounding.pos (x := 1 / 9007199254740992 / side3 binary64 (triOf gapMesh 2 3 1 0) (triOf gapMesh 2 3 1 1) (triOf gapMesh 2 3 1 2)) (by positivity)
        linarith
      · linarith [gap_area1.1]

end
end Gemlab.Rounded.Cells
