import Verif.Props.RoundedCells2

/-!
# C95: a node of the mesh outside the grid (double precision, no border)
-/
namespace Gemlab.Rounded.Cells
noncomputable section
open Classical
open Gemlab.Mesh
open Gemlab.GridCells (IsBox coord ptsOf largestOf largestOf_ge largestOf_attained forall2_get at'_map_range one_le_f64Max)

/-- The upper limit of the mesh. -/
def farX : ℝ := 8725724278030337 / 2 ^ 50

/-- The tolerance; 1 + 2 `farTol` is the side of the containers. -/
def farTol : ℝ := 2476979795053773 / 2 ^ 53

/-- Two triangles. -/
def farMesh : Mesh ℝ :=
  { ndim := 2
    points := [⟨0, 0, [0, 0]⟩, ⟨1, 0, [1, 0]⟩, ⟨2, 0, [0, 1]⟩, ⟨3, 0, [farX - 1, 0]⟩, ⟨4, 0, [farX, 0]⟩, ⟨5, 0, [farX, 1]⟩]
    cells := [⟨0, 1, .tri3, [0, 1, 2]⟩, ⟨1, 1, .tri3, [3, 4, 5]⟩]
    markedEdges := [], markedFaces := [] }

theorem ten_le_f64Max : (10 : ℝ) ≤ f64Max := by
  unfold f64Max
  have h1 : (16 : ℝ) ≤ 2 ^ 1023 := by
    calc (16 : ℝ) = 2 ^ 4 := by norm_num
      _ ≤ 2 ^ 1023 := pow_le_pow_right₀ (by norm_num) (by norm_num)
  have h2 : (3 / 2 : ℝ) ≤ 2 - 1 / 2 ^ 52 := by norm_num
  calc (10 : ℝ) ≤ 3 / 2 * 16 := by norm_num
    _ ≤ _ := mul_le_mul h2 h1 (by norm_num) (by norm_num)

theorem far_bounds : 7 < farX ∧ farX < 8 := by constructor <;> norm_num [farX]

theorem far_pts : ptsOf farMesh.cells = [0, 1, 2, 3, 4, 5] := rfl

theorem far_coord : coord farMesh 0 0 = 0 ∧ coord farMesh 1 0 = 1 ∧ coord farMesh 2 0 = 0 ∧ coord farMesh 3 0 = farX - 1 ∧ coord farMesh 4 0 = farX ∧ coord farMesh 5 0 = farX ∧
    coord farMesh 0 1 = 0 ∧ coord farMesh 1 1 = 0 ∧ coord farMesh 2 1 = 1 ∧ coord farMesh 3 1 = 0 ∧ coord farMesh 4 1 = 0 ∧ coord farMesh 5 1 = 1 :=
  ⟨rfl, rfl, rfl, rfl, rfl, rfl, rfl, rfl, rfl, rfl, rfl, rfl⟩

/-- **C95 (no border).** In double precision with `border_tol = 0`, `search` may reject a node of the mesh as being outside the grid, because the upper limit of the grid,
the product of the number of containers and their side, is rounded. -/
theorem C95_border_zero (iter : List Nat → List Nat) : ∃ g, new binary64 farMesh (some farTol) (some 0) none none = .ok g ∧
    g.mesh = farMesh ∧ (∃ e, search binary64 iter g [0, 0, 0, 0] (coordsOf farMesh 4) = .err e) := by
  obtain ⟨b1, b2⟩ := far_bounds
  have R := binary64_rounding
  have big := ten_le_f64Max
  obtain ⟨a0, a1, a2, a3, a4, a5, c0, c1, c2, c3, c4, c5⟩ := far_coord
  have hv : ValidMesh farMesh := ValidMesh.of_check (by decide +kernel) (by simp [farMesh])
  obtain ⟨s, hs, inv⟩ := scan_ok (fl := binary64) hv
  have hnd : farMesh.ndim = 2 := rfl
  have lim := inv.lim
  have emin0 : at' s.xmin 0 = 0 := by
    have h1 := (lim.mem 0 (by decide) 0 (by simp [far_pts])).1
    rcases lim.tight1 0 (by decide) with e | ⟨p, hp, e⟩
    · rw [a0] at h1; linarith
    · simp only [far_pts, List.mem_cons, List.not_mem_nil, or_false] at hp
      rcases hp with rfl | rfl | rfl | rfl | rfl | rfl <;> linarith
  have emin1 : at' s.xmin 1 = 0 := by
    have h1 := (lim.mem 1 (by decide) 0 (by simp [far_pts])).1
    rcases lim.tight1 1 (by decide) with e | ⟨p, hp, e⟩
    · linarith
    · simp only [far_pts, List.mem_cons, List.not_mem_nil, or_false] at hp
      rcases hp with rfl | rfl | rfl | rfl | rfl | rfl <;> linarith
  have emax0 : at' s.xmax 0 = farX := by
    have h1 := (lim.mem 0 (by decide) 4 (by simp [far_pts])).2
    rcases lim.tight2 0 (by decide) with e | ⟨p, hp, e⟩
    · linarith
    · simp only [far_pts, List.mem_cons, List.not_mem_nil, or_false] at hp
      rcases hp with rfl | rfl | rfl | rfl | rfl | rfl <;> linarith
  have emax1 : at' s.xmax 1 = 1 := by
    have h1 := (lim.mem 1 (by decide) 5 (by simp [far_pts])).2
    rcases lim.tight2 1 (by decide) with e | ⟨p, hp, e⟩
    · linarith
    · simp only [far_pts, List.mem_cons, List.not_mem_nil, or_false] at hp
      rcases hp with rfl | rfl | rfl | rfl | rfl | rfl <;> linarith
  have fone : binary64 (1 : ℝ) = 1 := b64_exact 1 0 (by norm_num) (by norm_num) (by norm_num)
  -- all bounding boxes have sides of length 1
  have hext : ∀ b ∈ s.boxes, ∀ i < 2, extent binary64 b i = 1 := by
    intro b hb i hi
    obtain ⟨k, hk, hke⟩ := List.mem_iff_getElem.mp hb
    obtain ⟨c, hck, hB⟩ := forall2_get inv.boxes (show s.boxes[k]? = some b by rw [List.getElem?_eq_getElem hk, hke])
    have key : at' b.2 i - at' b.1 i = 1 := by
      have hc := List.mem_of_getElem? hck
      obtain ⟨p, hp, e1⟩ := hB.tight1 i (by rw [hnd]; exact hi)
      obtain ⟨q, hq, e2⟩ := hB.tight2 i (by rw [hnd]; exact hi)
      have hm := hB.mem i (by rw [hnd]; exact hi)
      simp only [farMesh, List.mem_cons, List.not_mem_nil, or_false] at hc
      rcases hc with rfl | rfl <;> simp only [List.mem_cons, List.not_mem_nil, or_false] at hp hq <;>
        simp only [List.forall_mem_cons, List.not_mem_nil, false_imp_iff, implies_true, and_true] at hm <;>
        obtain ⟨⟨h1, h2⟩, ⟨h3, h4⟩, h5, h6⟩ := hm <;>
        interval_cases i <;> rcases hp with rfl | rfl | rfl <;> rcases hq with rfl | rfl | rfl <;> linarith
    unfold extent
    rw [key, fone]
  have hlen : s.boxes.length = 2 := inv.boxes.length_eq.symm
  have hbox : s.boxes[0] ∈ s.boxes := List.getElem_mem _
  have hL : largestOf 2 (at' s.largest) = 1 := by
    apply le_antisymm
    · obtain ⟨i, hi, e⟩ := largestOf_attained (ndim := 2) (by norm_num) (at' s.largest)
      rw [e]
      rcases inv.attained i (by rw [hnd]; exact hi) with e | ⟨b, hb, e⟩
      · linarith
      · rw [← e, hext b hb i hi]
    · have h1 := inv.largest _ hbox 0 (by decide)
      rw [hext _ hbox 0 (by norm_num)] at h1
      exact h1.trans (largestOf_ge (ndim := 2) (at' s.largest) (by norm_num))
  have f34 : binary64 (3 / 4 : ℝ) = 3 / 4 := b64_exact 3 2 (by norm_num) (by norm_num) (by norm_num)
  have f2 : binary64 (2 : ℝ) = 2 := b64_exact 2 0 (by norm_num) (by norm_num) (by norm_num)
  have f15 : binary64 (1 / 5 : ℝ) < 1 := by
    have := R.upper (x := 1 / 5) (by norm_num)
    have e : (2 : ℝ) ^ (-53 : ℤ) = 1 / 9007199254740992 := by norm_num
    rw [e] at this; linarith
  have f15' : 0 ≤ binary64 (1 / 5 : ℝ) := R.nonneg (by norm_num)
  have sp := splitLarge_spec (fl := binary64) 2 s.boxes (3 / 4)
  have hall : (splitLarge binary64 2 s.boxes (3 / 4)).1.length = 2 := by
    refine (sp.all.mp fun b hb => ?_).trans hlen
    have h1 := largestOf_ge (ndim := 2) (extent binary64 b) (i := 0) (by norm_num)
    rw [hext b hb 0 (by norm_num)] at h1
    unfold IsLarge
    linarith
  have ht : 0 < farTol := by norm_num [farTol]
  have f2t : binary64 (2 * farTol) = 2476979795053773 / 2 ^ 52 := b64_exact 2476979795053773 52 (by norm_num) (by norm_num [farTol]) (by norm_num)
  have fside : binary64 (1 + 2476979795053773 / 2 ^ 52) = 6980579422424269 / 2 ^ 52 :=
    b64_exact 6980579422424269 52 (by norm_num) (by norm_num) (by norm_num)
  have fD : binary64 farX = farX := b64_exact 8725724278030337 50 (by norm_num) (by norm_num [farX]) (by norm_num [farX])
  have fdiv : binary64 (farX / (6980579422424269 / 2 ^ 52)) = 5 :=
    b64_round 5629499534213120 50 (by norm_num) (by norm_num [farX]) (by norm_num [farX]) (by norm_num)
  have f5 : binary64 (5 : ℝ) = 5 := b64_exact 5 0 (by norm_num) (by norm_num) (by norm_num)
  have fmul : binary64 (6980579422424269 / 2 ^ 52 * 5) = 8725724278030336 / 2 ^ 50 :=
    b64_round 8725724278030336 50 (by norm_num) (by norm_num) (by norm_num) (by norm_num)
  have fmax : binary64 (8725724278030336 / 2 ^ 50) = 8725724278030336 / 2 ^ 50 := b64_exact 8725724278030336 50 (by norm_num) (by norm_num) (by norm_num)
  have hnew : ∃ g, new binary64 farMesh (some farTol) (some 0) none none = .ok g ∧ g.mesh = farMesh ∧ at' g.xmax 0 = 8725724278030336 / 2 ^ 50 := by
    unfold new
    dsimp only
    simp only [Option.getD_some, Option.getD_none]
    rw [if_neg (by linarith), if_neg (lt_irrefl _), if_neg (by rw [f34]; rintro (h | h) <;> norm_num at h), if_neg (by rintro (h | h) <;> linarith), hs, Res.bind_ok]
    rw [hnd, hL, f34, mul_one, f34, hall]
    rw [show (farMesh.cells.length) = 2 from rfl]
    have e1 : binary64 (binary64 ((2 : Nat) : ℝ) / binary64 ((2 : Nat) : ℝ)) = 1 := by
      rw [Nat.cast_ofNat, f2, div_self (by norm_num), fone]
    have hn1 : ¬ ((1 : ℝ) ≤ binary64 (1 / 5)) := by linarith
    have h00 : ¬ ((0 : ℝ) > 0) := lt_irrefl _
    rw [e1]
    simp only [if_neg hn1, if_neg h00, f2t, fside]
    rw [if_neg (by
      rintro ⟨i, hi, hn⟩
      interval_cases i
      · rw [emax0, emin0] at hn; exact hn (by linarith)
      · rw [emax1, emin1] at hn; exact hn (by norm_num))]
    refine ⟨_, rfl, rfl, ?_⟩
    dsimp only
    rw [at'_map_range _ _ _ (by norm_num), emin0]
    have e2 : ((List.range 2).map fun i => ⌈binary64 (binary64 (at' s.xmax i - at' s.xmin i) / (6980579422424269 / 2 ^ 52))⌉₊).getD 0 0 = 5 := by
      change ⌈binary64 (binary64 (at' s.xmax 0 - at' s.xmin 0) / (6980579422424269 / 2 ^ 52))⌉₊ = 5
      rw [emax0, emin0, sub_zero, fD, fdiv]
      exact Nat.ceil_ofNat 5
    rw [e2, Nat.cast_ofNat, f5, fmul, zero_add, fmax]
  obtain ⟨g, hg, hm, hx⟩ := hnew
  refine ⟨g, hg, hm, ?_⟩
  unfold search
  rw [if_neg (by simp), hm, if_neg (by simp [farMesh, coordsOf]), if_pos ⟨0, by decide, Or.inr (by
    rw [hx]
    change _ < farX
    norm_num [farX])⟩]
  exact ⟨_, rfl⟩

end
end Gemlab.Rounded.Cells
