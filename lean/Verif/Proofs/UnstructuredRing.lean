import Verif.Proofs.Unstructured

/-! # The polygon of a quarter of a ring -/
namespace Gemlab.Unstructured
open Gemlab.Mesh Gemlab.Shapes

variable {T : Type}

/-- The point `j` of the polygon, as the code computes it: marker and coordinates. -/
noncomputable def ringPt (rmin rmax : ℝ) (nr na j : Nat) : Int × ℝ × ℝ :=
  if j = 0 then (markerA, rmin, 0)
  else if j ≤ nr then (if j = nr then markerC else 0, rmin + (j : ℝ) * ringDr rmin rmax nr, 0)
  else if j ≤ nr + na then (if j = nr + na then markerD else 0, (outerXY rmax na (j - nr)).1, (outerXY rmax na (j - nr)).2)
  else if j ≤ nr + na + nr then (if j = nr + na + nr then markerB else 0, 0, rmin + ((nr - (j - nr - na) : Nat) : ℝ) * ringDr rmin rmax nr)
  else (0, rmin * Real.cos (0 + ((na - (j - nr - na - nr) : Nat) : ℝ) * ringDa na), rmin * Real.sin (0 + ((na - (j - nr - na - nr) : Nat) : ℝ) * ringDa na))

/-- The side `j` of the polygon. -/
def ringSeg (nr na j : Nat) : Int × Nat × Nat := (ringSide nr na j, j, (j + 1) % (2 * nr + 2 * na))

/-- One pass of all loops. -/
def ringStep (lib : Trigen T) (mk : Int) (x y : ℝ) (smk : Int) (s : T × Nat) : Res (T × Nat) := do
  let t ← lib.setPoint s.1 s.2 mk x y
  let t' ← lib.setSegment t (s.2 - 1) smk (s.2 - 1) s.2
  pure (t', s.2 + 1)

/-- `p` points and `p - 1` segments are written. -/
def RingInv (view : T → TriInput) (v0 : TriInput) (rmin rmax : ℝ) (nr na : Nat) (p : Nat) (s : T × Nat) : Prop :=
  s.2 = p ∧ view s.1 = { v0 with points := filled (ringPt rmin rmax nr na) (2 * nr + 2 * na) p, segments := filled (ringSeg nr na) (2 * nr + 2 * na) (p - 1) }

theorem ringStep_ok {lib : Trigen T} {view : T → TriInput} (hl : lib.Contract view) (v0 : TriInput) (rmin rmax : ℝ) (nr na p : Nat) (s : T × Nat)
    (h : RingInv view v0 rmin rmax nr na p s) (hp0 : 0 < p) (hp : p < 2 * nr + 2 * na) (mk smk : Int) (x y : ℝ)
    (hpt : ringPt rmin rmax nr na p = (mk, x, y)) (hsd : ringSide nr na (p - 1) = smk) :
    ∃ s', ringStep lib mk x y smk s = .ok s' ∧ RingInv view v0 rmin rmax nr na (p + 1) s' := by
  obtain ⟨h1, h2⟩ := h
  obtain ⟨t, e1, v1⟩ := hl.setPoint s.1 s.2 mk x y (by rw [h2]; simp only [filled_length]; omega)
  obtain ⟨t', e2, v2⟩ := hl.setSegment t (s.2 - 1) smk (s.2 - 1) s.2 (by rw [v1, h2]; simp only [filled_length]; omega)
    (by rw [v1, h2]; simp only [List.length_set, filled_length]; omega) (by rw [v1, h2]; simp only [List.length_set, filled_length]; omega)
  refine ⟨(t', s.2 + 1), ?_, by rw [h1], ?_⟩
  · unfold ringStep
    rw [e1, Res.bind_ok, e2, Res.bind_ok]; rfl
  · rw [v2, v1, h2, h1]
    dsimp only
    rw [filled_set _ _ _ _ hpt.symm, filled_set _ _ (p - 1) _ (by
      unfold ringSeg
      rw [hsd, Nat.mod_eq_of_lt (by omega)]
      simp only [Prod.mk.injEq, true_and]
      omega)]
    have : p - 1 + 1 = p + 1 - 1 := by omega
    rw [this]

theorem ring_loop {lib : Trigen T} {view : T → TriInput} (hl : lib.Contract view) (v0 : TriInput) (rmin rmax : ℝ) (nr na p n : Nat) (s : T × Nat)
    (h : RingInv view v0 rmin rmax nr na p s) (hp0 : 0 < p) (hp : p + n ≤ 2 * nr + 2 * na) (f : T × Nat → Nat → Res (T × Nat))
    (hf : ∀ k < n, ∃ mk smk x y, (∀ s, f s k = ringStep lib mk x y smk s) ∧ ringPt rmin rmax nr na (p + k) = (mk, x, y) ∧
      ringSide nr na (p + k - 1) = smk) :
    ∃ s', (List.range n).foldlM f s = .ok s' ∧ RingInv view v0 rmin rmax nr na (p + n) s' := by
  apply Res.foldlM_range f n s (fun k s => RingInv view v0 rmin rmax nr na (p + k) s) h
  intro k s' hk hs'
  obtain ⟨mk, smk, x, y, e1, e2, e3⟩ := hf k hk
  rw [e1]
  exact ringStep_ok hl v0 rmin rmax nr na (p + k) s' hs' (by omega) (by omega) mk smk x y e2 e3

theorem ring_points (rmin rmax : ℝ) (nr na : Nat) (hnr : 1 ≤ nr) (hna : 1 ≤ na) :
    IsRingPoint rmin rmax nr na fun j => (ringPt rmin rmax nr na j).2 := by
  have hnr' : (nr : ℝ) ≠ 0 := by positivity
  have hna' : (na : ℝ) ≠ 0 := by positivity
  refine ⟨?_, ?_, ?_, ?_⟩
  · intro j hj
    unfold ringPt ringDr
    by_cases h0 : j = 0
    · subst h0; simp
    · rw [if_neg h0, if_pos hj]
  · intro j hj
    by_cases h0 : j = 0
    · subst h0
      unfold ringPt ringDr
      rw [if_neg (by omega), if_pos (by omega)]
      simp only [Nat.add_zero, Nat.cast_zero, zero_div, zero_mul, Real.cos_zero, Real.sin_zero, mul_one, mul_zero]
      rw [mul_div_cancel₀ _ hnr']
      simp
    · unfold ringPt outerXY ringDa
      rw [if_neg (by omega), if_neg (by omega), if_pos (by omega)]
      have e : nr + j - nr = j := by omega
      simp only [e]
      by_cases hj' : j = na
      · rw [if_pos hj', hj', div_self hna', one_mul, Real.cos_pi_div_two, Real.sin_pi_div_two]
        simp
      · rw [if_neg hj']
        have : (j : ℝ) / na * (Real.pi / 2) = 0 + (j : ℝ) * ((Real.pi / 2 - 0) / na) := by ring
        rw [this]
  · intro j hj
    by_cases h0 : j = 0
    · subst h0
      unfold ringPt outerXY
      rw [if_neg (by omega), if_neg (by omega), if_pos (by omega)]
      have e : nr + na + 0 - nr = na := by omega
      simp only [e, if_true]
      simp
    · unfold ringPt ringDr
      rw [if_neg (by omega), if_neg (by omega), if_neg (by omega), if_pos (by omega)]
      have e : nr + na + j - nr - na = j := by omega
      simp only [e, Nat.cast_sub hj]
      congr 1
      field_simp
      ring
  · intro j hj
    by_cases h0 : j = 0
    · subst h0
      rw [Nat.mod_eq_of_lt (by omega)]
      unfold ringPt ringDr
      rw [if_neg (by omega), if_neg (by omega), if_neg (by omega), if_pos (by omega)]
      have e : nr - (nr + na + nr + 0 - nr - na) = 0 := by omega
      simp only [e]
      simp
    · by_cases hj' : j = na
      · have : (nr + na + nr + j) % (2 * nr + 2 * na) = 0 := by
          have : nr + na + nr + j = 2 * nr + 2 * na := by omega
          rw [this, Nat.mod_self]
        rw [this]
        unfold ringPt
        rw [if_pos rfl, hj', div_self hna']
        simp
      · rw [Nat.mod_eq_of_lt (by omega)]
        unfold ringPt ringDa
        rw [if_neg (by omega), if_neg (by omega), if_neg (by omega), if_neg (by omega)]
        have e : nr + na + nr + j - nr - na - nr = j := by omega
        simp only [e, Nat.cast_sub hj]
        have : (1 - (j : ℝ) / na) * (Real.pi / 2) = 0 + ((na : ℝ) - j) * ((Real.pi / 2 - 0) / na) := by field_simp; ring
        rw [this]

theorem ringPt_marker (rmin rmax : ℝ) (nr na j : Nat) (hnr : 1 ≤ nr) (hna : 1 ≤ na) : (ringPt rmin rmax nr na j).1 = ringCorner nr na j := by
  unfold ringPt ringCorner markerA markerB markerC markerD
  by_cases h0 : j = 0
  · simp [h0]
  · rw [if_neg h0, if_neg h0]
    by_cases h1 : j ≤ nr
    · rw [if_pos h1]
      by_cases h : j = nr
      · simp [h]
      · simp only [h, if_false]
        rw [if_neg (by omega), if_neg (by omega)]
    · rw [if_neg h1, if_neg (show ¬ j = nr by omega)]
      by_cases h2 : j ≤ nr + na
      · rw [if_pos h2]
        by_cases h : j = nr + na
        · simp [h]
        · simp only [h, if_false]
          rw [if_neg (by omega)]
      · rw [if_neg h2, if_neg (show ¬ j = nr + na by omega)]
        by_cases h3 : j ≤ nr + na + nr
        · rw [if_pos h3]
        · rw [if_neg h3, if_neg (by omega)]

/-- The input of the generator for a quarter of a ring in 2D. -/
theorem ringInput2d_ok {lib : Trigen T} {view : T → TriInput} (hl : lib.Contract view) (rmin rmax : ℝ) (nr na : Nat) (hnr : 1 ≤ nr) (hna : 1 ≤ na) :
    (∃ e, lib.new (2 * nr + 2 * na) (some (2 * nr + 2 * na)) (some 1) none = .err e ∧ ringInput2d lib rmin rmax nr na = .err e) ∨
    ∃ t, ringInput2d lib rmin rmax nr na = .ok t ∧ IsRing2d rmin rmax nr na (view t) := by
  have hn : 2 * (nr + 1) + 2 * (na - 1) = 2 * nr + 2 * na := by omega
  unfold ringInput2d
  simp only [hn]
  cases hnew : lib.new (2 * nr + 2 * na) (some (2 * nr + 2 * na)) (some 1) none with
  | panic => exact absurd hnew (hl.newNoPanic _ _ _ _)
  | err e => exact Or.inl ⟨e, rfl, rfl⟩
  | ok t0 =>
    right
    rw [Res.bind_ok]
    have hv0 := hl.new _ _ _ _ _ hnew
    simp only [Option.getD_some, Option.getD_none, List.replicate_zero] at hv0
    obtain ⟨t1, e1, v1⟩ := hl.setPoint t0 0 markerA rmin 0 (by rw [hv0]; simp; omega)
    rw [e1, Res.bind_ok]
    have i1 : RingInv view ⟨[], [], List.replicate 1 none, []⟩ rmin rmax nr na 1 (t1, 1) := by
      refine ⟨rfl, ?_⟩
      rw [v1, hv0]
      dsimp only
      rw [← filled_zero (ringPt rmin rmax nr na), ← filled_zero (ringSeg nr na), filled_set _ _ 0 _ (by unfold ringPt; rw [if_pos rfl])]
    obtain ⟨s2, e2, i2⟩ := ring_loop hl _ rmin rmax nr na 1 nr (t1, 1) i1 (by omega) (by omega) (ringBottom lib rmin rmax nr) (by
      intro k hk
      refine ⟨_, _, _, _, fun s => rfl, ?_, ?_⟩
      · unfold ringPt
        rw [if_neg (by omega), if_pos (by omega), Nat.add_comm 1 k]
      · unfold ringSide markerSymX
        rw [if_pos (by omega)])
    rw [e2, Res.bind_ok]
    obtain ⟨s3, e3, i3⟩ := ring_loop hl _ rmin rmax nr na (1 + nr) na s2 i2 (by omega) (by omega) (ringOuter lib rmax na) (by
      intro k hk
      refine ⟨_, _, _, _, fun s => rfl, ?_, ?_⟩
      · unfold ringPt
        rw [if_neg (by omega), if_neg (by omega), if_pos (by omega)]
        have e : 1 + nr + k - nr = k + 1 := by omega
        rw [e]
        congr 1
        by_cases h : k + 1 = na
        · rw [if_pos h, if_pos (by omega)]
        · rw [if_neg h, if_neg (by omega)]
      · unfold ringSide markerOuter
        rw [if_neg (by omega), if_pos (by omega)])
    rw [e3, Res.bind_ok]
    obtain ⟨s4, e4, i4⟩ := ring_loop hl _ rmin rmax nr na (1 + nr + na) nr s3 i3 (by omega) (by omega) (ringLeft lib rmin rmax nr) (by
      intro k hk
      refine ⟨_, _, _, _, fun s => rfl, ?_, ?_⟩
      · unfold ringPt
        rw [if_neg (by omega), if_neg (by omega), if_neg (by omega), if_pos (by omega)]
        have e : 1 + nr + na + k - nr - na = k + 1 := by omega
        rw [e]
        congr 1
        by_cases h : k + 1 = nr
        · rw [if_pos h, if_pos (by omega)]
        · rw [if_neg h, if_neg (by omega)]
      · unfold ringSide markerSymY
        rw [if_neg (by omega), if_neg (by omega), if_pos (by omega)])
    rw [e4, Res.bind_ok]
    obtain ⟨s5, e5, i5⟩ := ring_loop hl _ rmin rmax nr na (1 + nr + na + nr) (na - 1) s4 i4 (by omega) (by omega) (ringInner lib rmin na) (by
      intro k hk
      refine ⟨_, _, _, _, fun s => rfl, ?_, ?_⟩
      · unfold ringPt
        rw [if_neg (by omega), if_neg (by omega), if_neg (by omega), if_neg (by omega)]
        have e : 1 + nr + na + nr + k - nr - na - nr = k + 1 := by omega
        rw [e]
      · unfold ringSide markerInner
        rw [if_neg (by omega), if_neg (by omega), if_neg (by omega)])
    rw [e5, Res.bind_ok]
    have hp : 1 + nr + na + nr + (na - 1) = 2 * nr + 2 * na := by omega
    rw [hp] at i5
    obtain ⟨hs5, hv5⟩ := i5
    obtain ⟨t6, e6, v6⟩ := hl.setSegment s5.1 (s5.2 - 1) markerInner (s5.2 - 1) 0 (by rw [hv5, hs5]; simp only [filled_length]; omega)
      (by rw [hv5, hs5]; simp only [filled_length]; omega) (by rw [hv5]; simp only [filled_length]; omega)
    rw [e6, Res.bind_ok]
    obtain ⟨t7, e7, v7⟩ := hl.setRegion t6 0 1 (rmin + seedGap) seedGap none (by rw [v6, hv5]; simp)
    refine ⟨t7, e7, ?_⟩
    rw [v7, v6, hv5, hs5]
    refine ⟨⟨_, ring_points rmin rmax nr na hnr hna, ?_⟩, ?_, ?_, rfl⟩
    · dsimp only
      rw [filled_all]
      apply List.map_congr_left
      intro j _
      rw [← ringPt_marker rmin rmax nr na j hnr hna]
    · dsimp only
      rw [filled_set _ _ _ _ (by
        unfold ringSeg ringSide markerInner
        rw [if_neg (by omega), if_neg (by omega), if_neg (by omega)]
        have : 2 * nr + 2 * na - 1 + 1 = 2 * nr + 2 * na := by omega
        rw [this, Nat.mod_self])]
      have : 2 * nr + 2 * na - 1 + 1 = 2 * nr + 2 * na := by omega
      rw [this, filled_all]
      rfl
    · dsimp only
      unfold seedGap
      rfl

end Gemlab.Unstructured
