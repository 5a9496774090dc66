import Verif.Proofs.Patch
import Verif.Props.Block3
import Verif.Props.Block5
import Mathlib.Algebra.BigOperators.Field

/-!
# Quarter rings (`Structured::quarter_ring_2d`, `Structured::quarter_ring_3d`)
-/
namespace Gemlab.Structured
noncomputable section
open Gemlab.Mesh Gemlab.Shapes Gemlab.Block

variable {inv : MatInverse} {o : GenOrders} {target : GeoKind}

theorem foldl_add_sum (w : List ℝ) : w.foldl (fun acc v => acc + v) 0 = w.sum := (List.sum_eq_foldl (xs := w)).symm

theorem sum_take_at' (w : List ℝ) (i : Nat) : ∑ l ∈ Finset.range i, at' w l = (w.take i).sum := by
  induction i with
  | zero => simp
  | succ i ih =>
    rw [Finset.sum_range_succ, ih]
    by_cases h : i < w.length
    · rw [List.take_succ_eq_append_getElem h]
      simp [at', h]
    · have h : w.length ≤ i := by omega
      rw [List.take_of_length_le h, List.take_of_length_le (by omega)]
      simp [at', h]

theorem at'_proportional (w : List ℝ) (l : Nat) : at' (proportional w) l = 2 * at' w l / w.sum := by
  unfold at' proportional
  by_cases h : l < w.length
  · simp [h]
  · simp [show w.length ≤ l by omega]

/-- The ticks of a direction with weights. -/
theorem left_weights {b : Block} {a : Nat} {w : List ℝ} (h : b.deltaKsi.getD a [] = proportional w) (i : Nat) :
    (left b a i + 1) / 2 = weightTicks w i := by
  have : ∑ l ∈ Finset.range i, del b a l = 2 * (w.take i).sum / w.sum := by
    rw [← sum_take_at', Finset.mul_sum, Finset.sum_div]
    exact Finset.sum_congr rfl fun l _ => by unfold del; rw [h, at'_proportional]
  unfold left weightTicks
  rw [this]
  ring

theorem weightTicks_replicate {n i : Nat} (hi : i ≤ n) : weightTicks (List.replicate n 1) i = evenTicks n i := by
  unfold weightTicks evenTicks
  simp [hi]

theorem fine_weights {w : List ℝ} (hs : 1 ≤ w.sum) (hw : WeightsOk w) {i : Nat} (hi : i < w.length) : 7 / 10 ^ 4 < at' (proportional w) i := by
  rw [at'_proportional]
  have : at' w i = w[i] := by simp [at', hi]
  have h := hw _ (List.getElem_mem hi)
  rw [this, lt_div_iff₀ (by linarith)]
  norm_num at h ⊢
  linarith

theorem weightsOk_replicate {n : Nat} (hn : 1 ≤ n) (h : CountOk n) : WeightsOk (List.replicate n 1) := by
  intro v hv
  obtain ⟨-, rfl⟩ := List.mem_replicate.1 hv
  have : (n : ℝ) ≤ 2856 := by exact_mod_cast Nat.le_of_lt_succ h
  simp
  linarith

theorem sum_replicate_one (n : Nat) : (List.replicate n (1 : ℝ)).sum = n := by simp

theorem applied_ok {r : Block × Res Unit} {b : Block} (h : r = (b, .ok ())) : applied r = .ok b := by rw [h]; rfl
theorem applied_err {r : Block × Res Unit} {b : Block} {e : String} (h : r = (b, .err e)) : applied r = .err e := by rw [h]; rfl

/-- The block of the ring, before the subdivision. -/
theorem ring_block {b0 : Block} {nrow ndim : Nat} {at_ : Nat → Nat → ℝ} (hd : ndim = 2 ∨ ndim = 3) (hb : Block.new inv nrow ndim at_ = .ok b0) {wr : List ℝ} {na nz : Nat} {b1 b2 : Block}
    (hwr : wr ≠ []) (hs : 1 ≤ wr.sum) (hna : 1 ≤ na) (hnz : 1 ≤ nz) (hw : WeightsOk wr) (hca : CountOk na) (hcz : CountOk nz)
    (h1 : b1 = { b0 with ndiv := [wr.length, na, nz].take ndim, deltaKsi := [proportional wr, proportional (List.replicate na 1), proportional (List.replicate nz 1)].take ndim })
    {A : ArgsRing} (h2 : b2 = { b1 with argsRing := A, transformIntoRing := true })
    (hr : Block.Reached inv nrow ndim at_ b2) (ht : target.classOf = if ndim = 2 then .qua else .hex) (ho : o.Valid) (renumber : Bool)
    {place : List ℝ → List ℝ} (hplace : ∀ ξ : List ℝ, ξ.length = ndim → ringMap b2 ξ = place (ξ.map fun x => (x + 1) / 2)) (hnz2 : ndim = 2 → nz = 1) :
    ∃ M M', cut o target 0 b2 = .ok M ∧ finish renumber M = .ok M' ∧
      IsPatch ndim target (Box (ringDivs wr na nz)) (ringTicks wr na nz) place (fun _ _ _ => 1) (rowMajor (ringDivs wr na nz)) M' ∧
      M'.markedEdges = [] ∧ M'.markedFaces = [] := by
  obtain ⟨i1, i2, -, i4, i5, i6, -, -⟩ := C54_initial hb
  have hnd : b2.ndim = ndim := by rw [h2, h1]; exact i2
  have hmk : b2.marker = 1 := by rw [h2, h1]; exact i1
  have hdelta : ∀ a < ndim, b2.deltaKsi.getD a [] = proportional (if a = 0 then wr else if a = 1 then List.replicate na 1 else List.replicate nz 1) := by
    intro a ha
    have : b2.deltaKsi = [proportional wr, proportional (List.replicate na 1), proportional (List.replicate nz 1)].take ndim := by rw [h2, h1]
    rw [this]
    rcases hd with rfl | rfl
    · rcases (by omega : a = 0 ∨ a = 1) with rfl | rfl <;> rfl
    · rcases (by omega : a = 0 ∨ a = 1 ∨ a = 2) with rfl | rfl | rfl <;> rfl
  have hndiv : ∀ a < 3, ndivAt b2 a = ringDivs wr na nz a := by
    intro a ha
    have : b2.ndiv = [wr.length, na, nz].take ndim := by rw [h2, h1]
    unfold ndivAt
    rw [hnd, this]
    rcases hd with rfl | rfl
    · rcases (by omega : a = 0 ∨ a = 1 ∨ a = 2) with rfl | rfl | rfl
      · rfl
      · rfl
      · rw [if_neg (by omega), hnz2 rfl]; rfl
    · rcases (by omega : a = 0 ∨ a = 1 ∨ a = 2) with rfl | rfl | rfl <;> rfl
  have hn : ∀ i j k, InGrid b2 i j k ↔ Box (ringDivs wr na nz) i j k := by
    intro i j k
    unfold InGrid Box
    rw [hndiv 0 (by omega), hndiv 1 (by omega), hndiv 2 (by omega)]
  have hfine : NotTooFine b2 := by
    intro a ha i hi
    rw [hnd] at ha
    have ha3 : a < 3 := by rcases hd with rfl | rfl <;> omega
    rw [hndiv a ha3] at hi
    unfold del
    rw [hdelta a ha]
    rcases (by omega : a = 0 ∨ a = 1 ∨ a = 2) with rfl | rfl | rfl
    · exact fine_weights hs hw hi
    · refine fine_weights ?_ (weightsOk_replicate hna hca) (by simpa [ringDivs] using hi)
      simpa using hna
    · refine fine_weights ?_ (weightsOk_replicate hnz hcz) (by simpa [ringDivs] using hi)
      simpa using hnz
  have htarget : TargetOk b2 target := by unfold TargetOk; rw [hnd]; exact ht
  have hno : ∀ s, constraintOf b2 s = none := by rw [h2, h1]; exact i4
  have hring : b2.transformIntoRing = true := by rw [h2]
  obtain ⟨M, m1, m2, m3⟩ := C56_unconstrained hr hfine htarget (ho.grid 0) (ho.constrained 0) hno
  have hmarked := C57_marked hr hfine htarget (ho.grid 0) (ho.constrained 0) m1
  obtain ⟨M', f1, f2, f3, f4⟩ := finish_block hr hfine htarget m2 (place := place) (by
    intro i j k m hg hm
    rw [m3 i j k m hg hm, if_pos hring]
    exact hplace _ (by rw [length_nodePos, hnd])) renumber
  refine ⟨M, M', m1, f1, ?_, ?_, ?_⟩
  · have hcell : ∀ i j k, cellNum b2 i j k = rowMajor (ringDivs wr na nz) i j k := by
      intro i j k
      unfold cellNum rowMajor
      rw [hndiv 0 (by omega), hndiv 1 (by omega)]
    have e1 : Box (ndivAt b2) = Box (ringDivs wr na nz) := by
      funext i j k; exact propext (hn i j k)
    have e2 : rowMajor (ndivAt b2) = rowMajor (ringDivs wr na nz) := by
      funext i j k; exact hcell i j k
    rw [e1, e2, hnd, hmk] at f2
    refine f2.congr ?_ (fun _ _ _ _ _ _ => rfl)
    intro i j k hb a ha
    have ha3 : a < 3 := by rcases hd with rfl | rfl <;> omega
    have hlt := pick_lt hb ha3
    beta_reduce
    rw [left_weights (hdelta a ha), left_weights (hdelta a ha)]
    rcases (by omega : a = 0 ∨ a = 1 ∨ a = 2) with rfl | rfl | rfl
    · exact ⟨rfl, rfl⟩
    · have hlt : pick i j k 1 < na := hlt
      exact ⟨weightTicks_replicate (by omega), weightTicks_replicate (by omega)⟩
    · have hlt : pick i j k 2 < nz := hlt
      exact ⟨weightTicks_replicate (by omega), weightTicks_replicate (by omega)⟩
  · rw [f3, List.eq_nil_iff_forall_not_mem]
    rintro ⟨mk, p, q⟩ hmem
    obtain ⟨e, i, j, k, ε, he, -⟩ := (hmarked.edges mk p q).1 hmem
    rw [h2, h1] at he
    exact absurd ((i5 e).symm.trans he) (by simp)
  · rw [f4, List.eq_nil_iff_forall_not_mem]
    rintro ⟨mk, key⟩ hmem
    obtain ⟨-, f, i, j, k, φ, hf, -⟩ := (hmarked.faces mk key).1 hmem
    rw [h2, h1] at hf
    exact absurd ((i6 f).symm.trans hf) (by simp)

theorem map_half_getD (ξ : List ℝ) {a : Nat} (ha : a < ξ.length) : (ξ.map fun x => (x + 1) / 2).getD a 0 = (ξ.getD a 0 + 1) / 2 := by
  simp [ha]

theorem ring_target {nrow ndim : Nat} {at_ : Nat → Nat → ℝ} {b : Block} (h : Block.Reached inv nrow ndim at_ b) {i : Nat}
    (ht : ¬ target.classOf = if ndim = 2 then .qua else .hex) : ∃ e, cut o target i b = .err e := by
  refine C55_wrong_kind h ?_
  unfold TargetOk
  rw [(C41_partition h).1]
  exact ht

/-- **C64** (2D). The quarter ring is made exactly if there are weights with a sum of at least one, at least one division along the angle,
`rmin < rmax`, and the cells are quadrilaterals; otherwise there is an error (nothing panics). The mesh has one cell for each pair of
divisions, numbered along the radius first, all with the marker 1; the nodes are at the right radius (proportional to the weights) and
angle (equal divisions of the right angle); the cells fit together; there are no other points and no marked edges. This is so also if
the points are renumbered. -/
theorem C64_ring_2d (hinv : InverseSpec inv) (hnp : ∀ n a, inv n a ≠ .panic) (hall : ∀ n a, detN n a ≠ 0 → ∃ r, inv n a = .ok r) (ho : o.Valid)
    (rmin rmax : ℝ) (wr : List ℝ) (na : Nat) (target : GeoKind) (renumber : Bool) :
    (¬ (wr ≠ [] ∧ 1 ≤ wr.sum ∧ 1 ≤ na ∧ rmin < rmax ∧ target.classOf = .qua) → ∃ e, quarterRing2d inv o rmin rmax wr na target renumber = .err e) ∧
    (wr ≠ [] → 1 ≤ wr.sum → 1 ≤ na → rmin < rmax → target.classOf = .qua → WeightsOk wr → CountOk na →
      ∃ M, quarterRing2d inv o rmin rmax wr na target renumber = .ok M ∧
        IsPatch 2 target (Box (ringDivs wr na 1)) (ringTicks wr na 1) (polar rmin rmax) (fun _ _ _ => 1) (rowMajor (ringDivs wr na 1)) M ∧
        M.markedEdges = [] ∧ M.markedFaces = []) := by
  obtain ⟨at_, b0, hb, hsq, -⟩ := (C54_square hinv hnp hall 1).2 one_ne_zero
  have hr0 : Block.Reached inv 4 2 at_ b0 := .new hb
  have pi : 0 < Real.pi / 2 := by have := Real.pi_pos; linarith
  have start : ∀ (h1 : wr ≠ []) (h2 : 1 ≤ wr.sum) (h3 : 1 ≤ na), quarterRing2d inv o rmin rmax wr na target renumber =
      ((applied (setTransformIntoRing { b0 with ndiv := [wr.length, na], deltaKsi := [proportional wr, proportional (List.replicate na 1)] }
        (some { amin := 0, amax := Real.pi / 2, rmin := rmin, rmax := rmax, zmin := 0, zmax := 1 }))) >>= fun b => cut o target 0 b >>= fun mesh => finish renumber mesh) := by
    intro h1 h2 h3
    unfold quarterRing2d
    have hl : 0 < wr.length := List.length_pos_iff.2 h1
    rw [if_neg (by omega), if_neg (by rw [foldl_add_sum]; linarith), if_neg (by omega), hsq]
    have hw := (C41_weights_2d hr0 wr (List.replicate na 1)).1 ⟨rfl, h1, by simp; omega, h2, by simpa using h3⟩
    rw [List.length_replicate] at hw
    rw [Res.bind_ok, applied_ok hw]
    rfl
  constructor
  · intro hbad
    by_cases h1 : wr = []
    · subst h1; exact ⟨_, rfl⟩
    have hl : 0 < wr.length := List.length_pos_iff.2 h1
    by_cases h2 : 1 ≤ wr.sum
    swap
    · unfold quarterRing2d
      rw [if_neg (by omega), if_pos (by rw [foldl_add_sum]; linarith)]
      exact ⟨_, rfl⟩
    by_cases h3 : 1 ≤ na
    swap
    · unfold quarterRing2d
      rw [if_neg (by omega), if_neg (by rw [foldl_add_sum]; linarith), if_pos (by omega)]
      exact ⟨_, rfl⟩
    rw [start h1 h2 h3]
    by_cases h4 : rmin < rmax
    swap
    · obtain ⟨e, he⟩ := (C56_set_ring { b0 with ndiv := [wr.length, na], deltaKsi := [proportional wr, proportional (List.replicate na 1)] }
        { amin := 0, amax := Real.pi / 2, rmin := rmin, rmax := rmax, zmin := 0, zmax := 1 }).2.1 (fun h => h4 h.2.1)
      rw [applied_err he]
      exact ⟨_, rfl⟩
    have hset := (C56_set_ring { b0 with ndiv := [wr.length, na], deltaKsi := [proportional wr, proportional (List.replicate na 1)] }
        { amin := 0, amax := Real.pi / 2, rmin := rmin, rmax := rmax, zmin := 0, zmax := 1 }).1 ⟨pi, h4, one_pos, le_rfl, le_rfl⟩
    rw [applied_ok hset]
    have hw := (C41_weights_2d hr0 wr (List.replicate na 1)).1 ⟨rfl, h1, by simp; omega, h2, by simpa using h3⟩
    rw [List.length_replicate] at hw
    have hr1 := Reached.weights2d wr (List.replicate na 1) hr0
    rw [hw] at hr1
    have hr2 := Reached.ring (some { amin := 0, amax := Real.pi / 2, rmin := rmin, rmax := rmax, zmin := 0, zmax := 1 }) hr1
    rw [hset] at hr2
    obtain ⟨e, he⟩ := ring_target (o := o) (i := 0) hr2 (target := target) (fun h => hbad ⟨h1, h2, h3, h4, h⟩)
    exact ⟨e, by rw [Res.bind_ok, he]; rfl⟩
  · intro h1 h2 h3 h4 h5 h6 h7
    have hset := (C56_set_ring { b0 with ndiv := [wr.length, na], deltaKsi := [proportional wr, proportional (List.replicate na 1)] }
        { amin := 0, amax := Real.pi / 2, rmin := rmin, rmax := rmax, zmin := 0, zmax := 1 }).1 ⟨pi, h4, one_pos, le_rfl, le_rfl⟩
    have hw := (C41_weights_2d hr0 wr (List.replicate na 1)).1 ⟨rfl, h1, by simp; omega, h2, by simpa using h3⟩
    rw [List.length_replicate] at hw
    have hr1 := Reached.weights2d wr (List.replicate na 1) hr0
    rw [hw] at hr1
    have hr2 := Reached.ring (some { amin := 0, amax := Real.pi / 2, rmin := rmin, rmax := rmax, zmin := 0, zmax := 1 }) hr1
    rw [hset] at hr2
    obtain ⟨M, M', m1, m2, m3, m4, m5⟩ := ring_block (target := target) (o := o) (nz := 1) (Or.inl rfl) hb h1 h2 h3 le_rfl h6 h7 (by unfold CountOk; omega) rfl rfl hr2 h5 ho renumber
      (place := polar rmin rmax) (by
        intro ξ hξ
        have e : b0.ndim = 2 := (C54_initial hb).2.1
        unfold ringMap polar
        simp only [e]
        rw [map_half_getD ξ (by omega), map_half_getD ξ (by omega), if_pos trivial]
        simp) (fun _ => rfl)
    refine ⟨M', ?_, m3, m4, m5⟩
    rw [start h1 h2 h3, applied_ok hset, Res.bind_ok]
    exact (congrArg (fun r => r >>= fun mesh => finish renumber mesh) m1).trans m2

/-- **C64** (3D). The same, with the height `z`, divided into `nz` equal parts. -/
theorem C64_ring_3d (hinv : InverseSpec inv) (hnp : ∀ n a, inv n a ≠ .panic) (hall : ∀ n a, detN n a ≠ 0 → ∃ r, inv n a = .ok r) (ho : o.Valid)
    (rmin rmax z : ℝ) (wr : List ℝ) (na nz : Nat) (target : GeoKind) (renumber : Bool) :
    (¬ (wr ≠ [] ∧ 1 ≤ wr.sum ∧ 1 ≤ na ∧ 1 ≤ nz ∧ rmin < rmax ∧ 0 < z ∧ target.classOf = .hex) → ∃ e, quarterRing3d inv o rmin rmax z wr na nz target renumber = .err e) ∧
    (wr ≠ [] → 1 ≤ wr.sum → 1 ≤ na → 1 ≤ nz → rmin < rmax → 0 < z → target.classOf = .hex → WeightsOk wr → CountOk na → CountOk nz →
      ∃ M, quarterRing3d inv o rmin rmax z wr na nz target renumber = .ok M ∧
        IsPatch 3 target (Box (ringDivs wr na nz)) (ringTicks wr na nz) (cylindrical rmin rmax z) (fun _ _ _ => 1) (rowMajor (ringDivs wr na nz)) M ∧
        M.markedEdges = [] ∧ M.markedFaces = []) := by
  obtain ⟨at_, b0, hb, hsq, -⟩ := (C54_cube hinv hnp hall 1).2 one_pos
  have hr0 : Block.Reached inv 8 3 at_ b0 := .new hb
  have pi : 0 < Real.pi / 2 := by have := Real.pi_pos; linarith
  have start : ∀ (h1 : wr ≠ []) (h2 : 1 ≤ wr.sum) (h3 : 1 ≤ na) (h3' : 1 ≤ nz), quarterRing3d inv o rmin rmax z wr na nz target renumber =
      ((applied (setTransformIntoRing { b0 with ndiv := [wr.length, na, nz], deltaKsi := [proportional wr, proportional (List.replicate na 1), proportional (List.replicate nz 1)] }
        (some { amin := 0, amax := Real.pi / 2, rmin := rmin, rmax := rmax, zmin := 0, zmax := z }))) >>= fun b => cut o target 0 b >>= fun mesh => finish renumber mesh) := by
    intro h1 h2 h3 h3'
    unfold quarterRing3d
    have hl : 0 < wr.length := List.length_pos_iff.2 h1
    rw [if_neg (by omega), if_neg (by rw [foldl_add_sum]; linarith), if_neg (by omega), if_neg (by omega), hsq]
    have hw := (C41_weights_3d hr0 wr (List.replicate na 1) (List.replicate nz 1)).1 ⟨rfl, h1, by simp; omega, by simp; omega, h2, by simpa using h3, by simpa using h3'⟩
    rw [List.length_replicate, List.length_replicate] at hw
    rw [Res.bind_ok, applied_ok hw]
    rfl
  constructor
  · intro hbad
    by_cases h1 : wr = []
    · subst h1; exact ⟨_, rfl⟩
    have hl : 0 < wr.length := List.length_pos_iff.2 h1
    by_cases h2 : 1 ≤ wr.sum
    swap
    · unfold quarterRing3d
      rw [if_neg (by omega), if_pos (by rw [foldl_add_sum]; linarith)]
      exact ⟨_, rfl⟩
    by_cases h3 : 1 ≤ na
    swap
    · unfold quarterRing3d
      rw [if_neg (by omega), if_neg (by rw [foldl_add_sum]; linarith), if_pos (by omega)]
      exact ⟨_, rfl⟩
    by_cases h3' : 1 ≤ nz
    swap
    · unfold quarterRing3d
      rw [if_neg (by omega), if_neg (by rw [foldl_add_sum]; linarith), if_neg (by omega), if_pos (by omega)]
      exact ⟨_, rfl⟩
    rw [start h1 h2 h3 h3']
    by_cases h4 : rmin < rmax ∧ 0 < z
    swap
    · obtain ⟨e, he⟩ := (C56_set_ring { b0 with ndiv := [wr.length, na, nz], deltaKsi := [proportional wr, proportional (List.replicate na 1), proportional (List.replicate nz 1)] }
        { amin := 0, amax := Real.pi / 2, rmin := rmin, rmax := rmax, zmin := 0, zmax := z }).2.1 (fun h => h4 ⟨h.2.1, h.2.2.1⟩)
      rw [applied_err he]
      exact ⟨_, rfl⟩
    have hset := (C56_set_ring { b0 with ndiv := [wr.length, na, nz], deltaKsi := [proportional wr, proportional (List.replicate na 1), proportional (List.replicate nz 1)] }
        { amin := 0, amax := Real.pi / 2, rmin := rmin, rmax := rmax, zmin := 0, zmax := z }).1 ⟨pi, h4.1, h4.2, le_rfl, le_rfl⟩
    rw [applied_ok hset]
    have hw := (C41_weights_3d hr0 wr (List.replicate na 1) (List.replicate nz 1)).1 ⟨rfl, h1, by simp; omega, by simp; omega, h2, by simpa using h3, by simpa using h3'⟩
    rw [List.length_replicate, List.length_replicate] at hw
    have hr1 := Reached.weights3d wr (List.replicate na 1) (List.replicate nz 1) hr0
    rw [hw] at hr1
    have hr2 := Reached.ring (some { amin := 0, amax := Real.pi / 2, rmin := rmin, rmax := rmax, zmin := 0, zmax := z }) hr1
    rw [hset] at hr2
    obtain ⟨e, he⟩ := ring_target (o := o) (i := 0) hr2 (target := target) (fun h => hbad ⟨h1, h2, h3, h3', h4.1, h4.2, h⟩)
    exact ⟨e, by rw [Res.bind_ok, he]; rfl⟩
  · intro h1 h2 h3 h3' h4 h4' h5 h6 h7 h7'
    have hset := (C56_set_ring { b0 with ndiv := [wr.length, na, nz], deltaKsi := [proportional wr, proportional (List.replicate na 1), proportional (List.replicate nz 1)] }
        { amin := 0, amax := Real.pi / 2, rmin := rmin, rmax := rmax, zmin := 0, zmax := z }).1 ⟨pi, h4, h4', le_rfl, le_rfl⟩
    have hw := (C41_weights_3d hr0 wr (List.replicate na 1) (List.replicate nz 1)).1 ⟨rfl, h1, by simp; omega, by simp; omega, h2, by simpa using h3, by simpa using h3'⟩
    rw [List.length_replicate, List.length_replicate] at hw
    have hr1 := Reached.weights3d wr (List.replicate na 1) (List.replicate nz 1) hr0
    rw [hw] at hr1
    have hr2 := Reached.ring (some { amin := 0, amax := Real.pi / 2, rmin := rmin, rmax := rmax, zmin := 0, zmax := z }) hr1
    rw [hset] at hr2
    obtain ⟨M, M', m1, m2, m3, m4, m5⟩ := ring_block (target := target) (o := o) (nz := nz) (Or.inr rfl) hb h1 h2 h3 h3' h6 h7 h7' rfl rfl hr2 h5 ho renumber
      (place := cylindrical rmin rmax z) (by
        intro ξ hξ
        have e : b0.ndim = 3 := (C54_initial hb).2.1
        unfold ringMap cylindrical polar
        simp only [e]
        rw [map_half_getD ξ (by omega), map_half_getD ξ (by omega), map_half_getD ξ (by omega), if_neg (by omega)]
        simp) (fun h => absurd h (by omega))
    refine ⟨M', ?_, m3, m4, m5⟩
    rw [start h1 h2 h3 h3', applied_ok hset, Res.bind_ok]
    exact (congrArg (fun r => r >>= fun mesh => finish renumber mesh) m1).trans m2

/-! ## Consequences -/

/-- The cells have positive size and the divisions go from 0 to 1. -/
theorem ringTicks_grid {ndim : Nat} {wr : List ℝ} {na nz : Nat} (hd : ndim = 2 ∨ ndim = 3) (ht : target.classOf = if ndim = 2 then .qua else .hex) (hwr : wr ≠ [])
    (hs : 1 ≤ wr.sum) (hna : 1 ≤ na) (hnz : 1 ≤ nz) (h2 : ndim = 2 → nz = 1) (hw : WeightsOk wr) :
    Grid ndim target (ringDivs wr na nz) (ringTicks wr na nz) where
  dims := hd
  cls := ht
  pos := by
    intro a _
    unfold ringDivs
    have := List.length_pos_iff.2 hwr
    split
    · exact this
    · split <;> assumption
  two := h2
  incr := by
    intro a ha i hi
    have even : ∀ n : Nat, 1 ≤ n → evenTicks n i < evenTicks n (i + 1) := by
      intro n hn
      unfold evenTicks
      have : (0 : ℝ) < n := by exact_mod_cast hn
      rw [div_lt_div_iff_of_pos_right this]
      push_cast; linarith
    unfold ringDivs at hi
    unfold ringTicks
    split at hi
    · rename_i h0
      rw [if_pos h0]
      unfold weightTicks
      rw [div_lt_div_iff_of_pos_right (by linarith), List.take_succ_eq_append_getElem hi]
      have h1 := hw _ (List.getElem_mem hi)
      have h2 : (0 : ℝ) < 35 / 10 ^ 5 * wr.sum := mul_pos (by norm_num) (by linarith)
      rw [List.sum_append, List.sum_singleton]
      linarith
    · rename_i h0
      rw [if_neg h0]
      split
      · exact even _ hna
      · exact even _ hnz

theorem ringTicks_ends {wr : List ℝ} {na nz : Nat} (hs : 1 ≤ wr.sum) (hna : 1 ≤ na) (hnz : 1 ≤ nz) (a : Nat) :
    ringTicks wr na nz a 0 = 0 ∧ ringTicks wr na nz a (ringDivs wr na nz a) = 1 := by
  unfold ringTicks ringDivs
  split
  · unfold weightTicks
    simp only [List.take_zero, List.sum_nil, zero_div, List.take_length, true_and]
    exact div_self (by linarith)
  · split
    · unfold evenTicks
      exact ⟨by simp, div_self (by exact_mod_cast (by omega : na ≠ 0))⟩
    · unfold evenTicks
      exact ⟨by simp, div_self (by exact_mod_cast (by omega : nz ≠ 0))⟩

/-- The positions of the nodes of a grid from 0 to 1 are within 0 and 1. -/
theorem tickPos_unit {ndim : Nat} {n : Nat → Nat} {tick : Nat → Nat → ℝ} (hG : Grid ndim target n tick) (h : ∀ a < ndim, tick a 0 = 0 ∧ tick a (n a) = 1)
    {i j k m : Nat} (hb : Box n i j k) (hm : m < target.nnode) {a : Nat} (ha : a < ndim) :
    0 ≤ (tickPos ndim tick target i j k m).getD a 0 ∧ (tickPos ndim tick target i j k m).getD a 0 ≤ 1 := by
  obtain ⟨h1, h2⟩ := hG.between hb hm ha
  have hlt := pick_lt hb (hG.lt3 ha)
  have h3 := hG.mono ha (Nat.zero_le (pick i j k a)) hlt.le
  have h4 := hG.mono ha (Nat.succ_le_of_lt hlt) le_rfl
  obtain ⟨e1, e2⟩ := h a ha
  rw [e1] at h3; rw [e2] at h4
  exact ⟨h3.trans h1, h2.trans h4⟩

theorem polar_inj {rmin rmax : ℝ} (h0 : 0 < rmin) (h1 : rmin < rmax) {p q : List ℝ} (hp : ∀ a < 2, 0 ≤ p.getD a 0 ∧ p.getD a 0 ≤ 1)
    (hq : ∀ a < 2, 0 ≤ q.getD a 0 ∧ q.getD a 0 ≤ 1) (h : polar rmin rmax p = polar rmin rmax q) : p.getD 0 0 = q.getD 0 0 ∧ p.getD 1 0 = q.getD 1 0 := by
  have ppos := Real.pi_pos
  obtain ⟨p0, -⟩ := hp 0 (by omega)
  obtain ⟨p1, p1'⟩ := hp 1 (by omega)
  obtain ⟨q0, -⟩ := hq 0 (by omega)
  obtain ⟨q1, q1'⟩ := hq 1 (by omega)
  unfold polar at h
  generalize p.getD 0 0 = s at *
  generalize q.getD 0 0 = s' at *
  generalize p.getD 1 0 = t at *
  generalize q.getD 1 0 = t' at *
  simp only [List.cons.injEq, and_true] at h
  obtain ⟨hc, hs⟩ := h
  have hr : 0 < rmin + s * (rmax - rmin) := by nlinarith
  have hr' : 0 < rmin + s' * (rmax - rmin) := by nlinarith
  have e1 := Real.sin_sq_add_cos_sq (t * (Real.pi / 2))
  have e2 := Real.sin_sq_add_cos_sq (t' * (Real.pi / 2))
  have hsq : (rmin + s * (rmax - rmin)) ^ 2 = (rmin + s' * (rmax - rmin)) ^ 2 := by
    have h2 : ((rmin + s * (rmax - rmin)) * Real.cos (t * (Real.pi / 2))) ^ 2 + ((rmin + s * (rmax - rmin)) * Real.sin (t * (Real.pi / 2))) ^ 2 =
      ((rmin + s' * (rmax - rmin)) * Real.cos (t' * (Real.pi / 2))) ^ 2 + ((rmin + s' * (rmax - rmin)) * Real.sin (t' * (Real.pi / 2))) ^ 2 := by rw [hc, hs]
    rw [mul_pow, mul_pow, mul_pow, mul_pow, ← mul_add, ← mul_add, add_comm (Real.cos _ ^ 2), add_comm (Real.cos _ ^ 2), e1, e2, mul_one, mul_one] at h2
    exact h2
  have hrr : rmin + s * (rmax - rmin) = rmin + s' * (rmax - rmin) := by
    rcases sq_eq_sq_iff_eq_or_eq_neg.1 hsq with h | h
    · exact h
    · linarith
  have hss : s = s' := by
    have : (s - s') * (rmax - rmin) = 0 := by linarith
    rcases mul_eq_zero.1 this with h | h <;> linarith
  refine ⟨hss, ?_⟩
  rw [hrr] at hc
  have hc' := mul_left_cancel₀ hr'.ne' hc
  have := Real.injOn_cos ⟨by nlinarith, by nlinarith⟩ ⟨by nlinarith, by nlinarith⟩ hc'
  have h2 : (t - t') * (Real.pi / 2) = 0 := by linarith
  rcases mul_eq_zero.1 h2 with h | h <;> linarith

/-- **C64** (consequences, 2D). All points are in the first quadrant, at a distance from the origin between `rmin` and `rmax`; the nodes on
the first and on the last line of the radial divisions are on the two circles. If `rmin > 0`, different points of the mesh have
different coordinates. -/
theorem C64_points_2d {wr : List ℝ} {na : Nat} {rmin rmax : ℝ} {M : Mesh ℝ} (hwr : wr ≠ []) (hs : 1 ≤ wr.sum) (hna : 1 ≤ na) (hr : rmin < rmax)
    (ht : target.classOf = .qua) (hw : WeightsOk wr)
    (hM : IsPatch 2 target (Box (ringDivs wr na 1)) (ringTicks wr na 1) (polar rmin rmax) (fun _ _ _ => 1) (rowMajor (ringDivs wr na 1)) M) :
    (∀ p < M.points.length, ∃ r t : ℝ, rmin ≤ r ∧ r ≤ rmax ∧ 0 ≤ t ∧ t ≤ Real.pi / 2 ∧ coordsOf M p = [r * Real.cos t, r * Real.sin t]) ∧
    (∀ j m, j < na → m < target.nnode → (refCoordQ target m 0 = -1 → ∃ t, coordsOf M (ptOf M (rowMajor (ringDivs wr na 1) 0 j 0) m) = [rmin * Real.cos t, rmin * Real.sin t]) ∧
      (refCoordQ target m 0 = 1 → ∃ t, coordsOf M (ptOf M (rowMajor (ringDivs wr na 1) (wr.length - 1) j 0) m) = [rmax * Real.cos t, rmax * Real.sin t])) ∧
    (0 < rmin → ∀ p < M.points.length, ∀ q < M.points.length, coordsOf M p = coordsOf M q → p = q) := by
  have hG : Grid 2 target (ringDivs wr na 1) (ringTicks wr na 1) := ringTicks_grid (Or.inl rfl) ht hwr hs hna le_rfl (fun _ => rfl) hw
  have hends : ∀ a < 2, ringTicks wr na 1 a 0 = 0 ∧ ringTicks wr na 1 a (ringDivs wr na 1 a) = 1 := fun a _ => ringTicks_ends hs hna le_rfl a
  have hl := List.length_pos_iff.2 hwr
  refine ⟨?_, ?_, ?_⟩
  · intro p hp
    obtain ⟨-, -, -, i, j, k, m, hb, hm, rfl⟩ := hM.points p _ (List.getElem?_eq_getElem hp)
    rw [(hM.coords i j k m hb hm).2]
    obtain ⟨a1, a2⟩ := tickPos_unit hG hends hb hm (a := 0) (by omega)
    obtain ⟨b1, b2⟩ := tickPos_unit hG hends hb hm (a := 1) (by omega)
    have := Real.pi_pos
    exact ⟨_, _, by nlinarith, by nlinarith, by nlinarith, by nlinarith, rfl⟩
  · intro j m hj hm
    constructor
    · intro hm0
      rw [(hM.coords 0 j 0 m ⟨hl, hj, one_pos⟩ hm).2]
      have : (tickPos 2 (ringTicks wr na 1) target 0 j 0 m).getD 0 0 = 0 := by
        rw [getD_tickPos (by omega)]
        unfold rr refCoord
        rw [hm0]
        simpa [pick] using (hends 0 (by omega)).1
      unfold polar
      rw [this]
      exact ⟨_, by rw [zero_mul, add_zero]⟩
    · intro hm0
      rw [(hM.coords (wr.length - 1) j 0 m ⟨by show _ < wr.length; omega, hj, one_pos⟩ hm).2]
      have : (tickPos 2 (ringTicks wr na 1) target (wr.length - 1) j 0 m).getD 0 0 = 1 := by
        rw [getD_tickPos (by omega)]
        unfold rr refCoord
        rw [hm0]
        have e := (hends 0 (by omega)).2
        have : wr.length - 1 + 1 = ringDivs wr na 1 0 := by show _ = wr.length; omega
        simp only [pick, if_true]
        rw [this, e]
        push_cast; ring
      unfold polar
      rw [this]
      exact ⟨_, by rw [one_mul, add_sub_cancel]⟩
  · intro h0 p hp q hq he
    obtain ⟨-, -, -, i, j, k, m, hb, hm, rfl⟩ := hM.points p _ (List.getElem?_eq_getElem hp)
    obtain ⟨-, -, -, i', j', k', m', hb', hm', rfl⟩ := hM.points q _ (List.getElem?_eq_getElem hq)
    rw [(hM.coords i j k m hb hm).2, (hM.coords i' j' k' m' hb' hm').2] at he
    rw [hM.shared i j k m i' j' k' m' hb hb' hm hm']
    obtain ⟨e1, e2⟩ := polar_inj h0 hr (fun a ha => tickPos_unit hG hends hb hm ha) (fun a ha => tickPos_unit hG hends hb' hm' ha) he
    refine ext_getD (by rw [length_tickPos, length_tickPos]) ?_
    intro a ha
    rw [length_tickPos] at ha
    rcases (by omega : a = 0 ∨ a = 1) with rfl | rfl
    · exact e1
    · exact e2

/-- **C64** (consequences, 3D). The same with cylinders; all points have a height between 0 and `z`. -/
theorem C64_points_3d {wr : List ℝ} {na nz : Nat} {rmin rmax z : ℝ} {M : Mesh ℝ} (hwr : wr ≠ []) (hs : 1 ≤ wr.sum) (hna : 1 ≤ na) (hnz : 1 ≤ nz) (hr : rmin < rmax)
    (hz : 0 < z) (ht : target.classOf = .hex) (hw : WeightsOk wr)
    (hM : IsPatch 3 target (Box (ringDivs wr na nz)) (ringTicks wr na nz) (cylindrical rmin rmax z) (fun _ _ _ => 1) (rowMajor (ringDivs wr na nz)) M) :
    (∀ p < M.points.length, ∃ r t h : ℝ, rmin ≤ r ∧ r ≤ rmax ∧ 0 ≤ t ∧ t ≤ Real.pi / 2 ∧ 0 ≤ h ∧ h ≤ z ∧ coordsOf M p = [r * Real.cos t, r * Real.sin t, h]) ∧
    (0 < rmin → ∀ p < M.points.length, ∀ q < M.points.length, coordsOf M p = coordsOf M q → p = q) := by
  have hG : Grid 3 target (ringDivs wr na nz) (ringTicks wr na nz) := ringTicks_grid (Or.inr rfl) ht hwr hs hna hnz (fun h => absurd h (by omega)) hw
  have hends : ∀ a < 3, ringTicks wr na nz a 0 = 0 ∧ ringTicks wr na nz a (ringDivs wr na nz a) = 1 := fun a _ => ringTicks_ends hs hna hnz a
  refine ⟨?_, ?_⟩
  · intro p hp
    obtain ⟨-, -, -, i, j, k, m, hb, hm, rfl⟩ := hM.points p _ (List.getElem?_eq_getElem hp)
    rw [(hM.coords i j k m hb hm).2]
    obtain ⟨a1, a2⟩ := tickPos_unit hG hends hb hm (a := 0) (by omega)
    obtain ⟨b1, b2⟩ := tickPos_unit hG hends hb hm (a := 1) (by omega)
    obtain ⟨c1, c2⟩ := tickPos_unit hG hends hb hm (a := 2) (by omega)
    have := Real.pi_pos
    exact ⟨_, _, _, by nlinarith, by nlinarith, by nlinarith, by nlinarith, by nlinarith, by nlinarith, rfl⟩
  · intro h0 p hp q hq he
    obtain ⟨-, -, -, i, j, k, m, hb, hm, rfl⟩ := hM.points p _ (List.getElem?_eq_getElem hp)
    obtain ⟨-, -, -, i', j', k', m', hb', hm', rfl⟩ := hM.points q _ (List.getElem?_eq_getElem hq)
    rw [(hM.coords i j k m hb hm).2, (hM.coords i' j' k' m' hb' hm').2] at he
    rw [hM.shared i j k m i' j' k' m' hb hb' hm hm']
    unfold cylindrical at he
    have hpol : polar rmin rmax (tickPos 3 (ringTicks wr na nz) target i j k m) = polar rmin rmax (tickPos 3 (ringTicks wr na nz) target i' j' k' m') ∧
        (tickPos 3 (ringTicks wr na nz) target i j k m).getD 2 0 * z = (tickPos 3 (ringTicks wr na nz) target i' j' k' m').getD 2 0 * z := by
      obtain ⟨g1, g2⟩ := List.append_inj he rfl
      exact ⟨g1, by simpa using g2⟩
    obtain ⟨e1, e2⟩ := polar_inj h0 hr (fun a ha => tickPos_unit hG hends hb hm (by omega)) (fun a ha => tickPos_unit hG hends hb' hm' (by omega)) hpol.1
    have e3 := mul_right_cancel₀ hz.ne' hpol.2
    refine ext_getD (by rw [length_tickPos, length_tickPos]) ?_
    intro a ha
    rw [length_tickPos] at ha
    rcases (by omega : a = 0 ∨ a = 1 ∨ a = 2) with rfl | rfl | rfl
    · exact e1
    · exact e2
    · exact e3

/-- **C64** (a limitation). A radius `rmin = 0` is accepted: all points of the first line are at the origin, but they are different points
of the mesh. -/
theorem C64_zero_radius {wr : List ℝ} {na : Nat} {rmax : ℝ} {M : Mesh ℝ} (hwr : wr ≠ []) (hs : 1 ≤ wr.sum) (hna : 2 ≤ na)
    (ht : target.classOf = .qua) (hw : WeightsOk wr)
    (hM : IsPatch 2 target (Box (ringDivs wr na 1)) (ringTicks wr na 1) (polar 0 rmax) (fun _ _ _ => 1) (rowMajor (ringDivs wr na 1)) M) :
    ∃ p < M.points.length, ∃ q < M.points.length, p ≠ q ∧ coordsOf M p = [0, 0] ∧ coordsOf M q = [0, 0] := by
  have hG : Grid 2 target (ringDivs wr na 1) (ringTicks wr na 1) := ringTicks_grid (Or.inl rfl) ht hwr hs (by omega) le_rfl (fun _ => rfl) hw
  have hends : ∀ a < 2, ringTicks wr na 1 a 0 = 0 ∧ ringTicks wr na 1 a (ringDivs wr na 1 a) = 1 := fun a _ => ringTicks_ends hs (by omega) le_rfl a
  have hl := List.length_pos_iff.2 hwr
  obtain ⟨hz, hr⟩ := node_zero target hG.qh
  have hr0 : refCoordQ target 0 0 = -1 := hr 0 (by rw [hG.ndim_eq]; omega)
  have hb : ∀ j < na, Box (ringDivs wr na 1) 0 j 0 := fun j hj => ⟨hl, hj, one_pos⟩
  have e0 : ∀ j, (tickPos 2 (ringTicks wr na 1) target 0 j 0 0).getD 0 0 = 0 := by
    intro j
    rw [getD_tickPos (by omega)]
    unfold rr refCoord
    rw [hr0]
    simpa [pick] using (hends 0 (by omega)).1
  have hc : ∀ j < na, coordsOf M (ptOf M (rowMajor (ringDivs wr na 1) 0 j 0) 0) = [0, 0] := by
    intro j hj
    rw [(hM.coords 0 j 0 0 (hb j hj) hz).2]
    unfold polar
    rw [e0 j]
    simp
  refine ⟨_, (hM.coords 0 0 0 0 (hb 0 (by omega)) hz).1, _, (hM.coords 0 1 0 0 (hb 1 (by omega)) hz).1, ?_, hc 0 (by omega), hc 1 (by omega)⟩
  intro he
  rw [hM.shared 0 0 0 0 0 1 0 0 (hb 0 (by omega)) (hb 1 (by omega)) hz hz] at he
  have he := congrArg (fun l => l.getD 1 0) he
  beta_reduce at he
  rw [getD_tickPos (by omega), getD_tickPos (by omega)] at he
  have hr1 : refCoordQ target 0 1 = -1 := hr 1 (by rw [hG.ndim_eq]; omega)
  unfold rr refCoord at he
  rw [hr1] at he
  have := hG.incr 1 (by omega) 0 (by show 0 < na; omega)
  simp [pick] at he
  linarith

/-- The orders of the hash maps are arbitrary permutations, for example none. -/
theorem exists_orders : ∃ o : GenOrders, o.Valid :=
  ⟨{ grid := fun _ l => l, constrained := fun _ l => l,
     join := { features := { edges2d := fun l => l, faceKeys := fun l => l, points := fun l => l, edges := fun l => l, faces := fun l => l },
               search := fun _ l => l, edgeKeys := fun l => l, faceKeys := fun l => l } },
    ⟨fun _ l => List.Perm.refl l, fun _ l => List.Perm.refl l,
      ⟨⟨fun l => List.Perm.refl l, fun l => List.Perm.refl l, fun l => List.Perm.refl l, fun l => List.Perm.refl l, fun l => List.Perm.refl l⟩,
        fun _ l => List.Perm.refl l, fun l => List.Perm.refl l, fun l => List.Perm.refl l⟩⟩⟩

/-- The hypotheses are met: three divisions with the weights 1, 2, 1 along the radius, from 1 to 3, and two along the angle. -/
example : ∃ (o : GenOrders) (M : Mesh ℝ), o.Valid ∧ quarterRing2d exactInverse o 1 3 [1, 2, 1] 2 .qua8 true = .ok M ∧
    M.cells.length = 6 ∧ M.markedEdges = [] := by
  obtain ⟨o, ho⟩ := exists_orders
  obtain ⟨M, h1, h2, h3, -⟩ := (C64_ring_2d exactInverse_spec exactInverse_noPanic exactInverse_total ho 1 3 [1, 2, 1] 2 .qua8 true).2 (by simp) (by norm_num)
    (by omega) (by norm_num) rfl (by intro v hv; simp at hv; rcases hv with rfl | rfl | rfl <;> norm_num) (by unfold CountOk; omega)
  refine ⟨o, M, ho, h1, ?_, h3⟩
  have key : ∀ c, c < M.cells.length ↔ c < 6 := by
    intro c
    constructor
    · intro hc
      obtain ⟨i, j, k, hb, rfl⟩ := h2.onto c hc
      obtain ⟨b1, b2, b3⟩ := hb
      simp [ringDivs] at b1 b2 b3
      simp [rowMajor, ringDivs]
      omega
    · intro hc
      obtain ⟨c', e, -⟩ := h2.cell (c % 3) (c / 3) 0 ⟨by simp [ringDivs]; omega, by simp [ringDivs]; omega, by simp [ringDivs]⟩
      have := (List.getElem?_eq_some_iff.1 e).1
      simp [rowMajor, ringDivs] at this
      omega
  have := key 6
  have := key 5
  omega

end
end Gemlab.Structured
