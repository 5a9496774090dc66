import Verif.Spec.Block
import Verif.Lib.ResList
import Verif.Props.Scratchpad
import Mathlib.Tactic.Linarith
import Mathlib.Tactic.Ring
import Mathlib.Tactic.FieldSimp
import Mathlib.Tactic.IntervalCases

/-! # Blocks: the data of reachable blocks -/
namespace Gemlab.Block
noncomputable section
open Classical
open Gemlab.Mesh Gemlab.Shapes

theorem get_hremove {V : Type} (m : HMap Nat V) (k k' : Nat) : HMap.get (hremove m k) k' = if k' = k then none else HMap.get m k' := by
  unfold hremove
  induction m with
  | nil => simp [HMap.get]
  | cons e m ih =>
    by_cases h : e.1 = k
    · rw [List.filter_cons_of_neg (by simp [h]), ih, HMap.get_cons]
      by_cases h2 : k' = k
      · rw [if_pos h2, if_pos h2]
      · rw [if_neg h2, if_neg h2, if_neg (by omega)]
    · rw [List.filter_cons_of_pos (by simp [h]), HMap.get_cons, HMap.get_cons, ih]
      by_cases h3 : e.1 = k'
      · rw [if_pos h3, if_pos h3, if_neg (by omega)]
      · rw [if_neg h3, if_neg h3]

/-! ## Filling the scratchpad -/

/-- The last of a sequence of assignments with consistent values. -/
theorem setXx_fold (f : Nat → Nat → ℝ) (L : List (Nat × Nat × ℝ)) (pad : Scratchpad)
    (hL : ∀ a ∈ L, a.1 < pad.kind.nnode ∧ a.2.1 < pad.spaceNdim ∧ a.2.2 = f a.1 a.2.1) :
    ∃ pad', L.foldlM (fun (p : Scratchpad) a => p.setXx a.1 a.2.1 a.2.2) pad = .ok pad' ∧ pad'.kind = pad.kind ∧
      pad'.spaceNdim = pad.spaceNdim ∧ (∀ a ∈ L, pad'.xxt a.2.1 a.1 = f a.1 a.2.1) ∧
      (∀ a, L.getLast? = some a → pad'.okXxt = decide (a.1 = pad.kind.nnode - 1 ∧ a.2.1 = pad.spaceNdim - 1)) := by
  obtain ⟨pad', h1, h2, h3, h4, h5⟩ := Res.foldlM_list (fun (p : Scratchpad) a => p.setXx a.1 a.2.1 a.2.2) L pad
    (fun pre p => p.kind = pad.kind ∧ p.spaceNdim = pad.spaceNdim ∧ (∀ a ∈ pre, p.xxt a.2.1 a.1 = f a.1 a.2.1) ∧
      (∀ a, pre.getLast? = some a → p.okXxt = decide (a.1 = pad.kind.nnode - 1 ∧ a.2.1 = pad.spaceNdim - 1)))
    ⟨rfl, rfl, by simp, by simp⟩ (by
      intro pre a p ha _ ⟨hk, hs, hx, _⟩
      obtain ⟨i1, i2, i3⟩ := hL a ha
      refine ⟨_, if_pos (show a.2.1 < p.spaceNdim ∧ a.1 < p.kind.nnode from ⟨by omega, by rw [hk]; exact i1⟩), hk, hs, ?_, ?_⟩
      · intro a' ha'
        dsimp only
        rcases List.mem_append.1 ha' with h | h
        · split
          · rename_i h'
            rw [i3, ← h'.1, ← h'.2]
          · exact hx a' h
        · rw [List.mem_singleton] at h
          subst h
          rw [if_pos ⟨rfl, rfl⟩, i3]
      · intro a' ha'
        rw [List.getLast?_concat, Option.some.injEq] at ha'
        subst ha'
        dsimp only
        rw [hk, hs])
  exact ⟨pad', h1, h2, h3, h4, h5⟩

/-- The values assigned by `Block::new`. -/
def valueAt (nrow ndim nnode : Nat) (at_ : Nat → Nat → ℝ) (m j : Nat) : ℝ :=
  if nrow = nnode then at_ m j
  else if m < nrow then at_ m j
  else match (middle ndim).find? (fun t => t.1 = m) with
    | some t => (at_ t.2.1 j + at_ t.2.2 j) / 2
    | none => 0

theorem valueAt_middle {nrow ndim nnode : Nat} {at_ : Nat → Nat → ℝ} (hd : ndim = 2 ∨ ndim = 3) (h : nrow ≠ nnode) (t : Nat × Nat × Nat)
    (ht : t ∈ middle ndim) (hm : nrow = if ndim = 2 then 4 else 8) (j : Nat) :
    valueAt nrow ndim nnode at_ t.1 j = (at_ t.2.1 j + at_ t.2.2 j) / 2 := by
  unfold valueAt
  rw [if_neg h]
  rcases hd with rfl | rfl
  · simp only [if_true] at hm
    subst hm
    simp only [middle, if_true, List.mem_cons, List.not_mem_nil, or_false] at ht
    rcases ht with rfl | rfl | rfl | rfl <;> rw [if_neg (by decide)] <;> rfl
  · rw [if_neg (by decide)] at hm
    subst hm
    simp only [middle, List.mem_cons, List.not_mem_nil, or_false] at ht
    rw [if_neg (by decide)] at ht
    simp only [List.mem_cons, List.not_mem_nil, or_false] at ht
    rcases ht with rfl | rfl | rfl | rfl | rfl | rfl | rfl | rfl | rfl | rfl | rfl | rfl <;> rw [if_neg (by decide)] <;> rfl

theorem new_pad {nrow ndim : Nat} {at_ : Nat → Nat → ℝ} {pad : Scratchpad} (hd : ndim = 2 ∨ ndim = 3)
    (hr : nrow = (if ndim = 2 then 4 else 8) ∨ nrow = (if ndim = 2 then 8 else 20))
    (hk : pad.kind = if ndim = 2 then .qua8 else .hex20) (hs : pad.spaceNdim = ndim) :
    ∃ pad', (assignments nrow ndim pad.kind.nnode at_).foldlM (fun (p : Scratchpad) a => p.setXx a.1 a.2.1 a.2.2) pad = .ok pad' ∧
      pad'.kind = pad.kind ∧ pad'.spaceNdim = ndim ∧ pad'.okXxt = true ∧
      (∀ m < nrow, ∀ j < ndim, pad'.xxt j m = at_ m j) ∧
      (nrow ≠ pad.kind.nnode → ∀ t ∈ middle ndim, ∀ j < ndim, pad'.xxt j t.1 = (at_ t.2.1 j + at_ t.2.2 j) / 2) := by
  have hnn : pad.kind.nnode = if ndim = 2 then 8 else 20 := by rw [hk]; split <;> rfl
  have hmid : ∀ t ∈ middle ndim, t.1 < pad.kind.nnode := by
    rw [hnn]
    rcases hd with rfl | rfl
    · intro t ht
      revert t
      decide
    · intro t ht
      revert t
      decide
  have hmem1 : ∀ m < nrow, ∀ j < ndim, (m, j, at_ m j) ∈ assignments nrow ndim pad.kind.nnode at_ := by
    intro m hm j hj
    unfold assignments
    split
    · exact List.mem_flatMap.2 ⟨m, List.mem_range.2 (by omega), List.mem_map.2 ⟨j, List.mem_range.2 hj, rfl⟩⟩
    · exact List.mem_append_left _ (List.mem_flatMap.2 ⟨m, List.mem_range.2 (by omega), List.mem_map.2 ⟨j, List.mem_range.2 hj, rfl⟩⟩)
  obtain ⟨pad', h1, h2, h3, h4, h5⟩ := setXx_fold (valueAt nrow ndim pad.kind.nnode at_) (assignments nrow ndim pad.kind.nnode at_) pad (by
    intro a ha
    unfold assignments at ha
    split at ha
    · rename_i hnr
      obtain ⟨m, hm, ha⟩ := List.mem_flatMap.1 ha
      obtain ⟨j, hj, rfl⟩ := List.mem_map.1 ha
      refine ⟨List.mem_range.1 hm, hs ▸ List.mem_range.1 hj, ?_⟩
      dsimp only [valueAt]
      rw [if_pos hnr]
    · rename_i hnr
      rcases List.mem_append.1 ha with ha | ha
      · obtain ⟨m, hm, ha⟩ := List.mem_flatMap.1 ha
        obtain ⟨j, hj, rfl⟩ := List.mem_map.1 ha
        rw [List.mem_range] at hm hj
        refine ⟨?_, by dsimp only; omega, ?_⟩
        · dsimp only; rcases hd with rfl | rfl <;> simp at hr hnn <;> omega
        · dsimp only [valueAt]
          rw [if_neg hnr, if_pos hm]
      · obtain ⟨j, hj, ha⟩ := List.mem_flatMap.1 ha
        obtain ⟨t, ht, rfl⟩ := List.mem_map.1 ha
        rw [List.mem_range] at hj
        refine ⟨hmid t ht, by dsimp only; omega, ?_⟩
        dsimp only
        rw [valueAt_middle hd hnr t ht]
        rcases hr with hr | hr
        · exact hr
        · exact absurd (hr.trans hnn.symm) hnr)
  refine ⟨pad', h1, h2, h3.trans hs, ?_, ?_, ?_⟩
  · by_cases hnr : nrow = pad.kind.nnode
    · rw [h5 (pad.kind.nnode - 1, ndim - 1, at_ (pad.kind.nnode - 1) (ndim - 1))]
      · simp [hs]
      · unfold assignments
        rw [if_pos hnr]
        have e1 : List.range pad.kind.nnode = List.range (pad.kind.nnode - 1) ++ [pad.kind.nnode - 1] := by
          rw [hnn]
          rcases hd with rfl | rfl <;> rfl
        have e2 : List.range ndim = List.range (ndim - 1) ++ [ndim - 1] := by rcases hd with rfl | rfl <;> rfl
        rw [e1, e2]
        simp
    · rcases hd with rfl | rfl
      · rw [h5 (7, 1, (at_ 3 1 + at_ 0 1) / 2)]
        · simp [hs, hk, GeoKind.nnode]
        · unfold assignments
          rw [if_neg hnr]
          have e2 : List.range 2 = [0] ++ [1] := rfl
          rw [e2]
          simp [middle]
      · rw [h5 (19, 2, (at_ 3 2 + at_ 7 2) / 2)]
        · simp [hs, hk, GeoKind.nnode]
        · unfold assignments
          rw [if_neg hnr]
          have e2 : List.range 3 = [0, 1] ++ [2] := rfl
          rw [e2]
          simp [middle]
  · intro m hm j hj
    have := h4 _ (hmem1 m hm j hj)
    dsimp only at this
    rw [this]
    unfold valueAt
    split <;> rfl
  · intro hnr t ht j hj
    have := h4 (t.1, j, (at_ t.2.1 j + at_ t.2.2 j) / 2) (by
      unfold assignments
      rw [if_neg hnr]
      exact List.mem_append_right _ (List.mem_flatMap.2 ⟨j, List.mem_range.2 hj, List.mem_map.2 ⟨t, ht, rfl⟩⟩))
    dsimp only at this
    rw [this, valueAt_middle hd hnr t ht]
    rcases hr with hr | hr
    · exact hr
    · exact absurd (hr.trans hnn.symm) hnr

theorem padNew_eq {n : Nat} {k : GeoKind} {pad : Scratchpad} (hp : Scratchpad.new n k = .ok pad) : pad.kind = k ∧ pad.spaceNdim = n := by
  unfold Scratchpad.new at hp
  split at hp
  · cases hp
  split at hp
  · cases hp
  cases hp
  exact ⟨rfl, rfl⟩

theorem new_ok {inv : MatInverse} {nrow ndim : Nat} {at_ : Nat → Nat → ℝ} {b : Block} (h : new inv nrow ndim at_ = .ok b) :
    (ndim = 2 ∨ ndim = 3) ∧ (nrow = (if ndim = 2 then 4 else 8) ∨ nrow = (if ndim = 2 then 8 else 20)) ∧ b.marker = 1 ∧
    b.ndim = ndim ∧ b.ndiv = List.replicate ndim 2 ∧ b.deltaKsi = List.replicate ndim (List.replicate 2 (2 / 2)) ∧
    b.edgeConstraints = [] ∧ b.faceConstraints = [] ∧ b.edgeMarkers = [] ∧ b.faceMarkers = [] ∧
    b.argsRing = { amin := 0, amax := Real.pi / 2, rmin := 1, rmax := 2, zmin := 0, zmax := 1 } ∧ b.transformIntoRing = false ∧
    b.pad.okXxt = true ∧ b.pad.spaceNdim = ndim ∧ b.pad.kind = (if ndim = 2 then .qua8 else .hex20) ∧
    (∀ m < nrow, ∀ j < ndim, b.pad.xxt j m = at_ m j) ∧
    (nrow ≠ b.pad.kind.nnode → ∀ t ∈ middle ndim, ∀ j < ndim, b.pad.xxt j t.1 = (at_ t.2.1 j + at_ t.2.2 j) / 2) ∧
    ∃ (p : Scratchpad) (r : ℝ × (Nat → Nat → ℝ)), p.kind = b.pad.kind ∧ p.spaceNdim = ndim ∧ p.xxt = b.pad.xxt ∧
      inv ndim (p.fillJacobian (fun _ => 0)).jacobian = .ok r ∧ 0 < r.1 := by
  unfold new at h
  split at h
  · cases h
  rename_i h1
  split at h
  · cases h
  rename_i h2
  split at h
  · cases h
  rename_i h3
  have hd : ndim = 2 ∨ ndim = 3 := by omega
  have hr : nrow = (if ndim = 2 then 4 else 8) ∨ nrow = (if ndim = 2 then 8 else 20) := by rcases hd with rfl | rfl <;> simp <;> omega
  obtain ⟨pad, hp, h⟩ := Res.bind_eq_ok.1 h
  have hpk : pad.kind = (if ndim = 2 then .qua8 else .hex20) ∧ pad.spaceNdim = ndim := by
    exact padNew_eq hp
  obtain ⟨pad', g1, g2, g3, g4, g5, g6⟩ := new_pad (at_ := at_) hd hr hpk.1 hpk.2
  rw [← hpk.1] at h
  rw [g1, Res.bind_ok] at h
  obtain ⟨r, hr', h⟩ := Res.bind_eq_ok.1 h
  split at h
  · cases h
  rename_i hpos
  have hj : r.2.kind = pad'.kind ∧ r.2.spaceNdim = pad'.spaceNdim ∧ r.2.xxt = pad'.xxt ∧ r.2.okXxt = pad'.okXxt ∧
      ∃ q, inv ndim (pad'.fillJacobian (fun _ => 0)).jacobian = .ok q ∧ q.1 = r.1 := by
    unfold Scratchpad.calcJacobian at hr'
    rw [g4] at hr'
    have hkd : (pad'.fillJacobian fun _ => 0).kind.ndim = (pad'.fillJacobian fun _ => 0).spaceNdim := by
      change pad'.kind.ndim = pad'.spaceNdim
      rw [g2, g3, hpk.1]
      rcases hd with rfl | rfl <;> rfl
    simp only [Bool.not_true, Bool.false_eq_true, if_false, if_pos hkd] at hr'
    obtain ⟨q, hq, hr'⟩ := Res.bind_eq_ok.1 hr'
    cases hr'
    refine ⟨rfl, rfl, rfl, rfl, q, ?_, rfl⟩
    rw [← hq]
    change _ = inv pad'.spaceNdim _
    rw [g3]
  obtain ⟨j1, j2, j3, j4, q, j5, j6⟩ := hj
  cases h
  dsimp only
  refine ⟨hd, hr, rfl, rfl, rfl, rfl, rfl, rfl, rfl, rfl, rfl, rfl, j4.trans g4, j2.trans g3, j1.trans (g2.trans hpk.1), ?_, ?_, pad', q, j1.symm,
    g3, j3.symm, j5, ?_⟩
  · intro m hm j hj
    rw [j3]
    exact g5 m hm j hj
  · intro hne t ht j hj
    rw [j3]
    exact g6 (by rw [← g2, ← j1]; exact hne) t ht j hj
  · rw [j6]; exact not_le.1 hpos

theorem foldl_add_eq (w : List ℝ) (a : ℝ) : w.foldl (fun acc v => acc + v) a = a + w.sum := by
  induction w generalizing a with
  | nil => simp
  | cons v w ih => rw [List.foldl_cons, ih, List.sum_cons]; ring

theorem scaled_eq (w : List ℝ) : scaled w = w.map fun v => v * 2 / w.sum := by
  unfold scaled
  rw [foldl_add_eq, zero_add]

theorem sum_scaled {w : List ℝ} (h : w.sum ≠ 0) : (scaled w).sum = 2 := by
  rw [scaled_eq]
  have e : (w.map fun v => v * 2 / w.sum) = w.map fun v => v * (2 / w.sum) := by
    apply List.map_congr_left
    intro a _
    rw [mul_div_assoc]
  rw [e, List.sum_map_mul_right, List.map_id']
  field_simp

theorem getD_set {α : Type} (l : List α) (i j : Nat) (v d : α) :
    (l.set i v).getD j d = if j = i ∧ i < l.length then v else l.getD j d := by
  rw [List.getD_eq_getElem?_getD, List.getD_eq_getElem?_getD, List.getElem?_set]
  by_cases h : i = j
  · subst h
    by_cases h2 : i < l.length
    · rw [if_pos rfl, if_pos h2, if_pos ⟨rfl, h2⟩]; rfl
    · rw [if_pos rfl, if_neg h2, if_neg (by simp [h2])]
      rw [List.getElem?_eq_none (by omega)]
  · rw [if_neg h, if_neg (by omega)]

/-- The three conditions on the divisions of direction `a`. -/
def RowOk (b : Block) (a : Nat) : Prop :=
  (b.deltaKsi.getD a []).length = b.ndiv.getD a 0 ∧ 1 ≤ b.ndiv.getD a 0 ∧ (b.deltaKsi.getD a []).sum = 2

theorem uniform_ok {n : Nat} (hn : 1 ≤ n) :
    (List.replicate n ((1 : ℝ) * 2 / (n : ℝ))).length = n ∧ (List.replicate n ((1 : ℝ) * 2 / (n : ℝ))).sum = 2 := by
  have : (n : ℝ) ≠ 0 := by positivity
  refine ⟨by simp, ?_⟩
  rw [List.sum_replicate, nsmul_eq_mul]
  field_simp

/-- Fields not changed by the setters of divisions. -/
structure SameButDiv (b b' : Block) : Prop where
  marker : b'.marker = b.marker
  ndim : b'.ndim = b.ndim
  ec : b'.edgeConstraints = b.edgeConstraints
  fc : b'.faceConstraints = b.faceConstraints
  em : b'.edgeMarkers = b.edgeMarkers
  fm : b'.faceMarkers = b.faceMarkers
  pad : b'.pad = b.pad
  args : b'.argsRing = b.argsRing
  ring : b'.transformIntoRing = b.transformIntoRing

theorem setNdivLoop_spec (v : List Nat) (is : List Nat) (b : Block) (hl : b.ndiv.length = b.ndim) (hl' : b.deltaKsi.length = b.ndim)
    (his : ∀ i ∈ is, i < b.ndim) :
    SameButDiv b (setNdivLoop v is b).1 ∧ (setNdivLoop v is b).1.ndiv.length = b.ndim ∧ (setNdivLoop v is b).1.deltaKsi.length = b.ndim ∧
    (∀ a, RowOk b a → RowOk (setNdivLoop v is b).1 a) ∧
    ((∀ i ∈ is, 1 ≤ v.getD i 0) → (setNdivLoop v is b).2 = .ok () ∧ ∀ a, (a ∈ is →
      (setNdivLoop v is b).1.ndiv.getD a 0 = v.getD a 0 ∧
      (setNdivLoop v is b).1.deltaKsi.getD a [] = List.replicate (v.getD a 0) (1 * 2 / ((v.getD a 0 : Nat) : ℝ))) ∧
      (a ∉ is → (setNdivLoop v is b).1.ndiv.getD a 0 = b.ndiv.getD a 0 ∧ (setNdivLoop v is b).1.deltaKsi.getD a [] = b.deltaKsi.getD a [])) ∧
    ((∃ i ∈ is, v.getD i 0 < 1) → ∃ e, (setNdivLoop v is b).2 = .err e) := by
  induction is generalizing b with
  | nil =>
    refine ⟨⟨rfl, rfl, rfl, rfl, rfl, rfl, rfl, rfl, rfl⟩, hl, hl', fun a h => h, fun _ => ⟨rfl, fun a => ⟨by simp, fun _ => ⟨rfl, rfl⟩⟩⟩, by simp⟩
  | cons i is ih =>
    unfold setNdivLoop
    by_cases hv : v.getD i 0 < 1
    · simp only [if_pos hv]
      refine ⟨⟨rfl, rfl, rfl, rfl, rfl, rfl, rfl, rfl, rfl⟩, hl, hl', fun a h => h, fun h => ?_, fun _ => ⟨_, rfl⟩⟩
      exact absurd (h i (by simp)) (by omega)
    · simp only [if_neg hv]
      have hv' : 1 ≤ v.getD i 0 := by omega
      have hi : i < b.ndim := his i (by simp)
      obtain ⟨i1, i2, i3, i4, i5, i6⟩ := ih
        { b with ndiv := b.ndiv.set i (v.getD i 0), deltaKsi := b.deltaKsi.set i (List.replicate (v.getD i 0) (1 * 2 / ((v.getD i 0 : Nat) : ℝ))) }
        (by simpa using hl) (by simpa using hl') (fun i' hi' => his i' (by simp [hi']))
      refine ⟨⟨i1.marker, i1.ndim, i1.ec, i1.fc, i1.em, i1.fm, i1.pad, i1.args, i1.ring⟩, i2, i3, ?_, ?_, ?_⟩
      · intro a ha
        apply i4
        unfold RowOk
        dsimp only
        rw [getD_set, getD_set]
        by_cases hai : a = i
        · subst hai
          rw [if_pos ⟨rfl, by omega⟩, if_pos ⟨rfl, by omega⟩]
          exact ⟨(uniform_ok hv').1, hv', (uniform_ok hv').2⟩
        · rw [if_neg (by simp [hai]), if_neg (by simp [hai])]
          exact ha
      · intro h
        obtain ⟨j1, j2⟩ := i5 (fun i' hi' => h i' (by simp [hi']))
        refine ⟨j1, fun a => ⟨fun ha => ?_, fun ha => ?_⟩⟩
        · by_cases hin : a ∈ is
          · exact (j2 a).1 hin
          · have hai : a = i := by simpa [hin] using ha
            subst hai
            obtain ⟨k1, k2⟩ := (j2 a).2 hin
            dsimp only at k1 k2
            rw [getD_set, if_pos ⟨rfl, by omega⟩] at k1
            rw [getD_set, if_pos ⟨rfl, by omega⟩] at k2
            exact ⟨k1, k2⟩
        · rw [List.mem_cons, not_or] at ha
          obtain ⟨k1, k2⟩ := (j2 a).2 ha.2
          dsimp only at k1 k2
          rw [getD_set, if_neg (by simp [ha.1])] at k1
          rw [getD_set, if_neg (by simp [ha.1])] at k2
          exact ⟨k1, k2⟩
      · rintro ⟨i', hi', h⟩
        rcases List.mem_cons.1 hi' with rfl | hi''
        · omega
        · exact i6 ⟨i', hi'', h⟩

theorem wf_of_sameButDiv {nrow ndim : Nat} {at_ : Nat → Nat → ℝ} {b b' : Block} (hw : WF nrow ndim at_ b) (h : SameButDiv b b')
    (h1 : b'.ndiv.length = b.ndim) (h2 : b'.deltaKsi.length = b.ndim) (h3 : ∀ a < b.ndim, RowOk b' a) : WF nrow ndim at_ b' := by
  obtain ⟨a1, a2, a3, a4, a5, a6, a7, a8, a9⟩ := h
  obtain ⟨w1, w2, w3, w4, w5, w6, w7, w8, w9, w10, w11, w12, w13, w14, w15, w16, w17⟩ := hw
  constructor <;> simp only [a2, a3, a4, a5, a6, a7, a8, RowOk] at * <;> assumption

theorem setNdiv_wf {nrow ndim : Nat} {at_ : Nat → Nat → ℝ} {b : Block} (hw : WF nrow ndim at_ b) (v : List Nat) :
    WF nrow ndim at_ (setNdiv b v).1 := by
  unfold setNdiv
  split
  · exact hw
  · obtain ⟨i1, i2, i3, i4, -, -⟩ := setNdivLoop_spec v (List.range b.ndim) b hw.ndivLen hw.deltaLen (fun i hi => List.mem_range.1 hi)
    exact wf_of_sameButDiv hw i1 i2 i3 (fun a ha => i4 a (hw.rows a ha))

theorem scaled_ok {w : List ℝ} (h : ¬ w.foldl (fun acc v => acc + v) 0 < 1) : (scaled w).length = w.length ∧ (scaled w).sum = 2 := by
  rw [foldl_add_eq, zero_add] at h
  exact ⟨by simp [scaled], sum_scaled (by intro h'; rw [h'] at h; exact h one_pos)⟩

theorem setDivWeights2d_wf {nrow ndim : Nat} {at_ : Nat → Nat → ℝ} {b : Block} (hw : WF nrow ndim at_ b) (wx wy : List ℝ) :
    WF nrow ndim at_ (setDivWeights2d b wx wy).1 := by
  unfold setDivWeights2d
  split
  · exact hw
  split
  · exact hw
  split
  · exact hw
  split
  · exact hw
  split
  · exact hw
  rename_i h1 h2 h3 h4 h5
  have l1 := hw.ndivLen
  have l2 := hw.deltaLen
  refine wf_of_sameButDiv hw ⟨rfl, rfl, rfl, rfl, rfl, rfl, rfl, rfl, rfl⟩ (by simpa using l1) (by simpa using l2) ?_
  intro a ha
  unfold RowOk
  dsimp only
  simp only [getD_set, List.length_set]
  have : a = 0 ∨ a = 1 := by omega
  rcases this with rfl | rfl
  · rw [if_neg (by simp), if_pos ⟨rfl, by omega⟩, if_neg (by simp), if_pos ⟨rfl, by omega⟩]
    exact ⟨(scaled_ok h4).1, by omega, (scaled_ok h4).2⟩
  · rw [if_pos ⟨rfl, by omega⟩, if_pos ⟨rfl, by omega⟩]
    exact ⟨(scaled_ok h5).1, by omega, (scaled_ok h5).2⟩

theorem setDivWeights3d_wf {nrow ndim : Nat} {at_ : Nat → Nat → ℝ} {b : Block} (hw : WF nrow ndim at_ b) (wx wy wz : List ℝ) :
    WF nrow ndim at_ (setDivWeights3d b wx wy wz).1 := by
  unfold setDivWeights3d
  split
  · exact hw
  split
  · exact hw
  split
  · exact hw
  split
  · exact hw
  split
  · exact hw
  split
  · exact hw
  split
  · exact hw
  rename_i h1 h2 h3 h4 h5 h6 h7
  have l1 := hw.ndivLen
  have l2 := hw.deltaLen
  refine wf_of_sameButDiv hw ⟨rfl, rfl, rfl, rfl, rfl, rfl, rfl, rfl, rfl⟩ (by simpa using l1) (by simpa using l2) ?_
  intro a ha
  unfold RowOk
  dsimp only
  simp only [getD_set, List.length_set]
  have : a = 0 ∨ a = 1 ∨ a = 2 := by omega
  rcases this with rfl | rfl | rfl
  · rw [if_neg (by simp), if_neg (by simp), if_pos ⟨rfl, by omega⟩, if_neg (by simp), if_neg (by simp), if_pos ⟨rfl, by omega⟩]
    exact ⟨(scaled_ok h5).1, by omega, (scaled_ok h5).2⟩
  · rw [if_neg (by simp), if_pos ⟨rfl, by omega⟩, if_neg (by simp), if_pos ⟨rfl, by omega⟩]
    exact ⟨(scaled_ok h6).1, by omega, (scaled_ok h6).2⟩
  · rw [if_pos ⟨rfl, by omega⟩, if_pos ⟨rfl, by omega⟩]
    exact ⟨(scaled_ok h7).1, by omega, (scaled_ok h7).2⟩

theorem new_wf {inv : MatInverse} {nrow ndim : Nat} {at_ : Nat → Nat → ℝ} {b : Block} (h : new inv nrow ndim at_ = .ok b) : WF nrow ndim at_ b := by
  obtain ⟨hd, hr, -, h1, h2, h3, h4, h5, h6, h7, h8, -, h9, h10, h11, h12, h13, -⟩ := new_ok h
  constructor
  · exact h1
  · rw [h1]; exact hd
  · rw [h1]; exact hr
  · rw [h1, h2, List.length_replicate]
  · rw [h1, h3, List.length_replicate]
  · rw [h1, h2, h3]
    rcases hd with rfl | rfl
    · intro a ha
      interval_cases a <;> norm_num [List.replicate]
    · intro a ha
      interval_cases a <;> norm_num [List.replicate]
  · exact h9
  · rw [h10, h1]
  · rw [h1, h11]
  · rw [h1]
    intro m hm j hj
    exact h12 m (by rcases hd with rfl | rfl <;> simp at hr hm <;> omega) j hj
  · rw [h1]
    exact fun _ => h12
  · rw [h1]
    exact h13
  · rw [h4]; simp
  · rw [h5]; simp
  · rw [h6]; simp
  · rw [h7]; simp
  · rw [h8]
    have := Real.pi_pos
    dsimp only
    refine ⟨by positivity, by norm_num, by norm_num, le_refl _, le_refl _⟩

theorem Reached.wf {inv : MatInverse} {nrow ndim : Nat} {at_ : Nat → Nat → ℝ} {b : Block} (h : Reached inv nrow ndim at_ b) : WF nrow ndim at_ b := by
  induction h with
  | new h => exact new_wf h
  | marker v _ hw =>
    obtain ⟨w1, w2, w3, w4, w5, w6, w7, w8, w9, w10, w11, w12, w13, w14, w15, w16, w17⟩ := hw
    constructor <;> assumption
  | ndiv v _ hw => exact setNdiv_wf hw v
  | weights2d wx wy _ hw => exact setDivWeights2d_wf hw wx wy
  | weights3d wx wy wz _ hw => exact setDivWeights3d_wf hw wx wy wz
  | edgeConstraint e v _ hw =>
    unfold setEdgeConstraint
    split
    · exact hw
    split
    · exact hw
    rename_i g1 g2
    obtain ⟨w1, w2, w3, w4, w5, w6, w7, w8, w9, w10, w11, w12, w13, w14, w15, w16, w17⟩ := hw
    constructor <;> try assumption
    intro e' v'
    dsimp only
    cases v with
    | none =>
      dsimp only
      rw [get_hremove]
      split
      · simp
      · exact w13 e' v'
    | some v =>
      dsimp only
      rw [HMap.get_insert]
      split
      · intro _; omega
      · exact w13 e' v'
  | faceConstraint f v _ hw =>
    unfold setFaceConstraint
    split
    · exact hw
    split
    · exact hw
    rename_i g1 g2
    obtain ⟨w1, w2, w3, w4, w5, w6, w7, w8, w9, w10, w11, w12, w13, w14, w15, w16, w17⟩ := hw
    constructor <;> try assumption
    intro e' v'
    dsimp only
    cases v with
    | none =>
      dsimp only
      rw [get_hremove]
      split
      · simp
      · exact w14 e' v'
    | some v =>
      dsimp only
      rw [HMap.get_insert]
      split
      · intro _; omega
      · exact w14 e' v'
  | edgeMarker e v _ hw =>
    unfold setEdgeMarker
    split
    · exact hw
    split
    · exact hw
    rename_i g1 g2
    obtain ⟨w1, w2, w3, w4, w5, w6, w7, w8, w9, w10, w11, w12, w13, w14, w15, w16, w17⟩ := hw
    constructor <;> try assumption
    intro e' v'
    dsimp only
    rw [HMap.get_insert]
    split
    · intro _; split <;> omega
    · exact w15 e' v'
  | faceMarker f v _ hw =>
    unfold setFaceMarker
    split
    · exact hw
    split
    · exact hw
    rename_i g1 g2
    obtain ⟨w1, w2, w3, w4, w5, w6, w7, w8, w9, w10, w11, w12, w13, w14, w15, w16, w17⟩ := hw
    constructor <;> try assumption
    intro e' v'
    dsimp only
    rw [HMap.get_insert]
    split
    · intro _; omega
    · exact w16 e' v'
  | ring v _ hw =>
    unfold setTransformIntoRing
    cases v with
    | none =>
      obtain ⟨w1, w2, w3, w4, w5, w6, w7, w8, w9, w10, w11, w12, w13, w14, w15, w16, w17⟩ := hw
      constructor <;> assumption
    | some a =>
      dsimp only
      split
      · exact hw
      split
      · exact hw
      split
      · exact hw
      split
      · exact hw
      split
      · exact hw
      rename_i g1 g2 g3 g4 g5
      obtain ⟨w1, w2, w3, w4, w5, w6, w7, w8, w9, w10, w11, w12, w13, w14, w15, w16, w17⟩ := hw
      constructor <;> try assumption
      dsimp only
      rw [not_or, not_lt, not_lt] at g4 g5
      exact ⟨not_le.1 g1, not_le.1 g2, not_le.1 g3, g4.1, g5.2⟩

end
end Gemlab.Block
