import Verif.Proofs.Rounded
import Verif.Proofs.GridSearch3

/-! # Proofs about the grid with rounding: keys, insertions, distances, search -/
namespace Gemlab
noncomputable section
open Classical

namespace Rounded
open GridSearch (Inside get2 CWF get2_upd cwf_upd mem_get2 Current current_append)
variable {fl : ℝ → ℝ} {u : ℝ}

/-- The key of a point. -/
def keyOf (fl : ℝ → ℝ) (g : GridSearch) (x : List ℝ) : Nat := ((List.range g.ndim).map fun i => ratio fl g x i * g.coefficient.getD i 0).sum

theorem calcContainerKey_eq (fl : ℝ → ℝ) (g : GridSearch) (x : List ℝ) :
    calcContainerKey fl g x = if Inside g x then some (keyOf fl g x) else none := by
  unfold calcContainerKey
  rw [GridSearch.foldlM_option_sum (fun i => at' x i < at' g.xmin i ∨ at' x i > at' g.xmax i) (fun i => ratio fl g x i * g.coefficient.getD i 0)]
  have : (∃ i ∈ List.range g.ndim, at' x i < at' g.xmin i ∨ at' x i > at' g.xmax i) ↔ ¬ Inside g x := by
    unfold Inside
    push Not
    simp only [List.mem_range]
    constructor
    · rintro ⟨i, hi, h⟩
      refine ⟨i, hi, fun h' => ?_⟩
      rcases h with h | h
      · linarith
      · exact h
    · rintro ⟨i, hi, h⟩
      refine ⟨i, hi, ?_⟩
      by_cases h1 : at' x i < at' g.xmin i
      · exact Or.inl h1
      · exact Or.inr (h (not_lt.1 h1))
  simp only [this]
  by_cases h : Inside g x
  · rw [if_neg (not_not.2 h), if_pos h, Nat.zero_add]; rfl
  · rw [if_pos h, if_neg h]

theorem keyOf2 {g : GridSearch} (hw : WF fl g) (h : g.ndim = 2) (x : List ℝ) :
    keyOf fl g x = rIdx fl g 0 (at' x 0) + rIdx fl g 1 (at' x 1) * g.ndiv.getD 0 0 := by
  unfold keyOf
  rw [h, hw.coef]
  simp [List.range_succ, ratio_eq]

theorem keyOf3 {g : GridSearch} (hw : WF fl g) (h : g.ndim = 3) (x : List ℝ) :
    keyOf fl g x = rIdx fl g 0 (at' x 0) + rIdx fl g 1 (at' x 1) * g.ndiv.getD 0 0
      + rIdx fl g 2 (at' x 2) * (g.ndiv.getD 0 0 * g.ndiv.getD 1 0) := by
  unfold keyOf
  rw [h, hw.coef]
  simp [List.range_succ, ratio_eq, add_assoc]

/-- A query within tolerance (per direction) shares a container with a halo corner. -/
theorem halo_key (R : Rounding fl u) {g : GridSearch} (hw : WF fl g) {B : ℝ} (hf : Fits u B g) {x q : List ℝ} (hx : Inside g x) (hq : Inside g q)
    (hfl : ∀ i < g.ndim, IsFloat fl (at' q i)) (h : ∀ i < g.ndim, |at' q i - at' x i| ≤ g.tolerance) :
    ∃ c ∈ setHalo fl g x, Inside g c ∧ keyOf fl g c = keyOf fl g q := by
  have hd := hw.ndim
  have d : ∀ i < g.ndim, ∃ v, (v = fl (at' x i - g.tolerance) ∨ v = fl (at' x i + g.tolerance)) ∧
      at' g.xmin i ≤ v ∧ v ≤ at' g.xmax i ∧ rIdx fl g i v = rIdx fl g i (at' q i) := by
    intro i hi
    exact halo_dim R hw hf hi (hx i hi).1 (hx i hi).2 (hq i hi).1 (hq i hi).2 (hfl i hi) (h i hi)
  obtain ⟨v0, c0, l0, u0, k0⟩ := d 0 (by omega)
  obtain ⟨v1, c1, l1, u1, k1⟩ := d 1 (by omega)
  rcases hd with h2 | h3
  · refine ⟨[v0, v1], ?_, ?_, ?_⟩
    · unfold setHalo
      rw [if_pos h2]
      rcases c0 with rfl | rfl <;> rcases c1 with rfl | rfl <;> simp
    · intro i hi
      rw [h2] at hi
      interval_cases i
      · exact ⟨l0, u0⟩
      · exact ⟨l1, u1⟩
    · rw [keyOf2 hw h2, keyOf2 hw h2, ← k0, ← k1]; rfl
  · obtain ⟨v2, c2, l2, u2, k2⟩ := d 2 (by omega)
    refine ⟨[v0, v1, v2], ?_, ?_, ?_⟩
    · unfold setHalo
      rw [if_neg (by omega)]
      rcases c0 with rfl | rfl <;> rcases c1 with rfl | rfl <;> rcases c2 with rfl | rfl <;> simp
    · intro i hi
      rw [h3] at hi
      interval_cases i
      · exact ⟨l0, u0⟩
      · exact ⟨l1, u1⟩
      · exact ⟨l2, u2⟩
    · rw [keyOf3 hw h3, keyOf3 hw h3, ← k0, ← k1, ← k2]; rfl

/-! ## insert -/

/-- The keys under which a point is stored. -/
def IsKey (fl : ℝ → ℝ) (g : GridSearch) (x : List ℝ) (k : Nat) : Prop :=
  k = keyOf fl g x ∨ ∃ c ∈ setHalo fl g x, Inside g c ∧ keyOf fl g c = k

theorem insert_fold (fl : ℝ → ℝ) (g : GridSearch) (id : Nat) (x : List ℝ) (key : Nat) (L : List (List ℝ))
    (cs : HMap Nat (HMap Nat (List ℝ))) (hcs : CWF cs) :
    ∃ cs', L.foldl (fun g' corner =>
          match calcContainerKey fl g' corner with
          | some keyCorner => if keyCorner ≠ key then GridSearch.updateOrInsert g' keyCorner id x else g'
          | none => g') { g with containers := cs } = { g with containers := cs' } ∧ CWF cs' ∧
      ∀ k id', get2 cs' k id' = if id' = id ∧ k ≠ key ∧ (∃ c ∈ L, Inside g c ∧ keyOf fl g c = k) then some x else get2 cs k id' := by
  induction L generalizing cs with
  | nil => exact ⟨cs, rfl, hcs, by simp⟩
  | cons c L ih =>
    rw [List.foldl_cons]
    have hck : calcContainerKey fl { g with containers := cs } c = calcContainerKey fl g c := rfl
    rw [hck, calcContainerKey_eq]
    by_cases hin : Inside g c
    · rw [if_pos hin]
      dsimp only
      by_cases hk : keyOf fl g c ≠ key
      · rw [if_pos hk]
        obtain ⟨cs', e1, e2, e3⟩ := ih (cs.insert (keyOf fl g c) (((cs.get (keyOf fl g c)).getD []).insert id x)) (cwf_upd hcs _ _ _)
        refine ⟨cs', e1, e2, ?_⟩
        intro k id'
        rw [e3, get2_upd]
        by_cases hid : id' = id
        · by_cases hk2 : k = keyOf fl g c
          · rw [hk2]
            have : ∃ c' ∈ c :: L, Inside g c' ∧ keyOf fl g c' = keyOf fl g c := ⟨c, by simp, hin, rfl⟩
            rw [if_pos (⟨hid, hk, this⟩ : id' = id ∧ keyOf fl g c ≠ key ∧ _)]
            rw [if_pos (⟨rfl, hid⟩ : keyOf fl g c = keyOf fl g c ∧ id' = id)]
            split <;> rfl
          · have h1 : (∃ c' ∈ c :: L, Inside g c' ∧ keyOf fl g c' = k) ↔ ∃ c' ∈ L, Inside g c' ∧ keyOf fl g c' = k := by
              constructor
              · rintro ⟨c', hc', h⟩
                rcases List.mem_cons.1 hc' with rfl | hc'
                · exact absurd h.2.symm hk2
                · exact ⟨c', hc', h⟩
              · rintro ⟨c', hc', h⟩; exact ⟨c', List.mem_cons_of_mem _ hc', h⟩
            rw [if_neg (fun h => hk2 h.1 : ¬(k = keyOf fl g c ∧ id' = id))]
            simp only [h1]
        · simp [hid]
      · rw [if_neg hk]
        obtain ⟨cs', e1, e2, e3⟩ := ih cs hcs
        refine ⟨cs', e1, e2, ?_⟩
        rw [not_not] at hk
        intro k id'
        rw [e3]
        have h1 : (k ≠ key ∧ ∃ c' ∈ c :: L, Inside g c' ∧ keyOf fl g c' = k) ↔ k ≠ key ∧ ∃ c' ∈ L, Inside g c' ∧ keyOf fl g c' = k := by
          constructor
          · rintro ⟨h0, c', hc', h⟩
            rcases List.mem_cons.1 hc' with rfl | hc'
            · exact absurd (h.2.symm.trans hk) h0
            · exact ⟨h0, c', hc', h⟩
          · rintro ⟨h0, c', hc', h⟩; exact ⟨h0, c', List.mem_cons_of_mem _ hc', h⟩
        simp only [h1]
    · rw [if_neg hin]
      dsimp only
      obtain ⟨cs', e1, e2, e3⟩ := ih cs hcs
      refine ⟨cs', e1, e2, ?_⟩
      intro k id'
      rw [e3]
      have h1 : (∃ c' ∈ c :: L, Inside g c' ∧ keyOf fl g c' = k) ↔ ∃ c' ∈ L, Inside g c' ∧ keyOf fl g c' = k := by
        constructor
        · rintro ⟨c', hc', h⟩
          rcases List.mem_cons.1 hc' with rfl | hc'
          · exact absurd h.1 hin
          · exact ⟨c', hc', h⟩
        · rintro ⟨c', hc', h⟩; exact ⟨c', List.mem_cons_of_mem _ hc', h⟩
      simp only [h1]

/-- Effect of `insert`. -/
theorem insert_spec (fl : ℝ → ℝ) {g : GridSearch} (hcs : CWF g.containers) (id : Nat) (x : List ℝ) :
    (x.length = g.ndim ∧ Inside g x → ∃ cs', insert fl g id x = .ok { g with containers := cs' } ∧ CWF cs' ∧
      ∀ k id', get2 cs' k id' = if id' = id ∧ IsKey fl g x k then some x else get2 g.containers k id') ∧
    (¬(x.length = g.ndim ∧ Inside g x) → ∃ e, insert fl g id x = .err e) := by
  unfold insert
  rw [calcContainerKey_eq]
  constructor
  · rintro ⟨hl, hin⟩
    rw [if_neg (not_not.2 hl), if_pos hin]
    obtain ⟨cs', e1, e2, e3⟩ := insert_fold fl g id x (keyOf fl g x) (setHalo fl g x)
      (g.containers.insert (keyOf fl g x) (((g.containers.get (keyOf fl g x)).getD []).insert id x)) (cwf_upd hcs _ _ _)
    refine ⟨cs', congrArg Res.ok e1, e2, ?_⟩
    intro k id'
    rw [e3, get2_upd]
    unfold IsKey
    by_cases hid : id' = id <;> by_cases hk : k = keyOf fl g x <;> simp [hid, hk]
  · intro h
    by_cases hl : x.length = g.ndim
    · have : ¬ Inside g x := fun hin => h ⟨hl, hin⟩
      rw [if_neg (not_not.2 hl), if_neg this]; exact ⟨_, rfl⟩
    · rw [if_pos hl]; exact ⟨_, rfl⟩

/-- Invariant of the grid. -/
structure Inv (fl : ℝ → ℝ) (g : GridSearch) (hist : List (Nat × List ℝ)) : Prop where
  wf : WF fl g
  cwf : CWF g.containers
  sound : ∀ k id x, get2 g.containers k id = some x → (id, x) ∈ hist ∧ x.length = g.ndim ∧ Inside g x
  cur : ∀ id x, Current hist id x → x.length = g.ndim ∧ Inside g x ∧ ∀ k, IsKey fl g x k → get2 g.containers k id = some x

theorem inv_insert {g g' : GridSearch} {hist : List (Nat × List ℝ)} {id : Nat} {x : List ℝ} (hi : Inv fl g hist)
    (h : insert fl g id x = .ok g') : Inv fl g' (hist ++ [(id, x)]) ∧ ∃ cs, g' = { g with containers := cs } := by
  by_cases hv : x.length = g.ndim ∧ Inside g x
  · obtain ⟨cs', e1, e2, e3⟩ := (insert_spec fl hi.cwf id x).1 hv
    rw [h] at e1
    simp only [Res.ok.injEq] at e1
    subst e1
    have hwf : WF fl { g with containers := cs' } := { hi.wf with }
    refine ⟨⟨hwf, e2, ?_, ?_⟩, cs', rfl⟩
    · intro k id' y hy
      dsimp only at hy
      rw [e3] at hy
      split at hy
      · rename_i hc
        simp only [Option.some.injEq] at hy
        rw [hc.1, ← hy]
        exact ⟨by simp, hv.1, hv.2⟩
      · obtain ⟨a, b, c⟩ := hi.sound k id' y hy
        exact ⟨by simp [a], b, c⟩
    · intro id' y hc
      dsimp only
      rcases current_append hc with ⟨rfl, rfl⟩ | ⟨hne, hc⟩
      · refine ⟨hv.1, hv.2, ?_⟩
        intro k hk
        rw [e3, if_pos ⟨rfl, hk⟩]
      · obtain ⟨a, b, c⟩ := hi.cur id' y hc
        refine ⟨a, b, ?_⟩
        intro k hk
        rw [e3, if_neg (fun h => hne h.1)]
        exact c k hk
  · obtain ⟨e, he⟩ := (insert_spec fl hi.cwf id x).2 hv
    rw [he] at h; simp at h

/-! ## Distances -/

/-- The square of a rounded difference. -/
def sq (fl : ℝ → ℝ) (a b : List ℝ) (i : Nat) : ℝ := fl (fl (at' b i - at' a i) * fl (at' b i - at' a i))

/-- The rounded distance. -/
def dist (fl : ℝ → ℝ) (a b : List ℝ) : ℝ :=
  if a.length = 2 then fl (Real.sqrt (fl (sq fl a b 0 + sq fl a b 1))) else fl (Real.sqrt (fl (fl (sq fl a b 0 + sq fl a b 1) + sq fl a b 2)))

theorem pointPointDistance_eq {a b : List ℝ} (ha : a.length = 2 ∨ a.length = 3) (hb : b.length = a.length) :
    pointPointDistance fl a b = .ok (dist fl a b) := by
  unfold pointPointDistance dist sq
  rw [if_neg (by omega), if_neg (by omega)]
  split <;> rfl

section distances
variable (R : Rounding fl u)
include R

theorem sq_bounds (a b : List ℝ) (i : Nat) : (1 - u) ^ 3 * (at' b i - at' a i) ^ 2 ≤ sq fl a b i ∧ sq fl a b i ≤ (1 + u) ^ 3 * (at' b i - at' a i) ^ 2 := by
  obtain ⟨u0, u1⟩ := R.small
  have e := R.error (at' b i - at' a i)
  set d := at' b i - at' a i
  have t1 : |fl d| ≤ (1 + u) * |d| := by
    have := abs_sub_abs_le_abs_sub (fl d) d; linarith
  have t2 : (1 - u) * |d| ≤ |fl d| := by
    have := abs_sub_abs_le_abs_sub d (fl d); rw [abs_sub_comm d] at this; linarith
  have hsq : fl d * fl d = |fl d| ^ 2 := by rw [sq_abs]; ring
  have hd : d ^ 2 = |d| ^ 2 := (sq_abs d).symm
  have hn : 0 ≤ fl d * fl d := mul_self_nonneg _
  have s1 : |fl d| ^ 2 ≤ ((1 + u) * |d|) ^ 2 := pow_le_pow_left₀ (abs_nonneg _) t1 2
  have s2 : ((1 - u) * |d|) ^ 2 ≤ |fl d| ^ 2 := pow_le_pow_left₀ (mul_nonneg (by linarith) (abs_nonneg _)) t2 2
  have l := R.lower hn
  have h := R.upper hn
  unfold sq
  rw [show at' b i - at' a i = d from rfl]
  rw [hsq] at l h ⊢
  rw [hd]
  constructor
  · calc (1 - u) ^ 3 * |d| ^ 2 = (1 - u) * ((1 - u) * |d|) ^ 2 := by ring
      _ ≤ (1 - u) * |fl d| ^ 2 := mul_le_mul_of_nonneg_left s2 (by linarith)
      _ ≤ _ := l
  · calc _ ≤ (1 + u) * |fl d| ^ 2 := h
      _ ≤ (1 + u) * ((1 + u) * |d|) ^ 2 := mul_le_mul_of_nonneg_left s1 (by linarith)
      _ = _ := by ring

/-- A rounded sum. -/
theorem sum_bounds {p q P Q : ℝ} {n : Nat} (hp : 0 ≤ p) (hq : 0 ≤ q) (h1 : (1 - u) ^ n * P ≤ p ∧ p ≤ (1 + u) ^ n * P) (h2 : (1 - u) ^ n * Q ≤ q ∧ q ≤ (1 + u) ^ n * Q) :
    (1 - u) ^ (n + 1) * (P + Q) ≤ fl (p + q) ∧ fl (p + q) ≤ (1 + u) ^ (n + 1) * (P + Q) := by
  obtain ⟨u0, u1⟩ := R.small
  have hn : 0 ≤ p + q := add_nonneg hp hq
  have l := R.lower hn
  have h := R.upper hn
  constructor
  · calc (1 - u) ^ (n + 1) * (P + Q) = (1 - u) * ((1 - u) ^ n * P + (1 - u) ^ n * Q) := by ring
      _ ≤ (1 - u) * (p + q) := mul_le_mul_of_nonneg_left (by linarith [h1.1, h2.1]) (by linarith)
      _ ≤ _ := l
  · calc _ ≤ (1 + u) * (p + q) := h
      _ ≤ (1 + u) * ((1 + u) ^ n * P + (1 + u) ^ n * Q) := mul_le_mul_of_nonneg_left (by linarith [h1.2, h2.2]) (by linarith)
      _ = _ := by ring

theorem weaken {p P : ℝ} {n m : Nat} (h : n ≤ m) (hP : 0 ≤ P) (h1 : (1 - u) ^ n * P ≤ p ∧ p ≤ (1 + u) ^ n * P) : (1 - u) ^ m * P ≤ p ∧ p ≤ (1 + u) ^ m * P := by
  obtain ⟨u0, u1⟩ := R.small
  exact ⟨(mul_le_mul_of_nonneg_right (pow_le_pow_of_le_one (by linarith) (by linarith) h) hP).trans h1.1,
    h1.2.trans (mul_le_mul_of_nonneg_right (pow_le_pow_right₀ (by linarith) h) hP)⟩

/-- A rounded square root. -/
theorem sqrt_bounds {p P : ℝ} (h1 : (1 - u) ^ 6 * P ^ 2 ≤ p ∧ p ≤ (1 + u) ^ 6 * P ^ 2) (hP : 0 ≤ P) :
    (1 - u) ^ 4 * P ≤ fl (Real.sqrt p) ∧ fl (Real.sqrt p) ≤ (1 + u) ^ 4 * P := by
  obtain ⟨u0, u1⟩ := R.small
  have hn := Real.sqrt_nonneg p
  have l := R.lower hn
  have h := R.upper hn
  have a : (1 - u) ^ 3 * P ≤ Real.sqrt p := by
    apply Real.le_sqrt_of_sq_le
    calc _ = (1 - u) ^ 6 * P ^ 2 := by ring
      _ ≤ p := h1.1
  have b : Real.sqrt p ≤ (1 + u) ^ 3 * P := by
    rw [Real.sqrt_le_left (by positivity)]
    calc p ≤ (1 + u) ^ 6 * P ^ 2 := h1.2
      _ = _ := by ring
  constructor
  · calc (1 - u) ^ 4 * P = (1 - u) * ((1 - u) ^ 3 * P) := by ring
      _ ≤ (1 - u) * Real.sqrt p := mul_le_mul_of_nonneg_left a (by linarith)
      _ ≤ _ := l
  · calc _ ≤ (1 + u) * Real.sqrt p := h
      _ ≤ (1 + u) * ((1 + u) ^ 3 * P) := mul_le_mul_of_nonneg_left b (by linarith)
      _ = _ := by ring

/-- The rounded distance is near the distance. -/
theorem dist_bounds {a b : List ℝ} (ha : a.length = 2 ∨ a.length = 3) (hb : b.length = a.length) :
    (1 - u) ^ 4 * d3 a b ≤ dist fl a b ∧ dist fl a b ≤ (1 + u) ^ 4 * d3 a b := by
  obtain ⟨u0, u1⟩ := R.small
  have hs : ∀ i, 0 ≤ sq fl a b i := fun i => R.nonneg (mul_self_nonneg _)
  have s2 := sum_bounds R (hs 0) (hs 1) (sq_bounds R a b 0) (sq_bounds R a b 1)
  have hd : 0 ≤ d3 a b := Real.sqrt_nonneg _
  have hd2 : d3 a b ^ 2 = (at' b 0 - at' a 0) ^ 2 + (at' b 1 - at' a 1) ^ 2 + (at' b 2 - at' a 2) ^ 2 := by
    unfold d3 n3
    rw [Real.sq_sqrt (add_nonneg (add_nonneg (mul_self_nonneg _) (mul_self_nonneg _)) (mul_self_nonneg _))]
    ring
  unfold dist
  rcases ha with h | h
  · rw [if_pos h]
    refine sqrt_bounds R (weaken R (n := 4) (by norm_num) (by positivity) ?_) hd
    rw [hd2, at'_of_ge (v := a) (i := 2) (by omega), at'_of_ge (v := b) (i := 2) (by omega)]
    simpa using s2
  · rw [if_neg (by omega)]
    refine sqrt_bounds R (weaken R (n := 5) (by norm_num) (by positivity) ?_) hd
    rw [hd2]
    exact sum_bounds R (R.nonneg (add_nonneg (hs 0) (hs 1))) (hs 2) s2 (weaken R (by norm_num) (sq_nonneg _) (sq_bounds R a b 2))

theorem tolDist_bounds {g : GridSearch} (hw : WF fl g) :
    (1 - u) ^ 2 * (Real.sqrt g.ndim * g.tolerance) ≤ g.tolDist ∧ g.tolDist ≤ (1 + u) ^ 2 * (Real.sqrt g.ndim * g.tolerance) := by
  obtain ⟨u0, u1⟩ := R.small
  have ht := hw.tolPos
  have hr := Real.sqrt_nonneg (g.ndim : ℝ)
  have l1 := R.lower hr
  have h1 := R.upper hr
  have hn : 0 ≤ fl (Real.sqrt g.ndim) * g.tolerance := mul_nonneg (R.nonneg hr) ht.le
  have l2 := R.lower hn
  have h2 := R.upper hn
  rw [hw.tolDist]
  constructor
  · calc _ = (1 - u) * ((1 - u) * Real.sqrt g.ndim * g.tolerance) := by ring
      _ ≤ (1 - u) * (fl (Real.sqrt g.ndim) * g.tolerance) := mul_le_mul_of_nonneg_left (mul_le_mul_of_nonneg_right l1 ht.le) (by linarith)
      _ ≤ _ := l2
  · calc _ ≤ (1 + u) * (fl (Real.sqrt g.ndim) * g.tolerance) := h2
      _ ≤ (1 + u) * ((1 + u) * Real.sqrt g.ndim * g.tolerance) := mul_le_mul_of_nonneg_left (mul_le_mul_of_nonneg_right h1 ht.le) (by linarith)
      _ = _ := by ring

end distances

/-! ## search -/

theorem searchLoop_spec (tolDist : ℝ) (q : List ℝ) (hq : q.length = 2 ∨ q.length = 3) (l : List (Nat × List ℝ))
    (hl : ∀ e ∈ l, e.2.length = q.length) :
    ∃ r, searchLoop fl tolDist q l = .ok r ∧ (∀ id, r = some id → ∃ x, (id, x) ∈ l ∧ dist fl x q ≤ tolDist) ∧
      (r = none → ∀ e ∈ l, tolDist < dist fl e.2 q) := by
  induction l with
  | nil => exact ⟨none, rfl, by simp, by simp⟩
  | cons e l ih =>
    obtain ⟨id, xo⟩ := e
    have hlen := hl (id, xo) (by simp)
    unfold searchLoop
    dsimp only at hlen
    rw [pointPointDistance_eq (by omega) (by omega), Res.bind_ok]
    by_cases hd : dist fl xo q ≤ tolDist
    · rw [if_pos hd]
      refine ⟨_, rfl, ?_, by simp⟩
      intro id' h
      simp only [Option.some.injEq] at h
      exact ⟨xo, by simp [h], hd⟩
    · rw [if_neg hd]
      obtain ⟨r, h1, h2, h3⟩ := ih (fun e he => hl e (List.mem_cons_of_mem _ he))
      refine ⟨r, h1, ?_, ?_⟩
      · intro id' h
        obtain ⟨x, hx, hx'⟩ := h2 id' h
        exact ⟨x, List.mem_cons_of_mem _ hx, hx'⟩
      · intro h e he
        rcases List.mem_cons.1 he with rfl | he
        · exact not_le.1 hd
        · exact h3 h e he

theorem search_spec {g : GridSearch} {hist : List (Nat × List ℝ)} (hi : Inv fl g hist)
    {iter : List (Nat × List ℝ) → List (Nat × List ℝ)} (hiter : IterOrder iter) {q : List ℝ} (hq : q.length = g.ndim)
    (hin : Inside g q) :
    ∃ r, search fl iter g q = .ok r ∧ (∀ id, r = some id → ∃ x, (id, x) ∈ hist ∧ x.length = g.ndim ∧ dist fl x q ≤ g.tolDist) ∧
      (r = none → ∀ id x, get2 g.containers (keyOf fl g q) id = some x → g.tolDist < dist fl x q) := by
  unfold search
  rw [if_neg (not_not.2 hq), calcContainerKey_eq, if_pos hin]
  dsimp only
  cases hg : g.containers.get (keyOf fl g q) with
  | none =>
    refine ⟨none, rfl, by simp, ?_⟩
    intro _ id x h
    unfold get2 at h
    rw [hg] at h; simp at h
  | some c =>
    dsimp only
    have hmem : ∀ e ∈ iter c, get2 g.containers (keyOf fl g q) e.1 = some e.2 := by
      intro e he
      exact (mem_get2 hi.cwf hg).1 (hiter.mem.1 he)
    obtain ⟨r, h1, h2, h3⟩ := searchLoop_spec (fl := fl) g.tolDist q (by rw [hq]; exact hi.wf.ndim) (iter c)
      (fun e he => by rw [hq]; exact (hi.sound _ _ _ (hmem e he)).2.1)
    refine ⟨r, h1, ?_, ?_⟩
    · intro id h
      obtain ⟨x, hx, hd⟩ := h2 id h
      obtain ⟨a, b, _⟩ := hi.sound _ _ _ (hmem _ hx)
      exact ⟨x, a, b, hd⟩
    · intro h id x hx
      exact h3 h (id, x) (hiter.mem.2 ((mem_get2 hi.cwf hg).2 hx))

theorem search_err {g : GridSearch} {iter : List (Nat × List ℝ) → List (Nat × List ℝ)} {q : List ℝ} (h : ¬ (q.length = g.ndim ∧ Inside g q)) :
    ∃ e, search fl iter g q = .err e := by
  unfold search
  by_cases hq : q.length = g.ndim
  · rw [if_neg (not_not.2 hq), calcContainerKey_eq, if_neg fun hin => h ⟨hq, hin⟩]
    exact ⟨_, rfl⟩
  · rw [if_pos hq]; exact ⟨_, rfl⟩

end Rounded
end
end Gemlab
