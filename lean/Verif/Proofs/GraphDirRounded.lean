import Verif.Spec.RoundedNumbers
import Verif.Proofs.GraphDir2
import Verif.Proofs.Rounded
import Mathlib.Algebra.Order.Field.Basic

/-! # Helper lemmas for the directed graph: accuracy with rounding -/
namespace Gemlab.GraphDir
open Gemlab.Spec
noncomputable section

variable {fl : ℝ → ℝ} {u : ℝ} (R : Rounding fl u)

/-- The numbers of the rounding. -/
abbrev RN (R : Rounding fl u) : Type := Num fl R.idem

theorem val_le {a b : RN R} : a ≤ b ↔ a.val ≤ b.val := Iff.rfl
theorem val_lt {a b : RN R} : a < b ↔ a.val < b.val := Iff.rfl
theorem val_add (a b : RN R) : (a + b).val = fl (a.val + b.val) := rfl
theorem val_zero : (0 : RN R).val = 0 := R.zero
theorem val_fl (a : RN R) : fl a.val = a.val := a.2

theorem val_nonneg {a : RN R} : 0 ≤ a ↔ 0 ≤ a.val := by rw [val_le, val_zero]

theorem roundedAdd_num : RoundedAdd (RN R) where
  le_left := by
    intro a b _ hb
    rw [val_nonneg] at hb
    exact (val_fl R a).symm.le.trans (R.mono (show a.val ≤ a.val + b.val by linarith))
  le_right := by
    intro a b ha _
    rw [val_nonneg] at ha
    exact (val_fl R b).symm.le.trans (R.mono (show b.val ≤ a.val + b.val by linarith))
  mono := by
    intro a b c d _ _ h1 h2
    rw [val_le] at *
    rw [val_add, val_add]
    exact R.mono (add_le_add h1 h2)

/-- Joining two walks. -/
theorem Via.append {A : Nat → Nat → ℝ → Prop} {n i k j : Nat} {s1 s2 : ℝ} (h1 : Via A n i k s1) (hk : k < n) (h2 : Via A n k j s2) :
    Via A n i j (s1 + s2) := by
  induction h1 with
  | arc h => exact .cons h hk h2
  | cons h ha _ ih => rw [add_assoc]; exact .cons h ha (ih hk h2)

/-- What one more phase costs in accuracy. -/
def rho (u : ℝ) : ℝ := (1 + u) / (1 - u)

theorem one_le_rho (R : Rounding fl u) : 1 ≤ rho u := by
  obtain ⟨h0, h1⟩ := R.small
  rw [rho, le_div_iff₀ (by linarith)]; linarith

theorem sum_le_rho (R : Rounding fl u) {x : ℝ} (hx : 0 ≤ x) : (1 + u) * x ≤ rho u * fl x := by
  obtain ⟨h0, h1⟩ := R.small
  have h2 := R.lower hx
  have h3 : (0 : ℝ) < 1 - u := by linarith
  rw [rho, div_mul_eq_mul_div, le_div_iff₀ h3]
  nlinarith

variable {R}

/-- What holds of the matrices after the phases `0, …, k-1`, with rounding. -/
structure ExR (R : Rounding fl u) (A : Nat → Nat → ℝ → Prop) (big : RN R) (n k : Nat) (m : DN (RN R)) : Prop where
  inv : Inv n m
  leBig : ∀ i j, i < n → j < n → m.dist i j ≤ big
  low : ∀ i j s, i < n → j < n → i ≠ j → Via A k i j s → (m.dist i j).val ≤ (1 + u) ^ k * s
  high : ∀ i j, i < n → j < n → i ≠ j → m.dist i j < big → ∃ s, Via A n i j s ∧ (1 - u) ^ k * s ≤ (m.dist i j).val
  none_big : ∀ i j, i < n → j < n → i ≠ j → m.next i j = none → m.dist i j = big
  some_lt : ∀ i j a, i < n → j < n → i ≠ j → m.next i j = some a → m.dist i j < big ∧
    ∃ w, A i a w ∧ (a = j → w ≤ rho u ^ k * (m.dist i j).val) ∧ (a ≠ j → w + (m.dist a j).val ≤ rho u ^ k * (m.dist i j).val)

theorem ExR.step {A : Nat → Nat → ℝ → Prop} (hA : ∀ i j w, A i j w → 0 ≤ w) {big : RN R} {n k : Nat} {m : DN (RN R)}
    (H : ExR R A big n k m) (hk : k < n) : ExR R A big n (k + 1) (phase n m k) := by
  obtain ⟨u0, u1⟩ := R.small
  have RA := roundedAdd_num R
  have nn : ∀ i j, i < n → j < n → 0 ≤ (m.dist i j).val := fun i j hi hj => (val_nonneg R).1 (H.inv.nonneg i j hi hj)
  have old : ∀ i j, i < n → j < n → ((phase n m k).dist i j).val ≤ (m.dist i j).val := fun i j hi hj => phase_le_old RA H.inv.nonneg hk hi hj
  have sum : ∀ i j, i < n → j < n → ((phase n m k).dist i j).val ≤ fl ((m.dist i k).val + (m.dist k j).val) :=
    fun i j hi hj => phase_le_sum RA H.inv.nonneg hk hi hj
  have one : ∀ q : ℕ, (1 : ℝ) ≤ (1 + u) ^ q := fun q => one_le_pow₀ (by linarith)
  have hrho := one_le_rho R
  have rhoP : ∀ q : ℕ, (1 : ℝ) ≤ rho u ^ q := fun q => one_le_pow₀ hrho
  have notk : ∀ i j, i < n → j < n → m.dist i j > m.dist i k + m.dist k j → i ≠ k ∧ j ≠ k := by
    intro i j hi hj hu
    constructor
    · rintro rfl
      exact absurd hu (not_lt.2 (RA.le_right _ _ (H.inv.nonneg _ _ hi hi) (H.inv.nonneg _ _ hi hj)))
    · rintro rfl
      exact absurd hu (not_lt.2 (RA.le_left _ _ (H.inv.nonneg _ _ hi hj) (H.inv.nonneg _ _ hj hj)))
  refine ⟨phase_inv RA H.inv hk, fun i j hi hj => le_trans (phase_le_old RA H.inv.nonneg hk hi hj) (H.leBig i j hi hj), ?_, ?_, ?_, ?_⟩
  · intro i j s hi hj hij hv
    have up : ∀ s', 0 ≤ s' → s' ≤ s → (1 + u) ^ k * s' ≤ (1 + u) ^ (k + 1) * s := by
      intro s' h0 h
      have e : (1 + u) ^ k ≤ (1 + u) ^ (k + 1) := pow_le_pow_right₀ (by linarith) (by omega)
      exact mul_le_mul e h h0 (by linarith [one (k + 1)])
    rcases hv.split hA with hv | ⟨s1, s2, h1, h2, h3⟩
    · exact (old i j hi hj).trans ((H.low i j s hi hj hij hv).trans (up s (hv.nonneg hA) le_rfl))
    · have n1 := h1.nonneg hA
      have n2 := h2.nonneg hA
      by_cases hik : i = k
      · subst hik
        exact (old i j hi hj).trans ((H.low i j s2 hi hj hij h2).trans (up s2 n2 (by linarith)))
      by_cases hjk : j = k
      · subst hjk
        exact (old i j hi hj).trans ((H.low i j s1 hi hj hij h1).trans (up s1 n1 (by linarith)))
      · refine (sum i j hi hj).trans ((R.upper (add_nonneg (nn i k hi hk) (nn k j hk hj))).trans ?_)
        have l1 := H.low i k s1 hi hk hik h1
        have l2 := H.low k j s2 hk hj (Ne.symm hjk) h2
        rw [pow_succ, mul_comm ((1 + u) ^ k), mul_assoc]
        refine mul_le_mul_of_nonneg_left ?_ (by linarith)
        have : (1 + u) ^ k * (s1 + s2) ≤ (1 + u) ^ k * s := mul_le_mul_of_nonneg_left h3 (by linarith [one k])
        linarith
  · intro i j hi hj hij hlt
    rw [phase_dist RA H.inv.nonneg hk hi hj] at hlt ⊢
    have weak : ∀ (q s : ℝ), 0 ≤ s → (1 - u) ^ k * s ≤ q → (1 - u) ^ (k + 1) * s ≤ q := by
      intro q s h0 h
      refine le_trans (mul_le_mul_of_nonneg_right ?_ h0) h
      exact pow_le_pow_of_le_one (by linarith) (by linarith) (by omega)
    by_cases hu : m.dist i j > m.dist i k + m.dist k j
    · rw [if_pos hu] at hlt ⊢
      obtain ⟨hik, hjk⟩ := notk i j hi hj hu
      have b1 : m.dist i k < big := lt_of_le_of_lt (RA.le_left _ _ (H.inv.nonneg _ _ hi hk) (H.inv.nonneg _ _ hk hj)) hlt
      have b2 : m.dist k j < big := lt_of_le_of_lt (RA.le_right _ _ (H.inv.nonneg _ _ hi hk) (H.inv.nonneg _ _ hk hj)) hlt
      obtain ⟨s1, v1, e1⟩ := H.high i k hi hk hik b1
      obtain ⟨s2, v2, e2⟩ := H.high k j hk hj (Ne.symm hjk) b2
      refine ⟨s1 + s2, v1.append hk v2, ?_⟩
      rw [val_add]
      refine le_trans ?_ (R.lower (add_nonneg (nn i k hi hk) (nn k j hk hj)))
      rw [pow_succ, mul_comm ((1 - u) ^ k), mul_assoc]
      refine mul_le_mul_of_nonneg_left ?_ (by linarith)
      linarith
    · rw [if_neg hu] at hlt ⊢
      obtain ⟨s, v, e⟩ := H.high i j hi hj hij hlt
      exact ⟨s, v, weak _ s (v.nonneg hA) e⟩
  · intro i j hi hj hij hn
    rw [phase_next RA H.inv.nonneg hk hi hj] at hn
    rw [phase_dist RA H.inv.nonneg hk hi hj]
    by_cases hu : m.dist i j > m.dist i k + m.dist k j
    · rw [if_pos hu] at hn
      have := H.none_big i k hi hk (notk i j hi hj hu).1 hn
      have h2 := H.leBig i j hi hj
      have h3 := RA.le_left _ _ (H.inv.nonneg _ _ hi hk) (H.inv.nonneg _ _ hk hj)
      rw [this] at hu h3
      exact absurd (lt_of_lt_of_le hu h2) (not_lt.2 h3)
    · rw [if_neg hu] at hn ⊢
      exact H.none_big i j hi hj hij hn
  · intro i j a hi hj hij hn
    rw [phase_next RA H.inv.nonneg hk hi hj] at hn
    rw [phase_dist RA H.inv.nonneg hk hi hj]
    have powUp : ∀ x y : ℝ, 0 ≤ y → x ≤ rho u ^ k * y → x ≤ rho u ^ (k + 1) * y := by
      intro x y h0 h
      exact h.trans (mul_le_mul_of_nonneg_right (pow_le_pow_right₀ hrho (by omega)) h0)
    by_cases hu : m.dist i j > m.dist i k + m.dist k j
    · rw [if_pos hu] at hn ⊢
      obtain ⟨hik, hjk⟩ := notk i j hi hj hu
      obtain ⟨_, w, hw, e1, e2⟩ := H.some_lt i k a hi hk hik hn
      have ha := H.inv.bound i k a hi hk hn
      have hw0 := hA _ _ _ hw
      have nik := nn i k hi hk
      have nkj := nn k j hk hj
      have le1 : (m.dist i k).val ≤ (m.dist i k + m.dist k j).val := RA.le_left _ _ (H.inv.nonneg _ _ hi hk) (H.inv.nonneg _ _ hk hj)
      have nsum : 0 ≤ (m.dist i k + m.dist k j).val := nik.trans le1
      have key : ∀ x : ℝ, x ≤ rho u ^ k * ((m.dist i k).val + (m.dist k j).val) → (1 + u) * x ≤ rho u ^ (k + 1) * (m.dist i k + m.dist k j).val := by
        intro x hx
        have h1 : (1 + u) * ((m.dist i k).val + (m.dist k j).val) ≤ rho u * (m.dist i k + m.dist k j).val := sum_le_rho R (add_nonneg nik nkj)
        have h2 : (1 + u) * x ≤ (1 + u) * (rho u ^ k * ((m.dist i k).val + (m.dist k j).val)) := mul_le_mul_of_nonneg_left hx (by linarith)
        have h3 : rho u ^ k * ((1 + u) * ((m.dist i k).val + (m.dist k j).val)) ≤ rho u ^ k * (rho u * (m.dist i k + m.dist k j).val) :=
          mul_le_mul_of_nonneg_left h1 (by linarith [rhoP k])
        rw [pow_succ]
        calc (1 + u) * x ≤ _ := h2
          _ = rho u ^ k * ((1 + u) * ((m.dist i k).val + (m.dist k j).val)) := by ring
          _ ≤ _ := h3
          _ = _ := by ring
      have base : ∀ x y : ℝ, 0 ≤ x → 0 ≤ y → x ≤ rho u ^ k * (m.dist i k).val → y ≤ (m.dist k j).val → x + y ≤ rho u ^ k * ((m.dist i k).val + (m.dist k j).val) := by
        intro x y _ hy h1 h2
        have : y ≤ rho u ^ k * (m.dist k j).val := h2.trans (le_mul_of_one_le_left nkj (rhoP k))
        linarith
      refine ⟨lt_of_lt_of_le hu (H.leBig i j hi hj), w, hw, ?_, ?_⟩
      · rintro rfl
        refine powUp _ _ nsum ?_
        have hle : w ≤ rho u ^ k * (m.dist i k).val := by
          by_cases hak : a = k
          · exact e1 hak
          · have := e2 hak
            have := nn a k ha hk
            linarith
        exact hle.trans (mul_le_mul_of_nonneg_left le1 (by linarith [rhoP k]))
      · intro haj
        by_cases hak : a = k
        · subst hak
          have h1 := base w _ hw0 ((val_nonneg R).1 ((phase_inv RA H.inv hk).nonneg _ _ hk hj)) (e1 rfl) (old a j hk hj)
          refine le_trans ?_ (key _ h1)
          exact le_mul_of_one_le_left (add_nonneg hw0 ((val_nonneg R).1 ((phase_inv RA H.inv hk).nonneg _ _ hk hj))) (by linarith)
        · have h1 := base (w + (m.dist a k).val) _ (add_nonneg hw0 (nn a k ha hk)) nkj (e2 hak) le_rfl
          refine le_trans ?_ (key _ h1)
          have h2 := (sum a j ha hj).trans (R.upper (add_nonneg (nn a k ha hk) nkj))
          nlinarith
    · rw [if_neg hu] at hn ⊢
      obtain ⟨hl, w, hw, e1, e2⟩ := H.some_lt i j a hi hj hij hn
      have ha := H.inv.bound i j a hi hj hn
      refine ⟨hl, w, hw, fun h => powUp _ _ (nn i j hi hj) (e1 h), fun haj => powUp _ _ (nn i j hi hj) ?_⟩
      have := old a j ha hj
      linarith [e2 haj]

/-- The arcs with real weights. -/
def realArc (A : Nat → Nat → RN R → Prop) (i j : Nat) (w : ℝ) : Prop := ∃ w', A i j w' ∧ w'.val = w

theorem IsInit.exR {big : RN R} {edges : List (Nat × Nat)} {weights : List (RN R)} {m : DN (RN R)}
    (H : IsInit big edges weights m) (hw : ∀ w ∈ weights, 0 ≤ w ∧ w < big) (hb : 0 ≤ big) (n : Nat) :
    ExR R (realArc (EffArc edges weights)) big n 0 m where
  inv := H.inv hb (fun w h => (hw w h).1) n
  leBig := by
    intro i j hi hj
    rcases H.arc i j with ⟨w, ⟨e, _, hwe, _⟩, hd, _⟩ | ⟨_, hd, _⟩
    · rw [hd]; exact le_of_lt (hw w (List.mem_of_getElem? hwe)).2
    · rw [hd]; split
      · exact hb
      · exact le_refl _
  low := by
    intro i j s hi hj hij hv
    rw [pow_zero, one_mul]
    cases hv with
    | arc h =>
      obtain ⟨w', ⟨e, h1, h2, h3⟩, rfl⟩ := h
      rcases H.arc i j with ⟨w, ⟨e', h1', h2', h3'⟩, hd, _⟩ | ⟨hno, _, _⟩
      · have : e = e' := by
          rcases Nat.lt_trichotomy e e' with h | h | h
          · exact absurd h1' (h3 e' h)
          · exact h
          · exact absurd h1 (h3' e h)
        subst this
        rw [h2] at h2'
        rw [hd, Option.some.inj h2']
      · exact absurd (List.mem_of_getElem? h1) hno
    | cons _ h _ => exact absurd h (Nat.not_lt_zero _)
  high := by
    intro i j hi hj hij hlt
    rcases H.arc i j with ⟨w, hE, hd, _⟩ | ⟨_, hd, _⟩
    · exact ⟨w.val, .arc ⟨w, hE, rfl⟩, by rw [pow_zero, one_mul, hd]⟩
    · rw [hd, if_neg hij] at hlt
      exact absurd hlt (lt_irrefl _)
  none_big := by
    intro i j hi hj hij hn
    rcases H.arc i j with ⟨w, _, _, hx⟩ | ⟨_, hd, _⟩
    · rw [hx] at hn; cases hn
    · rw [hd, if_neg hij]
  some_lt := by
    intro i j a hi hj hij hn
    rcases H.arc i j with ⟨w, hE, hd, hx⟩ | ⟨_, _, hx⟩
    · rw [hx] at hn; cases hn
      refine ⟨?_, w.val, ⟨w, hE, rfl⟩, fun _ => by rw [pow_zero, one_mul, hd], fun h => absurd rfl h⟩
      obtain ⟨e, _, hwe, _⟩ := hE
      rw [hd]; exact (hw w (List.mem_of_getElem? hwe)).2
    · rw [hx] at hn; cases hn

/-- Following the next hops from `i` towards `j` visits the nodes `l` (without `i`). -/
inductive Hops (next : Nat → Nat → Option Nat) (j : Nat) : Nat → List Nat → Prop where
  | here : Hops next j j []
  | hop {i a : Nat} {l : List Nat} : i ≠ j → next i j = some a → Hops next j a l → Hops next j i (a :: l)

theorem Hops.unique {next : Nat → Nat → Option Nat} {j i : Nat} {l l' : List Nat} (h : Hops next j i l) (h' : Hops next j i l') : l = l' := by
  induction h generalizing l' with
  | here => cases h' with
    | here => rfl
    | hop h => exact absurd rfl h
  | hop hij hn _ ih =>
    cases h' with
    | here => exact absurd rfl hij
    | hop _ hn' h' =>
      rw [hn] at hn'
      cases hn'
      rw [ih h']

theorem Hops.suffix {next : Nat → Nat → Option Nat} {j i : Nat} {l : List Nat} (h : Hops next j i l) {a : Nat} (ha : a ∈ l) :
    ∃ l', Hops next j a l' ∧ l'.length < l.length := by
  induction h with
  | here => cases ha
  | @hop i b l _ _ h' ih =>
    rcases List.mem_cons.1 ha with rfl | ha
    · exact ⟨l, h', by simp⟩
    · obtain ⟨l', h1, h2⟩ := ih ha
      exact ⟨l', h1, by simp; omega⟩

theorem Hops.nodup {next : Nat → Nat → Option Nat} {j i : Nat} {l : List Nat} (h : Hops next j i l) : (i :: l).Nodup := by
  induction h with
  | here => simp
  | @hop i a l hij hn h' ih =>
    refine List.nodup_cons.2 ⟨fun hi => ?_, ih⟩
    obtain ⟨l', h1, h2⟩ := (Hops.hop hij hn h').suffix hi
    rw [h1.unique (.hop hij hn h')] at h2
    exact lt_irrefl _ h2

theorem Hops.lt {n : Nat} {next : Nat → Nat → Option Nat} (hb : ∀ i j a, i < n → j < n → next i j = some a → a < n) {j i : Nat} (hj : j < n) {l : List Nat}
    (h : Hops next j i l) : i < n → ∀ a ∈ l, a < n := by
  induction h with
  | here => intro _ a ha; cases ha
  | @hop i b l _ hn _ ih =>
    intro hi a ha
    have hb' := hb _ _ _ hi hj hn
    rcases List.mem_cons.1 ha with rfl | ha
    · exact hb'
    · exact ih hb' a ha

/-- The number of hops is smaller than the number of nodes. -/
theorem Hops.length_lt {n : Nat} {next : Nat → Nat → Option Nat} (hb : ∀ i j a, i < n → j < n → next i j = some a → a < n) {j i : Nat} (hj : j < n)
    (hi : i < n) {l : List Nat} (h : Hops next j i l) : l.length < n := by
  have h1 : (i :: l).length ≤ (List.range n).length := by
    refine (h.nodup.subperm ?_).length_le
    intro a ha
    rw [List.mem_range]
    rcases List.mem_cons.1 ha with rfl | ha
    · exact hi
    · exact h.lt hb hj hi a ha
  rw [List.length_range, List.length_cons] at h1
  omega

/-- The loop of `path` with rounding: it walks along a nearly minimal path. -/
theorem pathLoop_rounded {A : Nat → Nat → ℝ → Prop} {big : RN R} {n : Nat} {m : DN (RN R)} (H : ExR R A big n n m)
    (hA : ∀ i j w, A i j w → 0 ≤ w) (hbig : ∀ i j a, i < n → j < n → i ≠ j → a ≠ j → m.next i j = some a → m.next a j ≠ none)
    {j : Nat} (hj : j < n) {i : Nat} (hE : Ends m.next j i) :
    i < n → (i ≠ j → m.next i j ≠ none) → ∃ fuel l s, Hops m.next j i l ∧ Path A (i :: l) i j s ∧
      (i ≠ j → s ≤ rho u ^ (n * l.length) * (m.dist i j).val) ∧ (i = j → s = 0) ∧
      ∀ acc f, fuel ≤ f → pathLoop n m.next j f (some i) acc = some (.ok (acc ++ l)) := by
  have hself : ∃ fuel l s, Hops m.next j j l ∧ Path A (j :: l) j j s ∧
      (j ≠ j → s ≤ rho u ^ (n * l.length) * (m.dist j j).val) ∧ (j = j → s = 0) ∧
      ∀ acc f, fuel ≤ f → pathLoop n m.next j f (some j) acc = some (.ok (acc ++ l)) := by
    refine ⟨0, [], 0, .here, .here j, by simp, by simp, ?_⟩
    intro acc f _
    cases f <;> simp [pathLoop]
  induction hE with
  | here => intro _ _; exact hself
  | @stop i h =>
    intro hi hd
    by_cases hij : i = j
    · subst hij; exact hself
    · exact absurd h (hd hij)
  | @hop i a h hE ih =>
    intro hi hd
    by_cases hij : i = j
    · subst hij; exact hself
    · have ha := H.inv.bound i j a hi hj h
      obtain ⟨_, w, hw, e1, e2⟩ := H.some_lt i j a hi hj hij h
      obtain ⟨fuel, l, s, hh, hp, hs1, hs2, hrun⟩ := ih ha (fun haj => hbig i j a hi hj hij haj h)
      have hrho := one_le_rho R
      have nn : 0 ≤ (m.dist i j).val := (val_nonneg R).1 (H.inv.nonneg i j hi hj)
      refine ⟨fuel + 1, a :: l, w + s, .hop hij h hh, .cons hw hp, ?_, fun h => absurd h hij, ?_⟩
      · intro _
        have hmul : rho u ^ (n * (a :: l).length) = rho u ^ (n * l.length) * rho u ^ n := by
          rw [List.length_cons, Nat.mul_succ, pow_add]
        have p1 : 1 ≤ rho u ^ (n * l.length) := one_le_pow₀ hrho
        rw [hmul]
        by_cases haj : a = j
        · rw [hs2 haj, add_zero]
          refine (e1 haj).trans ?_
          exact mul_le_mul_of_nonneg_right (le_mul_of_one_le_left (by linarith [one_le_pow₀ (n := n) hrho]) p1) nn
        · have h1 := hs1 haj
          have h2 := e2 haj
          have h3 : w ≤ rho u ^ (n * l.length) * w := le_mul_of_one_le_left (hA _ _ _ hw) p1
          have h4 : rho u ^ (n * l.length) * (w + (m.dist a j).val) ≤ rho u ^ (n * l.length) * (rho u ^ n * (m.dist i j).val) :=
            mul_le_mul_of_nonneg_left h2 (by linarith)
          calc w + s ≤ rho u ^ (n * l.length) * (w + (m.dist a j).val) := by rw [mul_add]; linarith
            _ ≤ _ := h4
            _ = _ := by ring
      · intro acc f hf
        obtain ⟨f, rfl⟩ := Nat.exists_eq_add_of_le' (Nat.le_of_add_left_le hf)
        rw [pathLoop, if_neg hij, if_pos ⟨hi, hj⟩, h]
        dsimp only
        rw [hrun _ f (by omega)]
        simp

end
end Gemlab.GraphDir
