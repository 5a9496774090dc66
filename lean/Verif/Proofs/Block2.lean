import Verif.Proofs.Block

/-! # Blocks: positions of the nodes in the reference space -/
namespace Gemlab.Block
noncomputable section
open Classical
open Gemlab.Mesh Gemlab.Shapes

/-- Position of a node along a division, from 0 to 1. -/
def rr (target : GeoKind) (m a : Nat) : ℝ := (1 + refCoord target m a) / 2

def IsQuaHex (k : GeoKind) : Prop := k.classOf = .qua ∨ k.classOf = .hex

theorem refQ_gaps (k : GeoKind) (hk : IsQuaHex k) : ∀ m < k.nnode, ∀ a < k.ndim,
    (refCoordQ k m a = -1 ∨ refCoordQ k m a = 1 ∨ (-1/2 ≤ refCoordQ k m a ∧ refCoordQ k m a ≤ 1/2)) ∧
    ∀ m' < k.nnode, refCoordQ k m a = refCoordQ k m' a ∨ refCoordQ k m a + 1/2 ≤ refCoordQ k m' a ∨ refCoordQ k m' a + 1/2 ≤ refCoordQ k m a := by
  cases k <;> first | exact absurd hk (by unfold IsQuaHex; decide) | decide +kernel

theorem rr_cases {k : GeoKind} (hk : IsQuaHex k) {m a : Nat} (hm : m < k.nnode) (ha : a < k.ndim) :
    rr k m a = 0 ∨ rr k m a = 1 ∨ (1/4 ≤ rr k m a ∧ rr k m a ≤ 3/4) := by
  unfold rr refCoord
  rcases (refQ_gaps k hk m hm a ha).1 with h | h | h
  · left; rw [h]; norm_num
  · right; left; rw [h]; norm_num
  · right; right
    have h1 : ((-1/2 : ℚ) : ℝ) ≤ (refCoordQ k m a : ℝ) := by exact_mod_cast h.1
    have h2 : (refCoordQ k m a : ℝ) ≤ ((1/2 : ℚ) : ℝ) := by exact_mod_cast h.2
    push_cast at h1 h2
    constructor <;> linarith

theorem rr_gap {k : GeoKind} (hk : IsQuaHex k) {m m' a : Nat} (hm : m < k.nnode) (hm' : m' < k.nnode) (ha : a < k.ndim) :
    rr k m a = rr k m' a ∨ rr k m a + 1/4 ≤ rr k m' a ∨ rr k m' a + 1/4 ≤ rr k m a := by
  unfold rr refCoord
  rcases (refQ_gaps k hk m hm a ha).2 m' hm' with h | h | h
  · left; rw [h]
  · right; left
    have h1 : ((refCoordQ k m a + 1/2 : ℚ) : ℝ) ≤ (refCoordQ k m' a : ℝ) := by exact_mod_cast h
    push_cast at h1
    linarith
  · right; right
    have h1 : ((refCoordQ k m' a + 1/2 : ℚ) : ℝ) ≤ (refCoordQ k m a : ℝ) := by exact_mod_cast h
    push_cast at h1
    linarith

theorem rr_bounds {k : GeoKind} (hk : IsQuaHex k) {m a : Nat} (hm : m < k.nnode) (ha : a < k.ndim) : 0 ≤ rr k m a ∧ rr k m a ≤ 1 := by
  rcases rr_cases hk hm ha with h | h | h <;> constructor <;> linarith

theorem TargetOk.isQuaHex {b : Block} {t : GeoKind} (h : TargetOk b t) : IsQuaHex t := by
  unfold TargetOk at h
  split at h
  · exact .inl h
  · exact .inr h

theorem TargetOk.ndim {b : Block} {t : GeoKind} (hd : b.ndim = 2 ∨ b.ndim = 3) (h : TargetOk b t) : t.ndim = b.ndim := by
  unfold TargetOk at h
  rcases hd with hd | hd <;> rw [hd] at h ⊢
  · cases t <;> first | rfl | exact absurd h (by decide)
  · cases t <;> first | rfl | exact absurd h (by decide)

/-! ## One direction -/

/-- Position along direction `a`. -/
def pos (b : Block) (a i : Nat) (r : ℝ) : ℝ := left b a i + del b a i * r

theorem left_succ (b : Block) (a i : Nat) : left b a (i + 1) = left b a i + del b a i := by
  unfold left
  rw [Finset.sum_range_succ]
  ring

/-- The divisions of direction `a` are larger than `7e-4`, and their sum is 2. -/
structure Dir (b : Block) (a n : Nat) : Prop where
  pos : 1 ≤ n
  fine : ∀ i < n, 7 / 10 ^ 4 < del b a i
  total : left b a n = 1

theorem sum_at' (l : List ℝ) : ∑ i ∈ Finset.range l.length, at' l i = l.sum := by
  induction l with
  | nil => simp
  | cons x l ih =>
    rw [List.length_cons, Finset.sum_range_succ', List.sum_cons, add_comm]
    have : ∀ i, at' (x :: l) (i + 1) = at' l i := fun i => by simp [at']
    simp only [this, ih]
    simp [at']

theorem dir_of_wf {nrow ndim : Nat} {at_ : Nat → Nat → ℝ} {b : Block} (hw : WF nrow ndim at_ b) (hf : NotTooFine b) {a : Nat} (ha : a < b.ndim) :
    Dir b a (ndivAt b a) := by
  obtain ⟨h1, h2, h3⟩ := hw.rows a ha
  have hn : ndivAt b a = b.ndiv.getD a 0 := if_pos ha
  refine ⟨by rw [hn]; exact h2, fun i hi => hf a ha i hi, ?_⟩
  unfold left
  have : ∑ l ∈ Finset.range (ndivAt b a), del b a l = 2 := by
    rw [hn, ← h1, ← h3, ← sum_at']
    rfl
  rw [this]; norm_num

variable {b : Block} {a n : Nat}

theorem left_mono_aux (hd : Dir b a n) {i : Nat} (d : Nat) (h : i + d ≤ n) : left b a i + d * (7 / 10 ^ 4) ≤ left b a (i + d) := by
  induction d with
  | zero => simp
  | succ d ih =>
    have h1 := ih (by omega)
    have h2 := hd.fine (i + d) (by omega)
    rw [← add_assoc, left_succ]
    push_cast
    linarith

theorem left_mono (hd : Dir b a n) {i i' : Nat} (h : i ≤ i') (hn : i' ≤ n) : left b a i ≤ left b a i' := by
  obtain ⟨d, rfl⟩ := Nat.exists_eq_add_of_le h
  have := left_mono_aux hd d hn
  have h2 : (0 : ℝ) ≤ d * (7 / 10 ^ 4) := by positivity
  linarith

theorem left_zero (b : Block) (a : Nat) : left b a 0 = -1 := by simp [left]

theorem pos_bounds (hd : Dir b a n) {i : Nat} (hi : i < n) {r : ℝ} (h0 : 0 ≤ r) (h1 : r ≤ 1) : -1 ≤ pos b a i r ∧ pos b a i r ≤ 1 := by
  have e1 := left_mono hd (Nat.zero_le i) hi.le
  have e2 := left_mono hd (show i + 1 ≤ n from hi) le_rfl
  have e3 := hd.fine i hi
  rw [left_zero] at e1
  rw [left_succ, hd.total] at e2
  have hp : 0 < del b a i := by have : (0:ℝ) < 7 / 10 ^ 4 := by norm_num
                                linarith
  unfold pos
  constructor
  · have := mul_nonneg hp.le h0
    linarith
  · have := mul_le_mul_of_nonneg_left h1 hp.le
    linarith

/-- Allowed positions within a division. -/
def Rok (r : ℝ) : Prop := r = 0 ∨ r = 1 ∨ (1/4 ≤ r ∧ r ≤ 3/4)

theorem Rok.le_one {r : ℝ} (h : Rok r) : r ≤ 1 := by rcases h with h | h | h <;> linarith
theorem Rok.nonneg {r : ℝ} (h : Rok r) : 0 ≤ r := by rcases h with h | h | h <;> linarith

theorem pos_lt_cases (hd : Dir b a n) {i i' : Nat} (hi : i < i') (hi' : i' < n) {r r' : ℝ} (h : Rok r) (h' : Rok r') :
    (i' = i + 1 ∧ r = 1 ∧ r' = 0) ∨ pos b a i r + 1.75 / 10 ^ 4 < pos b a i' r' := by
  have f := hd.fine i (by omega)
  have f' := hd.fine i' hi'
  have hm := left_mono hd (show i + 1 ≤ i' from hi) (by omega)
  rw [left_succ] at hm
  have c : (0:ℝ) < 7 / 10 ^ 4 := by norm_num
  have hp : 0 < del b a i := c.trans f
  have hp' : 0 < del b a i' := c.trans f'
  have n1 : 0 ≤ del b a i * (1 - r) := mul_nonneg hp.le (by linarith [h.le_one])
  have n2 : 0 ≤ del b a i' * r' := mul_nonneg hp'.le h'.nonneg
  have e : pos b a i' r' - pos b a i r = (left b a i' - left b a i - del b a i) + del b a i * (1 - r) + del b a i' * r' := by unfold pos; ring
  by_cases hr : r = 1
  · by_cases hr' : r' = 0
    · by_cases hs : i' = i + 1
      · exact .inl ⟨hs, hr, hr'⟩
      · right
        have h2 := left_mono hd (show i + 2 ≤ i' by omega) (by omega)
        have f2 := hd.fine (i + 1) (by omega)
        rw [show i + 2 = (i + 1) + 1 from rfl, left_succ, left_succ] at h2
        norm_num at f2 ⊢
        linarith
    · right
      have : del b a i' * (1/4) ≤ del b a i' * r' := mul_le_mul_of_nonneg_left (by rcases h' with g | g | g <;> first | exact absurd g hr' | linarith) hp'.le
      norm_num at f' ⊢
      linarith
  · right
    have : del b a i * (1/4) ≤ del b a i * (1 - r) := mul_le_mul_of_nonneg_left (by rcases h with g | g | g <;> first | exact absurd g hr | linarith) hp.le
    norm_num at f ⊢
    linarith

/-- The same place along a direction. -/
def Same (i : Nat) (r : ℝ) (i' : Nat) (r' : ℝ) : Prop :=
  (i = i' ∧ r = r') ∨ (i' = i + 1 ∧ r = 1 ∧ r' = 0) ∨ (i = i' + 1 ∧ r' = 1 ∧ r = 0)

theorem pos_eq_of_same {i i' : Nat} {r r' : ℝ} (h : Same i r i' r') : pos b a i r = pos b a i' r' := by
  unfold pos
  rcases h with ⟨rfl, rfl⟩ | ⟨rfl, rfl, rfl⟩ | ⟨rfl, rfl, rfl⟩
  · rfl
  · rw [left_succ]; ring
  · rw [left_succ]; ring

theorem pos_cases (hd : Dir b a n) {i i' : Nat} (hi : i < n) (hi' : i' < n) {r r' : ℝ} (h : Rok r) (h' : Rok r')
    (hg : r = r' ∨ r + 1/4 ≤ r' ∨ r' + 1/4 ≤ r) : Same i r i' r' ∨ 1.75 / 10 ^ 4 < |pos b a i r - pos b a i' r'| := by
  rcases lt_trichotomy i i' with hlt | rfl | hlt
  · rcases pos_lt_cases hd hlt hi' h h' with g | g
    · exact .inl (.inr (.inl g))
    · right
      rw [lt_abs]; right; linarith
  · rcases hg with g | g | g
    · exact .inl (.inl ⟨rfl, g⟩)
    · right
      have f := hd.fine i hi
      have c : (0:ℝ) < 7 / 10 ^ 4 := by norm_num
      have : del b a i * (1/4) ≤ del b a i * (r' - r) := mul_le_mul_of_nonneg_left (by linarith) (c.trans f).le
      rw [lt_abs]; right
      unfold pos
      norm_num at f ⊢
      linarith
    · right
      have f := hd.fine i hi
      have c : (0:ℝ) < 7 / 10 ^ 4 := by norm_num
      have : del b a i * (1/4) ≤ del b a i * (r - r') := mul_le_mul_of_nonneg_left (by linarith) (c.trans f).le
      rw [lt_abs]; left
      unfold pos
      norm_num at f ⊢
      linarith
  · rcases pos_lt_cases hd hlt hi h' h with g | g
    · exact .inl (.inr (.inr g))
    · right
      rw [lt_abs]; left; linarith

theorem same_of_pos_eq (hd : Dir b a n) {i i' : Nat} (hi : i < n) (hi' : i' < n) {r r' : ℝ} (h : Rok r) (h' : Rok r')
    (hg : r = r' ∨ r + 1/4 ≤ r' ∨ r' + 1/4 ≤ r) (he : pos b a i r = pos b a i' r') : Same i r i' r' := by
  rcases pos_cases hd hi hi' h h' hg with g | g
  · exact g
  · rw [he] at g
    norm_num at g

/-- The lower end. -/
theorem pos_low (hd : Dir b a n) {i : Nat} (hi : i < n) {r : ℝ} (h : Rok r) : (i = 0 ∧ r = 0 ∧ pos b a i r = -1) ∨ -1 + 1.75 / 10 ^ 4 < pos b a i r := by
  have e : pos b a 0 0 = -1 := by unfold pos; rw [left_zero]; ring
  rcases Nat.eq_zero_or_pos i with rfl | h0
  · by_cases hr : r = 0
    · exact .inl ⟨rfl, hr, by rw [hr]; exact e⟩
    · right
      have f := hd.fine 0 hi
      have c : (0:ℝ) < 7 / 10 ^ 4 := by norm_num
      have : del b a 0 * (1/4) ≤ del b a 0 * r := mul_le_mul_of_nonneg_left (by rcases h with g | g | g <;> first | exact absurd g hr | linarith) (c.trans f).le
      unfold pos
      rw [left_zero]
      norm_num at f ⊢
      linarith
  · rcases pos_lt_cases hd h0 hi (.inl rfl : Rok 0) h with ⟨-, g, -⟩ | g
    · norm_num at g
    · right; rw [← e]; exact g

/-- The upper end. -/
theorem pos_high (hd : Dir b a n) {i : Nat} (hi : i < n) {r : ℝ} (h : Rok r) :
    (i = n - 1 ∧ r = 1 ∧ pos b a i r = 1) ∨ pos b a i r + 1.75 / 10 ^ 4 < 1 := by
  have hn := hd.pos
  have e : pos b a (n - 1) 1 = 1 := by
    unfold pos
    have := left_succ b a (n - 1)
    rw [show n - 1 + 1 = n by omega, hd.total] at this
    linarith
  by_cases hl : i = n - 1
  · subst hl
    by_cases hr : r = 1
    · exact .inl ⟨rfl, hr, by rw [hr]; exact e⟩
    · right
      have f := hd.fine (n - 1) hi
      have c : (0:ℝ) < 7 / 10 ^ 4 := by norm_num
      have : del b a (n - 1) * r ≤ del b a (n - 1) * (3/4) := mul_le_mul_of_nonneg_left (by rcases h with g | g | g <;> first | exact absurd g hr | linarith) (c.trans f).le
      unfold pos at e ⊢
      norm_num at f ⊢
      linarith
  · rcases pos_lt_cases hd (show i < n - 1 by omega) (by omega) h (.inr (.inl rfl) : Rok 1) with ⟨-, -, g⟩ | g
    · norm_num at g
    · right; rw [← e]; exact g

end
end Gemlab.Block
