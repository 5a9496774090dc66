import Mathlib.Data.Rat.Cast.CharZero
import Mathlib.Algebra.BigOperators.Group.List.Basic
import Mathlib.Tactic.Ring
import Mathlib.Tactic.FieldSimp

/-!
# Arithmetic expressions

Straight-line arithmetic code (`+ - * /`, constants and the coordinates `ksi[0]`, `ksi[1]`, `ksi[2]`) is transcribed as a
term of the type `PE`; `PE.eval` gives its value in any field of characteristic zero. A normal form (dense polynomials
with rational coefficients), proved correct here, lets the kernel check polynomial identities by computation.
-/
namespace Gemlab

/-- Arithmetic expressions. -/
inductive PE where
  | c (q : ℚ)
  | x (i : Nat)
  | add (a b : PE)
  | sub (a b : PE)
  | mul (a b : PE)
  | neg (a : PE)
  | div (a b : PE)
  deriving DecidableEq

namespace PE

instance : Add PE := ⟨add⟩
instance : Sub PE := ⟨sub⟩
instance : Mul PE := ⟨mul⟩
instance : Neg PE := ⟨neg⟩
instance : Div PE := ⟨div⟩
instance (n : Nat) : OfNat PE n := ⟨c n⟩

/-- Value of an expression at the coordinates `ξ`, in exact arithmetic. -/
def eval {K : Type} [Field K] (ξ : Nat → K) : PE → K
  | c q => (q : K)
  | x i => ξ i
  | add a b => eval ξ a + eval ξ b
  | sub a b => eval ξ a - eval ξ b
  | mul a b => eval ξ a * eval ξ b
  | neg a => - eval ξ a
  | div a b => eval ξ a / eval ξ b

section
variable {K : Type} [Field K] (ξ : Nat → K)
@[simp] theorem eval_c (q : ℚ) : eval ξ (c q) = q := rfl
@[simp] theorem eval_x (i : Nat) : eval ξ (x i) = ξ i := rfl
@[simp] theorem eval_add (a b : PE) : eval ξ (a + b) = eval ξ a + eval ξ b := rfl
@[simp] theorem eval_sub (a b : PE) : eval ξ (a - b) = eval ξ a - eval ξ b := rfl
@[simp] theorem eval_mul (a b : PE) : eval ξ (a * b) = eval ξ a * eval ξ b := rfl
@[simp] theorem eval_neg (a : PE) : eval ξ (-a) = - eval ξ a := rfl
@[simp] theorem eval_div (a b : PE) : eval ξ (a / b) = eval ξ a / eval ξ b := rfl
@[simp] theorem eval_ofNat (n : Nat) [n.AtLeastTwo] : eval ξ (OfNat.ofNat n : PE) = (OfNat.ofNat n : K) := by
  show (((OfNat.ofNat n : Nat) : ℚ) : K) = _
  simp
@[simp] theorem eval_zero : eval ξ (0 : PE) = 0 := by show (((0 : Nat) : ℚ) : K) = 0; simp
@[simp] theorem eval_one : eval ξ (1 : PE) = 1 := by show (((1 : Nat) : ℚ) : K) = 1; simp
end

/-- Replace the coordinates by expressions. -/
def subst (σ : Nat → PE) : PE → PE
  | c q => c q
  | x i => σ i
  | add a b => add (subst σ a) (subst σ b)
  | sub a b => sub (subst σ a) (subst σ b)
  | mul a b => mul (subst σ a) (subst σ b)
  | neg a => neg (subst σ a)
  | div a b => div (subst σ a) (subst σ b)

theorem eval_subst {K : Type} [Field K] (ξ : Nat → K) (σ : Nat → PE) (e : PE) :
    eval ξ (subst σ e) = eval (fun i => eval ξ (σ i)) e := by
  induction e <;> simp_all [subst, eval]

/-- Sum of a list of expressions. -/
def sum (l : List PE) : PE := l.foldr (fun a b => add a b) (c 0)

theorem eval_sum {K : Type} [Field K] (ξ : Nat → K) (l : List PE) : eval ξ (sum l) = (l.map (eval ξ)).sum := by
  induction l with
  | nil => simp [sum, eval]
  | cons a l ih => simp [sum, eval] at ih ⊢; rw [← ih]

/-- Value at rational coordinates. -/
def evalQ (ξ : Nat → ℚ) : PE → ℚ
  | c q => q
  | x i => ξ i
  | add a b => evalQ ξ a + evalQ ξ b
  | sub a b => evalQ ξ a - evalQ ξ b
  | mul a b => evalQ ξ a * evalQ ξ b
  | neg a => - evalQ ξ a
  | div a b => evalQ ξ a / evalQ ξ b

theorem eval_cast {K : Type} [Field K] [CharZero K] (ξ : Nat → ℚ) (e : PE) :
    eval (fun i => (ξ i : K)) e = (evalQ ξ e : K) := by
  induction e <;> simp_all [eval, evalQ]

/-- Formal partial derivative; denominators are treated as constants (see `ConstDen`). -/
def diff (i : Nat) : PE → PE
  | c _ => c 0
  | x j => if j = i then c 1 else c 0
  | add a b => add (diff i a) (diff i b)
  | sub a b => sub (diff i a) (diff i b)
  | mul a b => add (mul (diff i a) b) (mul a (diff i b))
  | neg a => neg (diff i a)
  | div a b => div (diff i a) b

/-- The expression does not mention the coordinates. -/
def closed : PE → Bool
  | c _ => true
  | x _ => false
  | add a b => closed a && closed b
  | sub a b => closed a && closed b
  | mul a b => closed a && closed b
  | neg a => closed a
  | div a b => closed a && closed b

/-- Every denominator is a constant. -/
def constDen : PE → Bool
  | c _ => true
  | x _ => true
  | add a b => constDen a && constDen b
  | sub a b => constDen a && constDen b
  | mul a b => constDen a && constDen b
  | neg a => constDen a
  | div a b => constDen a && closed b

theorem eval_closed {K : Type} [Field K] (ξ ξ' : Nat → K) (e : PE) (h : closed e = true) : eval ξ e = eval ξ' e := by
  induction e <;> simp_all [eval, closed]

/-! ## Dense polynomials -/

/-- Addition of coefficient lists. -/
def addL {α : Type} (add : α → α → α) : List α → List α → List α
  | [], q => q
  | p, [] => p
  | a :: p, b :: q => add a b :: addL add p q

/-- Product of coefficient lists. -/
def mulL {α : Type} (zero : α) (add mul : α → α → α) : List α → List α → List α
  | [], _ => []
  | a :: p, q => addL add (q.map (mul a)) (zero :: mulL zero add mul p q)

/-- Value of a coefficient list at `v`, the coefficients being evaluated with `φ`. -/
def evL {α K : Type} [Field K] (φ : α → K) (v : K) : List α → K
  | [] => 0
  | a :: p => φ a + v * evL φ v p

section
variable {α K : Type} [Field K] {φ : α → K} {v : K} {zero : α} {add mul : α → α → α}

theorem evL_add (ha : ∀ a b, φ (add a b) = φ a + φ b) (p q : List α) :
    evL φ v (addL add p q) = evL φ v p + evL φ v q := by
  induction p generalizing q with
  | nil => simp [addL, evL]
  | cons a p ih =>
    cases q with
    | nil => simp [addL, evL]
    | cons b q => simp only [addL, evL, ha, ih]; ring

theorem evL_map_mul (hm : ∀ a b, φ (mul a b) = φ a * φ b) (a : α) (q : List α) :
    evL φ v (q.map (mul a)) = φ a * evL φ v q := by
  induction q with
  | nil => simp [evL]
  | cons b q ih => simp only [List.map_cons, evL, hm, ih]; ring

theorem evL_mul (hz : φ zero = 0) (ha : ∀ a b, φ (add a b) = φ a + φ b) (hm : ∀ a b, φ (mul a b) = φ a * φ b) (p q : List α) :
    evL φ v (mulL zero add mul p q) = evL φ v p * evL φ v q := by
  induction p with
  | nil => simp [mulL, evL]
  | cons a p ih =>
    simp only [mulL, evL, evL_add ha, evL_map_mul hm, ih, hz]; ring

theorem evL_map_neg {neg : α → α} (hn : ∀ a, φ (neg a) = - φ a) (q : List α) :
    evL φ v (q.map neg) = - evL φ v q := by
  induction q with
  | nil => simp [evL]
  | cons b q ih => simp only [List.map_cons, evL, hn, ih]; ring

theorem evL_zero {isZ : α → Bool} (h : ∀ a, isZ a = true → φ a = 0) (q : List α) (hq : q.all isZ = true) : evL φ v q = 0 := by
  induction q with
  | nil => rfl
  | cons b q ih =>
    simp only [List.all_cons, Bool.and_eq_true] at hq
    simp [evL, h b hq.1, ih hq.2]
end

/-- Polynomials in one, two, three variables. -/
abbrev P1 := List ℚ
abbrev P2 := List P1
abbrev P3 := List P2

def P1.add : P1 → P1 → P1 := addL (· + ·)
def P1.mul : P1 → P1 → P1 := mulL 0 (· + ·) (· * ·)
def P1.neg (p : P1) : P1 := p.map (- ·)
def P1.isZero (p : P1) : Bool := p.all (fun q => decide (q = 0))
def P2.add : P2 → P2 → P2 := addL P1.add
def P2.mul : P2 → P2 → P2 := mulL [] P1.add P1.mul
def P2.neg (p : P2) : P2 := p.map P1.neg
def P2.isZero (p : P2) : Bool := p.all P1.isZero
def P3.add : P3 → P3 → P3 := addL P2.add
def P3.mul : P3 → P3 → P3 := mulL [] P2.add P2.mul
def P3.neg (p : P3) : P3 := p.map P2.neg
def P3.isZero (p : P3) : Bool := p.all P2.isZero

section
variable {K : Type} [Field K] [CharZero K]
def P1.ev (v : K) (p : P1) : K := evL (fun q : ℚ => (q : K)) v p
def P2.ev (u v : K) (p : P2) : K := evL (P1.ev u) v p
def P3.ev (u v w : K) (p : P3) : K := evL (P2.ev u v) w p

theorem P1.ev_add (u : K) (p q : P1) : P1.ev u (P1.add p q) = P1.ev u p + P1.ev u q := evL_add (by intros; push_cast; rfl) p q
theorem P1.ev_mul (u : K) (p q : P1) : P1.ev u (P1.mul p q) = P1.ev u p * P1.ev u q :=
  evL_mul (by simp) (by intros; push_cast; rfl) (by intros; push_cast; rfl) p q
theorem P1.ev_neg (u : K) (p : P1) : P1.ev u (P1.neg p) = - P1.ev u p := evL_map_neg (by intros; push_cast; rfl) p
theorem P1.ev_isZero (u : K) (p : P1) (h : P1.isZero p = true) : P1.ev u p = 0 := evL_zero (by simp) p h
theorem P2.ev_add (u v : K) (p q : P2) : P2.ev u v (P2.add p q) = P2.ev u v p + P2.ev u v q := evL_add (P1.ev_add u) p q
theorem P2.ev_mul (u v : K) (p q : P2) : P2.ev u v (P2.mul p q) = P2.ev u v p * P2.ev u v q :=
  evL_mul (φ := P1.ev u) rfl (P1.ev_add u) (P1.ev_mul u) p q
theorem P2.ev_neg (u v : K) (p : P2) : P2.ev u v (P2.neg p) = - P2.ev u v p := evL_map_neg (P1.ev_neg u) p
theorem P2.ev_isZero (u v : K) (p : P2) (h : P2.isZero p = true) : P2.ev u v p = 0 := evL_zero (P1.ev_isZero u) p h
theorem P3.ev_add (u v w : K) (p q : P3) : P3.ev u v w (P3.add p q) = P3.ev u v w p + P3.ev u v w q := evL_add (P2.ev_add u v) p q
theorem P3.ev_mul (u v w : K) (p q : P3) : P3.ev u v w (P3.mul p q) = P3.ev u v w p * P3.ev u v w q :=
  evL_mul (φ := P2.ev u v) rfl (P2.ev_add u v) (P2.ev_mul u v) p q
theorem P3.ev_neg (u v w : K) (p : P3) : P3.ev u v w (P3.neg p) = - P3.ev u v w p := evL_map_neg (P2.ev_neg u v) p
theorem P3.ev_isZero (u v w : K) (p : P3) (h : P3.isZero p = true) : P3.ev u v w p = 0 := evL_zero (P2.ev_isZero u v) p h

/-- Normal form; `none` if a denominator is not a constant, or a coordinate beyond the third appears. -/
def norm : PE → Option P3
  | c q => some [[[q]]]
  | x 0 => some [[[0, 1]]]
  | x 1 => some [[[], [1]]]
  | x 2 => some [[], [[1]]]
  | x _ => none
  | add a b => do return P3.add (← norm a) (← norm b)
  | sub a b => do return P3.add (← norm a) (P3.neg (← norm b))
  | mul a b => do return P3.mul (← norm a) (← norm b)
  | neg a => do return P3.neg (← norm a)
  | div a b => if closed b then do return P3.mul [[[1 / evalQ (fun _ => 0) b]]] (← norm a) else none

theorem eval_norm (ξ : Nat → K) (e : PE) (p : P3) (h : norm e = some p) : eval ξ e = P3.ev (ξ 0) (ξ 1) (ξ 2) p := by
  induction e generalizing p with
  | c q => simp only [norm, Option.some.injEq] at h; subst h; simp [eval, P3.ev, P2.ev, P1.ev, evL]
  | x i =>
    match i, h with
    | 0, h => simp only [norm, Option.some.injEq] at h; subst h; simp [eval, P3.ev, P2.ev, P1.ev, evL]
    | 1, h => simp only [norm, Option.some.injEq] at h; subst h; simp [eval, P3.ev, P2.ev, P1.ev, evL]
    | 2, h => simp only [norm, Option.some.injEq] at h; subst h; simp [eval, P3.ev, P2.ev, P1.ev, evL]
    | (n + 3), h => simp [norm] at h
  | add a b iha ihb =>
    simp only [norm, Option.bind_eq_bind, Option.bind_eq_some_iff] at h
    obtain ⟨pa, ha, pb, hb, h⟩ := h
    simp only [Option.pure_def, Option.some.injEq] at h; subst h
    simp only [eval, iha pa ha, ihb pb hb, P3.ev_add]
  | sub a b iha ihb =>
    simp only [norm, Option.bind_eq_bind, Option.bind_eq_some_iff] at h
    obtain ⟨pa, ha, pb, hb, h⟩ := h
    simp only [Option.pure_def, Option.some.injEq] at h; subst h
    simp only [eval, iha pa ha, ihb pb hb, P3.ev_add, P3.ev_neg]; ring
  | mul a b iha ihb =>
    simp only [norm, Option.bind_eq_bind, Option.bind_eq_some_iff] at h
    obtain ⟨pa, ha, pb, hb, h⟩ := h
    simp only [Option.pure_def, Option.some.injEq] at h; subst h
    simp only [eval, iha pa ha, ihb pb hb, P3.ev_mul]
  | neg a iha =>
    simp only [norm, Option.bind_eq_bind, Option.bind_eq_some_iff] at h
    obtain ⟨pa, ha, h⟩ := h
    simp only [Option.pure_def, Option.some.injEq] at h; subst h
    simp only [eval, iha pa ha, P3.ev_neg]
  | div a b iha ihb =>
    simp only [norm] at h
    split at h
    · rename_i hc
      simp only [Option.bind_eq_bind, Option.bind_eq_some_iff] at h
      obtain ⟨pa, ha, h⟩ := h
      simp only [Option.pure_def, Option.some.injEq] at h; subst h
      simp only [eval, iha pa ha, P3.ev_mul]
      rw [eval_closed ξ (fun _ => ((0 : ℚ) : K)) b hc, eval_cast (fun _ => (0 : ℚ)) b]
      simp [P3.ev, P2.ev, P1.ev, evL]; ring
    · simp at h

/-- Decides a polynomial identity. -/
def same (a b : PE) : Bool :=
  match norm (sub a b) with
  | some p => P3.isZero p
  | none => false

/-- **Reflection.** If the check succeeds, the two expressions have the same value at all coordinates. -/
theorem eval_eq_of_same {a b : PE} (h : same a b = true) (ξ : Nat → K) : eval ξ a = eval ξ b := by
  unfold same at h
  split at h
  · rename_i p hp
    have := eval_norm ξ _ p hp
    rw [P3.ev_isZero _ _ _ p h] at this
    simpa [eval, sub_eq_zero] using this
  · simp at h
end

end PE
end Gemlab
