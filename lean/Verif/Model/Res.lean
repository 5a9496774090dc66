/-!
# Result of a Rust call

A Rust function of gemlab returning `Result<T, StrError>` may return `Ok(v)`, return `Err(msg)`, or panic
(slice index out of range, `assert!`, `unwrap` of `None`, `unreachable!`).
`Res` keeps the three outcomes apart. `Err` messages (`StrError = &'static str`, `/repo/src/lib.rs`) are kept as strings.
-/
namespace Gemlab

/-- Outcome of a Rust call: `Ok`, `Err(msg)`, or a panic. -/
inductive Res (α : Type u) where
  | ok (a : α)
  | err (msg : String)
  | panic
  deriving DecidableEq, Repr

namespace Res

/-- The `?` operator / sequencing. -/
def bind {α : Type u} {β : Type v} : Res α → (α → Res β) → Res β
  | ok a, f => f a
  | err m, _ => err m
  | panic, _ => panic

instance : Monad Res where
  pure := ok
  bind := bind

@[simp] theorem bind_ok {α β : Type u} (a : α) (f : α → Res β) : (Res.ok a >>= f) = f a := rfl
@[simp] theorem bind_err {α β : Type u} (m : String) (f : α → Res β) : (Res.err m >>= f) = Res.err m := rfl
@[simp] theorem bind_panic {α β : Type u} (f : α → Res β) : ((Res.panic : Res α) >>= f) = Res.panic := rfl
@[simp] theorem pure_eq {α : Type u} (a : α) : (pure a : Res α) = Res.ok a := rfl

theorem bind_eq_ok {α β : Type u} {x : Res α} {f : α → Res β} {b : β} :
    (x >>= f) = Res.ok b ↔ ∃ a, x = Res.ok a ∧ f a = Res.ok b := by
  cases x <;> simp

instance : LawfulMonad Res := LawfulMonad.mk'
  (id_map := by intro α x; cases x <;> rfl)
  (pure_bind := by intros; rfl)
  (bind_assoc := by intro α β γ x f g; cases x <;> rfl)

/-- `xs[i]` (panics when out of range). -/
def idx {α : Type u} (xs : List α) (i : Nat) : Res α :=
  match xs[i]? with
  | some a => ok a
  | none => panic

/-- `xs[i] = a` (panics when out of range). -/
def setIdx {α : Type u} (xs : List α) (i : Nat) (a : α) : Res (List α) :=
  if i < xs.length then ok (xs.set i a) else panic

@[simp] theorem idx_eq_ok {α : Type u} {xs : List α} {i : Nat} {a : α} :
    idx xs i = ok a ↔ xs[i]? = some a := by
  unfold idx; split <;> simp_all

theorem idx_of_lt {α : Type u} {xs : List α} {i : Nat} (h : i < xs.length) :
    idx xs i = ok xs[i] := by simp [h]

@[simp] theorem setIdx_eq_ok {α : Type u} {xs ys : List α} {i : Nat} {a : α} :
    setIdx xs i a = ok ys ↔ i < xs.length ∧ ys = xs.set i a := by
  unfold setIdx; split
  · simp_all [eq_comm]
  · simp only [reduceCtorEq, false_iff, not_and]; intro h; contradiction

theorem setIdx_of_lt {α : Type u} {xs : List α} {i : Nat} {a : α} (h : i < xs.length) :
    setIdx xs i a = ok (xs.set i a) := by simp [h]

/-- `true` when the call returned `Ok`. -/
def isOk {α : Type u} : Res α → Bool
  | ok _ => true
  | _ => false

/-- `true` when the call returned `Err`. -/
def isErr {α : Type u} : Res α → Bool
  | err _ => true
  | _ => false

end Res
end Gemlab
