import Verif.Proofs.Json
import Mathlib.Data.List.Chain
import Mathlib.Data.List.TakeWhile

/-!
# The tokens of a text
-/
namespace Gemlab.MeshJson
open Gemlab
open Gemlab.MeshText (Text)

/-! ## Numbers -/

theorem blank_iff (c : Char) : isBlank c = true ↔ Blank c := by
  simp only [isBlank, Blank, Bool.or_eq_true, beq_iff_eq, or_assoc]

theorem plain_iff (c : Char) : isPlain c = true ↔ Unescaped c := by
  simp only [isPlain, Unescaped, Bool.and_eq_true, decide_eq_true_eq, and_assoc]

theorem digit_eq (c : Char) : isDigit c = decimal c := rfl

theorem unescape_iff (c d : Char) : unescape c = some d ↔ (c, d) ∈ escapes := by
  constructor
  · intro h
    unfold unescape at h
    split at h
    all_goals first | (injection h with h; subst h; decide) | exact absurd h (by simp)
  · intro h
    simp only [escapes, List.mem_cons, List.not_mem_nil, or_false, Prod.mk.injEq] at h
    rcases h with h | h | h | h | h | h | h | h <;> (obtain ⟨rfl, rfl⟩ := h; rfl)

theorem kindName_eq (k : GeoKind) : kindName k = kindText k := by cases k <;> rfl

theorem expPart_iff (t : Text) : expPart t = true ↔
    (t = [] ∨ ∃ c g d, t = c :: (g ++ d) ∧ (c = 'e' ∨ c = 'E') ∧ (g = [] ∨ g = ['+'] ∨ g = ['-']) ∧ Digits d) := by
  cases t with
  | nil => simp [expPart]
  | cons c r =>
    unfold expPart
    rw [Bool.and_eq_true, Bool.or_eq_true, beq_iff_eq, beq_iff_eq]
    simp only [reduceCtorEq, false_or]
    constructor
    · rintro ⟨hc, h⟩
      cases r with
      | nil => simp at h
      | cons s r =>
        simp only at h
        split at h
        · rename_i hs
          simp only [Bool.or_eq_true, beq_iff_eq] at hs
          simp only [ne_eq, decide_not, Bool.and_eq_true, Bool.not_eq_true', decide_eq_false_iff_not, List.all_eq_true] at h
          exact ⟨c, [s], r, rfl, hc, by rcases hs with rfl | rfl <;> simp, h.1, h.2⟩
        · simp only [List.all_eq_true] at h
          exact ⟨c, [], s :: r, rfl, hc, Or.inl rfl, by simp, h⟩
    · rintro ⟨c', g, d, e, hc, hg, hd1, hd2⟩
      simp only [List.cons.injEq] at e
      obtain ⟨rfl, rfl⟩ := e
      refine ⟨hc, ?_⟩
      rcases hg with rfl | rfl | rfl
      · obtain ⟨x, d, rfl⟩ := List.exists_cons_of_ne_nil hd1
        have hx := hd2 x (by simp)
        have : (x == '+' || x == '-') = false := by
          rw [Bool.or_eq_false_iff]
          constructor <;>
          · rw [beq_eq_false_iff_ne]
            rintro rfl
            exact absurd hx (by decide)
        simp only [List.nil_append, this, Bool.false_eq_true, if_false, List.all_eq_true]
        exact hd2
      · simp only [List.cons_append, List.nil_append, BEq.rfl, Bool.true_or, if_true]
        simp only [ne_eq, decide_not, Bool.and_eq_true, Bool.not_eq_true', decide_eq_false_iff_not, List.all_eq_true]
        exact ⟨hd1, hd2⟩
      · simp only [List.cons_append, List.nil_append, BEq.rfl, Bool.or_true, if_true]
        simp only [ne_eq, decide_not, Bool.and_eq_true, Bool.not_eq_true', decide_eq_false_iff_not, List.all_eq_true]
        exact ⟨hd1, hd2⟩

theorem exp_head {e : Text} (h : e = [] ∨ ∃ c g d, e = c :: (g ++ d) ∧ (c = 'e' ∨ c = 'E') ∧ (g = [] ∨ g = ['+'] ∨ g = ['-']) ∧ Digits d) :
    ∀ c ∈ e.head?, isDigit c = false ∧ c ≠ '.' := by
  rcases h with rfl | ⟨c, g, d, rfl, hc, _⟩
  · simp
  · intro x hx
    simp only [List.head?_cons, Option.mem_def, Option.some.injEq] at hx
    subst hx
    rcases hc with rfl | rfl <;> decide

theorem takeWhile_digits {d e : Text} (hd : ∀ c ∈ d, isDigit c = true) (he : ∀ c ∈ e.head?, isDigit c = false) :
    (d ++ e).takeWhile isDigit = d ∧ (d ++ e).dropWhile isDigit = e := by
  induction d with
  | nil =>
    cases e with
    | nil => simp
    | cons c e =>
      have := he c (by simp)
      simp [this]
  | cons c d ih =>
    have hc := hd c (by simp)
    obtain ⟨h1, h2⟩ := ih fun x hx => hd x (by simp [hx])
    simp [hc, h1, h2]

theorem mem_takeWhile {p : Char → Bool} {t : Text} : ∀ c ∈ t.takeWhile p, p c = true := fun _ h => List.mem_takeWhile_imp h

theorem fracPart_iff (t : Text) : fracPart t = true ↔ ∃ f e, t = f ++ e ∧ (f = [] ∨ ∃ d, f = '.' :: d ∧ Digits d) ∧
    (e = [] ∨ ∃ c g d, e = c :: (g ++ d) ∧ (c = 'e' ∨ c = 'E') ∧ (g = [] ∨ g = ['+'] ∨ g = ['-']) ∧ Digits d) := by
  constructor
  · intro h
    unfold fracPart at h
    split at h
    · rename_i r
      simp only [ne_eq, decide_not, Bool.and_eq_true, Bool.not_eq_true', decide_eq_false_iff_not] at h
      exact ⟨'.' :: r.takeWhile isDigit, r.dropWhile isDigit, by simp, Or.inr ⟨_, rfl, h.1, mem_takeWhile⟩, (expPart_iff _).1 h.2⟩
    · exact ⟨[], t, rfl, Or.inl rfl, (expPart_iff _).1 h⟩
  · rintro ⟨f, e, rfl, hf, he⟩
    have hh := exp_head he
    rcases hf with rfl | ⟨d, rfl, hd1, hd2⟩
    · unfold fracPart
      split
      · exact absurd rfl (hh '.' (by simp_all)).2
      · exact (expPart_iff _).2 he
    · obtain ⟨h1, h2⟩ := takeWhile_digits hd2 fun c hc => (hh c hc).1
      rw [List.cons_append, fracPart, h1, h2]
      simp [hd1, (expPart_iff _).2 he]

theorem frac_head {f e : Text} (hf : f = [] ∨ ∃ d, f = '.' :: d ∧ Digits d)
    (he : e = [] ∨ ∃ c g d, e = c :: (g ++ d) ∧ (c = 'e' ∨ c = 'E') ∧ (g = [] ∨ g = ['+'] ∨ g = ['-']) ∧ Digits d) :
    ∀ c ∈ (f ++ e).head?, isDigit c = false := by
  rcases hf with rfl | ⟨d, rfl, _⟩
  · exact fun c hc => (exp_head he c hc).1
  · intro c hc
    simp only [List.cons_append, List.head?_cons, Option.mem_def, Option.some.injEq] at hc
    subst hc
    decide

theorem intPart_iff (t : Text) : intPart t = true ↔ ∃ i f e, t = i ++ (f ++ e) ∧ (Digits i ∧ (i.head? = some '0' → i = ['0'])) ∧
    (f = [] ∨ ∃ d, f = '.' :: d ∧ Digits d) ∧
    (e = [] ∨ ∃ c g d, e = c :: (g ++ d) ∧ (c = 'e' ∨ c = 'E') ∧ (g = [] ∨ g = ['+'] ∨ g = ['-']) ∧ Digits d) := by
  constructor
  · intro h
    cases t with
    | nil => simp [intPart] at h
    | cons c r =>
      rw [intPart] at h
      split_ifs at h with h0 h1
      · rw [beq_iff_eq] at h0
        subst h0
        obtain ⟨f, e, rfl, hf, he⟩ := (fracPart_iff _).1 h
        exact ⟨['0'], f, e, rfl, ⟨⟨by simp, by decide⟩, by simp⟩, hf, he⟩
      · obtain ⟨f, e, hr, hf, he⟩ := (fracPart_iff _).1 h
        refine ⟨c :: r.takeWhile isDigit, f, e, ?_, ⟨⟨by simp, ?_⟩, ?_⟩, hf, he⟩
        · rw [← hr]
          simp
        · intro x hx
          rcases List.mem_cons.1 hx with rfl | hx
          · exact h1
          · exact mem_takeWhile _ hx
        · intro hh
          simp only [List.head?_cons, Option.some.injEq] at hh
          rw [beq_iff_eq] at h0
          exact absurd hh h0
  · rintro ⟨i, f, e, rfl, ⟨⟨hi1, hi2⟩, hi3⟩, hf, he⟩
    obtain ⟨c, r, rfl⟩ := List.exists_cons_of_ne_nil hi1
    rw [List.cons_append, intPart]
    split_ifs with h0 h1
    · rw [beq_iff_eq] at h0
      subst h0
      have := hi3 rfl
      simp only [List.cons.injEq, true_and] at this
      subst this
      exact (fracPart_iff _).2 ⟨f, e, rfl, hf, he⟩
    · rw [(takeWhile_digits (fun x hx => hi2 x (by simp [hx])) (frac_head hf he)).2]
      exact (fracPart_iff _).2 ⟨f, e, rfl, hf, he⟩
    · exact absurd (hi2 c (by simp)) h1

theorem isNumber_iff (t : Text) : isNumber t = true ↔ IsNumber t := by
  constructor
  · intro h
    unfold isNumber at h
    split at h
    · obtain ⟨i, f, e, rfl, h1, h2, h3⟩ := (intPart_iff _).1 h
      exact ⟨['-'], i, f, e, rfl, Or.inr rfl, h1, h2, h3⟩
    · obtain ⟨i, f, e, rfl, h1, h2, h3⟩ := (intPart_iff _).1 h
      exact ⟨[], i, f, e, rfl, Or.inl rfl, h1, h2, h3⟩
  · rintro ⟨s, i, f, e, rfl, hs, h1, h2, h3⟩
    rcases hs with rfl | rfl
    · obtain ⟨c, r, rfl⟩ := List.exists_cons_of_ne_nil h1.1.1
      have hc := h1.1.2 c (by simp)
      unfold isNumber
      split
      · rename_i r' e'
        simp only [List.nil_append, List.cons_append, List.cons.injEq] at e'
        rw [e'.1] at hc
        exact absurd hc (by decide)
      · exact (intPart_iff _).2 ⟨_, f, e, rfl, h1, h2, h3⟩
    · exact (intPart_iff _).2 ⟨_, f, e, rfl, h1, h2, h3⟩

theorem digit_numChar {c : Char} (h : isDigit c = true) : isNumChar c = true := by simp [isNumChar, h]

theorem IsNumber.chars {t : Text} (h : IsNumber t) : ∀ c ∈ t, isNumChar c = true := by
  obtain ⟨s, i, f, e, rfl, hs, ⟨⟨_, hi⟩, _⟩, hf, he⟩ := h
  intro c hc
  simp only [List.mem_append] at hc
  rcases hc with hc | hc | hc | hc
  · rcases hs with rfl | rfl
    · simp at hc
    · simp only [List.mem_singleton] at hc
      subst hc
      decide
  · exact digit_numChar (hi c hc)
  · rcases hf with rfl | ⟨d, rfl, _, hd⟩
    · simp at hc
    · rcases List.mem_cons.1 hc with rfl | hc
      · decide
      · exact digit_numChar (hd c hc)
  · rcases he with rfl | ⟨x, g, d, rfl, hx, hg, _, hd⟩
    · simp at hc
    · rcases List.mem_cons.1 hc with rfl | hc
      · rcases hx with rfl | rfl <;> decide
      · rcases List.mem_append.1 hc with hc | hc
        · rcases hg with rfl | rfl | rfl
          · simp at hc
          all_goals
            simp only [List.mem_singleton] at hc
            subst hc
            decide
        · exact digit_numChar (hd c hc)

theorem IsNumber.ne_nil {t : Text} (h : IsNumber t) : t ≠ [] := by
  obtain ⟨s, i, f, e, rfl, hs, ⟨⟨hi, _⟩, _⟩, _⟩ := h
  simp [hi]

theorem numChar_ne {c : Char} (h : isNumChar c = true) : isBlank c = false ∧ c ≠ '{' ∧ c ≠ '}' ∧ c ≠ '[' ∧ c ≠ ']' ∧ c ≠ ',' ∧ c ≠ ':' ∧
    c ≠ '"' ∧ c ≠ 'n' ∧ c ≠ 't' ∧ c ≠ 'f' := by
  refine ⟨?_, ?_, ?_, ?_, ?_, ?_, ?_, ?_, ?_, ?_, ?_⟩
  · by_contra hb
    simp only [Bool.not_eq_false, isBlank, Bool.or_eq_true, beq_iff_eq] at hb
    rcases hb with ((rfl | rfl) | rfl) | rfl <;> exact absurd h (by decide)
  all_goals
    rintro rfl
    exact absurd h (by decide)

/-! ## Strings -/

theorem lexStr_sound (t : Text) : ∀ s r, lexStr t = some (s, r) → ∃ b, t = b ++ '"' :: r ∧ SpellsStr s b := by
  induction h : t.length using Nat.strong_induction_on generalizing t with
  | _ n ih =>
    subst h
    intro s r hs
    unfold lexStr at hs
    split at hs
    · simp at hs
    · simp only [Option.some.injEq, Prod.mk.injEq] at hs
      obtain ⟨rfl, rfl⟩ := hs
      exact ⟨[], rfl, .nil⟩
    · rename_i c r'
      cases hd : unescape c with
      | none => simp [hd] at hs
      | some d =>
        cases hx : lexStr r' with
        | none => simp [hd, hx] at hs
        | some x =>
          simp only [hd, hx, Option.bind_eq_bind, Option.bind_some, Option.some.injEq, Prod.mk.injEq] at hs
          obtain ⟨rfl, rfl⟩ := hs
          obtain ⟨b, rfl, hb⟩ := ih r'.length (by simp) r' rfl x.1 x.2 hx
          exact ⟨_, rfl, .escaped ((unescape_iff _ _).1 hd) hb⟩
    · rename_i c r' _ _
      split_ifs at hs with hp
      cases hx : lexStr r' with
      | none => simp [hx] at hs
      | some x =>
        simp only [hx, Option.bind_eq_bind, Option.bind_some, Option.some.injEq, Prod.mk.injEq] at hs
        obtain ⟨rfl, rfl⟩ := hs
        obtain ⟨b, rfl, hb⟩ := ih r'.length (by simp) r' rfl x.1 x.2 hx
        exact ⟨_, rfl, .plain ((plain_iff _).1 hp) hb⟩

theorem lexStr_complete {s b : Text} (h : SpellsStr s b) (r : Text) : lexStr (b ++ '"' :: r) = some (s, r) := by
  induction h with
  | nil => simp [lexStr]
  | @plain c s t hc _ ih =>
    replace hc := (plain_iff c).2 hc
    rw [List.cons_append]
    unfold lexStr
    split
    · simp_all
    · rename_i e
      simp only [List.cons.injEq] at e
      rw [e.1] at hc
      exact absurd hc (by decide)
    · rename_i e
      simp only [List.cons.injEq] at e
      rw [e.1] at hc
      exact absurd hc (by decide)
    · rename_i e
      simp only [List.cons.injEq] at e
      obtain ⟨rfl, rfl⟩ := e
      simp [hc, ih]
  | @escaped c d s t hc _ ih =>
    rw [List.cons_append, List.cons_append, lexStr, (unescape_iff _ _).2 hc, ih]
    rfl

/-! ## Two numbers are never next to each other -/

def Tok.isNum : Tok → Bool
  | .num _ => true
  | _ => false

/-- No number is followed by another one. -/
def Apart (ts : List Tok) : Prop := ts.IsChain fun a b => ¬ (a.isNum = true ∧ b.isNum = true)

theorem Apart.insert {l l' : List Tok} {k : Tok} (hl : Apart l) (hl' : Apart l') (hk : k.isNum = false) : Apart (l ++ k :: l') := by
  unfold Apart at *
  rw [List.isChain_append]
  refine ⟨hl, ?_, ?_⟩
  · rw [List.isChain_cons]
    exact ⟨by simp [hk], hl'⟩
  · intro x _ y hy
    simp only [List.head?_cons, Option.mem_def, Option.some.injEq] at hy
    subst hy
    simp [hk]

theorem Apart.cons {l : List Tok} {k : Tok} (hl : Apart l) (hk : k.isNum = false) : Apart (k :: l) := by
  simpa using Apart.insert (l := []) (by simp [Apart]) hl hk

mutual
theorem toks_apart : ∀ v : Json, Apart (toks v)
  | .null => by simp [toks, Apart]
  | .bool b => by simp [toks, Apart]
  | .num t => by simp [toks, Apart]
  | .str t => by simp [toks, Apart]
  | .arr l => by
    rw [toks]
    exact Apart.cons (Apart.insert (toksElems_apart l) (by simp [Apart]) rfl) rfl
  | .obj l => by
    rw [toks]
    exact Apart.cons (Apart.insert (toksMembers_apart l) (by simp [Apart]) rfl) rfl

theorem toksElems_apart : ∀ l : List Json, Apart (toksElems l)
  | [] => by simp [toksElems, Apart]
  | [v] => by
    rw [toksElems]
    exact toks_apart v
  | v :: w :: l => by
    rw [toksElems]
    exact Apart.insert (toks_apart v) (toksElems_apart (w :: l)) rfl

theorem toksMembers_apart : ∀ l : List (Text × Json), Apart (toksMembers l)
  | [] => by simp [toksMembers, Apart]
  | [(k, v)] => by
    rw [toksMembers]
    exact Apart.cons (Apart.cons (toks_apart v) rfl) rfl
  | (k, v) :: m :: l => by
    rw [toksMembers]
    exact Apart.cons (Apart.cons (Apart.insert (toks_apart v) (toksMembers_apart (m :: l)) rfl) rfl) rfl
end

end Gemlab.MeshJson
