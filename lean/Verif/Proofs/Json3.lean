import Verif.Proofs.Json2

/-!
# The reader accepts exactly the JSON documents
-/
namespace Gemlab.MeshJson
open Gemlab
open Gemlab.MeshText (Text)

theorem lexGo_sound (n : Nat) : ∀ t ts, lexGo n t = some ts → Layout t ts := by
  induction n with
  | zero =>
    intro t ts h
    cases t with
    | nil =>
      simp only [lexGo, Option.some.injEq] at h
      subst h
      exact .nil
    | cons c t => simp [lexGo] at h
  | succ n ih =>
    intro t ts h
    cases t with
    | nil =>
      simp only [lexGo, Option.some.injEq] at h
      subst h
      exact .nil
    | cons c r =>
      have key : ∀ (k : Tok) (s r' : Text), c :: r = s ++ r' → Spells k s → (lexGo n r').map (k :: ·) = some ts → Layout (c :: r) ts := by
        intro k s r' e hs hm
        rw [Option.map_eq_some_iff] at hm
        obtain ⟨ts', h1, rfl⟩ := hm
        rw [e]
        exact .tok hs (ih _ _ h1)
      rw [lexGo] at h
      by_cases h0 : isBlank c = true
      · rw [if_pos h0] at h
        exact .blank ((blank_iff _).1 h0) (ih _ _ h)
      rw [if_neg h0] at h
      by_cases h1 : c = '{'
      · rw [if_pos h1] at h
        exact key .lbrace ['{'] r (by rw [h1]; rfl) .lbrace h
      rw [if_neg h1] at h
      by_cases h2 : c = '}'
      · rw [if_pos h2] at h
        exact key .rbrace ['}'] r (by rw [h2]; rfl) .rbrace h
      rw [if_neg h2] at h
      by_cases h3 : c = '['
      · rw [if_pos h3] at h
        exact key .lbrack ['['] r (by rw [h3]; rfl) .lbrack h
      rw [if_neg h3] at h
      by_cases h4 : c = ']'
      · rw [if_pos h4] at h
        exact key .rbrack [']'] r (by rw [h4]; rfl) .rbrack h
      rw [if_neg h4] at h
      by_cases h5 : c = ','
      · rw [if_pos h5] at h
        exact key .comma [','] r (by rw [h5]; rfl) .comma h
      rw [if_neg h5] at h
      by_cases h6 : c = ':'
      · rw [if_pos h6] at h
        exact key .colon [':'] r (by rw [h6]; rfl) .colon h
      rw [if_neg h6] at h
      by_cases h7 : c = '"'
      · rw [if_pos h7] at h
        cases hx : lexStr r with
        | none => simp [hx] at h
        | some x =>
          simp only [hx, Option.bind_eq_bind, Option.bind_some] at h
          obtain ⟨b, hb, hs⟩ := lexStr_sound r x.1 x.2 hx
          exact key (.str x.1) ('"' :: (b ++ ['"'])) x.2 (by rw [h7, hb]; simp) (.str hs) h
      rw [if_neg h7] at h
      by_cases h8 : c = 'n'
      · rw [if_pos h8] at h
        by_cases h' : r.take 3 = ['u', 'l', 'l']
        · rw [if_pos h'] at h
          exact key .null ('n' :: r.take 3) (r.drop 3) (by rw [h8]; simp) (by rw [h']; exact .null) h
        · rw [if_neg h'] at h
          simp at h
      rw [if_neg h8] at h
      by_cases h9 : c = 't'
      · rw [if_pos h9] at h
        by_cases h' : r.take 3 = ['r', 'u', 'e']
        · rw [if_pos h'] at h
          exact key (.bool true) ('t' :: r.take 3) (r.drop 3) (by rw [h9]; simp) (by rw [h']; exact .true) h
        · rw [if_neg h'] at h
          simp at h
      rw [if_neg h9] at h
      by_cases h10 : c = 'f'
      · rw [if_pos h10] at h
        by_cases h' : r.take 4 = ['a', 'l', 's', 'e']
        · rw [if_pos h'] at h
          exact key (.bool false) ('f' :: r.take 4) (r.drop 4) (by rw [h10]; simp) (by rw [h']; exact .false) h
        · rw [if_neg h'] at h
          simp at h
      rw [if_neg h10] at h
      by_cases h11 : isNumber (c :: r.takeWhile isNumChar) = true
      · rw [if_pos h11] at h
        exact key (.num (c :: r.takeWhile isNumChar)) (c :: r.takeWhile isNumChar) (r.dropWhile isNumChar) (by simp)
          (.num ((isNumber_iff _).1 h11)) h
      · rw [if_neg h11] at h
        simp at h

/-- What follows a token that is not a number cannot continue a number. -/
theorem layout_head {t : Text} {ts : List Tok} (h : Layout t ts) (hts : ∀ k ∈ ts.head?, k.isNum = false) :
    ∀ c ∈ t.head?, isNumChar c = false := by
  cases h with
  | nil => simp
  | blank hb _ =>
    intro c hc
    simp only [List.head?_cons, Option.mem_def, Option.some.injEq] at hc
    subst hc
    by_contra hn
    have := (numChar_ne (by simpa using hn)).1
    rw [← blank_iff, this] at hb
    simp at hb
  | @tok k s t ts hs _ =>
    have hk := hts k (by simp)
    intro c hc
    cases hs <;>
      first
      | (simp [Tok.isNum] at hk; done)
      | (simp only [List.cons_append, List.head?_cons, Option.mem_def, Option.some.injEq] at hc
         subst hc
         decide)

theorem takeWhile_num {d e : Text} (hd : ∀ c ∈ d, isNumChar c = true) (he : ∀ c ∈ e.head?, isNumChar c = false) :
    (d ++ e).takeWhile isNumChar = d ∧ (d ++ e).dropWhile isNumChar = e := by
  induction d with
  | nil =>
    cases e with
    | nil => simp
    | cons c e =>
      have := he c (by simp)
      simp [this]
  | cons c d ih =>
    have hc := hd c (by simp)
    obtain ⟨h1, h2⟩ := ih fun x hx => hd x (by simp [hx])
    simp [hc, h1, h2]

theorem lexGo_complete {t : Text} {ts : List Tok} (h : Layout t ts) : ∀ n, t.length ≤ n → Apart ts → lexGo n t = some ts := by
  induction h with
  | nil =>
    intro n _ _
    cases n <;> rfl
  | @blank c t ts hb _ ih =>
    intro n hn ha
    obtain ⟨n, rfl⟩ : ∃ m, n = m + 1 := ⟨n - 1, by simp at hn; omega⟩
    rw [lexGo, if_pos ((blank_iff _).2 hb)]
    exact ih n (by simpa using hn) ha
  | @tok k s t ts hs ht ih =>
    intro n hn ha
    have hne : 1 ≤ s.length := by
      cases hs with
      | num h => exact List.length_pos_iff.2 h.ne_nil
      | _ => simp
    obtain ⟨n, rfl⟩ : ∃ m, n = m + 1 := ⟨n - 1, by simp at hn; omega⟩
    have hat : Apart ts := (List.isChain_cons.1 ha).2
    have hat' := (List.isChain_cons.1 ha).1
    rw [List.length_append] at hn
    have hr := ih n (by omega) hat
    cases hs with
    | num hnum =>
      obtain ⟨c, r, rfl⟩ := List.exists_cons_of_ne_nil hnum.ne_nil
      have hh := layout_head ht fun k hk => by
        have := hat' k hk
        simpa [Tok.isNum] using this
      obtain ⟨e1, e2⟩ := takeWhile_num (fun x hx => hnum.chars x (List.mem_cons_of_mem _ hx)) hh
      obtain ⟨n0, n1, n2, n3, n4, n5, n6, n7, n8, n9, n10⟩ := numChar_ne (hnum.chars c (by simp))
      rw [List.cons_append, lexGo, e1, e2, hr, if_neg (by simp [n0]), if_neg n1, if_neg n2, if_neg n3, if_neg n4, if_neg n5, if_neg n6,
        if_neg n7, if_neg n8, if_neg n9, if_neg n10, if_pos ((isNumber_iff _).2 hnum)]
      rfl
    | str h =>
      have e := lexStr_complete h t
      simp only [List.cons_append, List.append_assoc, List.nil_append]
      rw [lexGo, e]
      simp [hr, isBlank]
    | _ => simp [lexGo, hr, isBlank]

/-- The reader finds a value in a text exactly when the text is a JSON document with this value. -/
theorem parse_iff (t : Text) (v : Json) : parse t = some v ↔ Denotes t v := by
  unfold parse Denotes lex
  constructor
  · intro h
    cases hl : lexGo t.length t with
    | none => simp [hl] at h
    | some ts =>
      simp only [hl, Option.bind_eq_bind, Option.bind_some, parseToks_iff] at h
      subst h
      exact lexGo_sound _ _ _ hl
  · intro h
    rw [lexGo_complete h _ (le_refl _) (toks_apart v)]
    exact (parseToks_iff _ _).2 rfl

end Gemlab.MeshJson
