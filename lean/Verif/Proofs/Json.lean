import Verif.Spec.Json
import Mathlib.Tactic.SplitIfs

/-!
# The tokens of a document are parsed to the value they are the tokens of
-/
namespace Gemlab.MeshJson
open Gemlab
open Gemlab.MeshText (Text)

theorem toksElems_cons (v : Json) (l : List Json) (h : l ≠ []) : toksElems (v :: l) = toks v ++ .comma :: toksElems l := by
  cases l with
  | nil => exact absurd rfl h
  | cons w l => rw [toksElems]

theorem toksMembers_cons (m : Text × Json) (l : List (Text × Json)) (h : l ≠ []) :
    toksMembers (m :: l) = .str m.1 :: .colon :: (toks m.2 ++ .comma :: toksMembers l) := by
  cases l with
  | nil => exact absurd rfl h
  | cons w l => rw [toksMembers]

theorem toks_length (v : Json) : 1 ≤ (toks v).length := by
  cases v <;> simp [toks]

theorem toks_not_close (v : Json) : ∃ k ts, toks v = k :: ts ∧ k ≠ .rbrack ∧ k ≠ .rbrace ∧ k ≠ .comma := by
  cases v <;> exact ⟨_, _, by rw [toks], by simp, by simp, by simp⟩

/-! ## Everything that is parsed is a value -/

theorem pVal_sound (n : Nat) : (∀ ts v r, pVal n ts = some (v, r) → ts = toks v ++ r) ∧
    (∀ ts l r, pElems n ts = some (l, r) → l ≠ [] ∧ ts = toksElems l ++ .rbrack :: r) ∧
    (∀ ts l r, pMembers n ts = some (l, r) → l ≠ [] ∧ ts = toksMembers l ++ .rbrace :: r) := by
  induction n with
  | zero => exact ⟨by simp [pVal], by simp [pElems], by simp [pMembers]⟩
  | succ n ih =>
    obtain ⟨ih1, ih2, ih3⟩ := ih
    refine ⟨fun ts v r h => ?_, fun ts l r h => ?_, fun ts l r h => ?_⟩
    · unfold pVal at h
      split at h <;> (try simp only [Option.some.injEq, Prod.mk.injEq, Option.map_eq_some_iff, reduceCtorEq] at h)
      all_goals first
        | (obtain ⟨rfl, rfl⟩ := h; simp [toks, toksElems, toksMembers]; done)
        | skip
      · rename_i n' r' _ hn
        obtain ⟨⟨l, q⟩, hx, h1, h2⟩ := h
        simp only at h1 h2
        subst h1 h2
        obtain rfl : n = n' := by omega
        obtain ⟨_, e⟩ := ih2 _ _ _ hx
        rw [e, toks]
        simp
      · rename_i n' r' _ hn
        obtain ⟨⟨l, q⟩, hx, h1, h2⟩ := h
        simp only at h1 h2
        subst h1 h2
        obtain rfl : n = n' := by omega
        obtain ⟨_, e⟩ := ih3 _ _ _ hx
        rw [e, toks]
        simp
    · unfold pElems at h
      split at h
      · rename_i v r' hv
        simp only [Option.some.injEq, Prod.mk.injEq] at h
        obtain ⟨rfl, rfl⟩ := h
        rw [ih1 _ _ _ hv, toksElems]
        simp
      · rename_i v r' hv
        simp only [Option.map_eq_some_iff] at h
        obtain ⟨⟨l', q⟩, hx, e⟩ := h
        simp only [Prod.mk.injEq] at e
        obtain ⟨rfl, rfl⟩ := e
        obtain ⟨hl, e2⟩ := ih2 _ _ _ hx
        rw [ih1 _ _ _ hv, e2, toksElems_cons _ _ hl]
        simp
      · simp at h
    · unfold pMembers at h
      split at h
      · simp at h
      · rename_i n' k ts' hn
        obtain rfl : n = n' := by omega
        split at h
        · rename_i v r' hv
          simp only [Option.some.injEq, Prod.mk.injEq] at h
          obtain ⟨rfl, rfl⟩ := h
          rw [ih1 _ _ _ hv, toksMembers]
          simp
        · rename_i v r' hv
          simp only [Option.map_eq_some_iff] at h
          obtain ⟨⟨l', q⟩, hx, e⟩ := h
          simp only [Prod.mk.injEq] at e
          obtain ⟨rfl, rfl⟩ := e
          obtain ⟨hl, e2⟩ := ih3 _ _ _ hx
          rw [ih1 _ _ _ hv, e2, toksMembers_cons _ _ hl]
          simp
        · simp at h
      · simp at h

/-! ## The tokens of every value are parsed -/

mutual
theorem pVal_complete : ∀ (v : Json) (n : Nat) (r : List Tok), 2 * (toks v).length ≤ n → pVal n (toks v ++ r) = some (v, r)
  | .null, n, r, h => by
    obtain ⟨n, rfl⟩ : ∃ m, n = m + 1 := ⟨n - 1, by simp [toks] at h; omega⟩
    simp [toks, pVal]
  | .bool b, n, r, h => by
    obtain ⟨n, rfl⟩ : ∃ m, n = m + 1 := ⟨n - 1, by simp [toks] at h; omega⟩
    simp [toks, pVal]
  | .num t, n, r, h => by
    obtain ⟨n, rfl⟩ : ∃ m, n = m + 1 := ⟨n - 1, by simp [toks] at h; omega⟩
    simp [toks, pVal]
  | .str t, n, r, h => by
    obtain ⟨n, rfl⟩ : ∃ m, n = m + 1 := ⟨n - 1, by simp [toks] at h; omega⟩
    simp [toks, pVal]
  | .arr [], n, r, h => by
    obtain ⟨n, rfl⟩ : ∃ m, n = m + 1 := ⟨n - 1, by simp [toks] at h; omega⟩
    simp [toks, toksElems, pVal]
  | .arr (v :: l), n, r, h => by
    obtain ⟨n, rfl⟩ : ∃ m, n = m + 1 := ⟨n - 1, by simp [toks] at h; omega⟩
    have e := pElems_complete (v :: l) (by simp) n r (by simp [toks] at h; omega)
    obtain ⟨k, ts, hk, h1, h2, h3⟩ := toks_not_close v
    have hh : ∃ ts', toksElems (v :: l) ++ .rbrack :: r = k :: ts' := by
      by_cases hl : l = []
      · subst hl
        exact ⟨_, by rw [toksElems, hk]; rfl⟩
      · exact ⟨_, by rw [toksElems_cons _ _ hl, hk]; rfl⟩
    obtain ⟨ts', hh⟩ := hh
    have : toks (.arr (v :: l)) ++ r = .lbrack :: (toksElems (v :: l) ++ .rbrack :: r) := by
      rw [toks]
      simp
    rw [this]
    rw [hh] at e ⊢
    rw [pVal]
    · rw [e]
      rfl
    · intro r' he
      simp only [List.cons.injEq] at he
      exact h1 he.1
  | .obj [], n, r, h => by
    obtain ⟨n, rfl⟩ : ∃ m, n = m + 1 := ⟨n - 1, by simp [toks] at h; omega⟩
    simp [toks, toksMembers, pVal]
  | .obj ((key, v) :: l), n, r, h => by
    obtain ⟨n, rfl⟩ : ∃ m, n = m + 1 := ⟨n - 1, by simp [toks] at h; omega⟩
    have e := pMembers_complete ((key, v) :: l) (by simp) n r (by simp [toks] at h; omega)
    have hh : ∃ ts', toksMembers ((key, v) :: l) ++ .rbrace :: r = .str key :: ts' := by
      by_cases hl : l = []
      · subst hl
        exact ⟨_, by rw [toksMembers]; rfl⟩
      · exact ⟨_, by rw [toksMembers_cons _ _ hl]; rfl⟩
    obtain ⟨ts', hh⟩ := hh
    have : toks (.obj ((key, v) :: l)) ++ r = .lbrace :: (toksMembers ((key, v) :: l) ++ .rbrace :: r) := by
      rw [toks]
      simp
    rw [this]
    rw [hh] at e ⊢
    rw [pVal]
    · rw [e]
      rfl
    · intro r' he
      simp at he

theorem pElems_complete : ∀ (l : List Json), l ≠ [] → ∀ (n : Nat) (r : List Tok), 2 * (toksElems l).length + 2 ≤ n →
    pElems n (toksElems l ++ .rbrack :: r) = some (l, r)
  | [], h, _, _, _ => absurd rfl h
  | [v], _, n, r, hn => by
    obtain ⟨n, rfl⟩ : ∃ m, n = m + 1 := ⟨n - 1, by omega⟩
    rw [toksElems] at hn ⊢
    rw [pElems, pVal_complete v n _ (by omega)]
  | v :: w :: l, _, n, r, hn => by
    obtain ⟨n, rfl⟩ : ∃ m, n = m + 1 := ⟨n - 1, by omega⟩
    rw [toksElems_cons _ _ (by simp)] at hn ⊢
    simp only [List.length_append, List.length_cons] at hn
    rw [List.append_assoc, List.cons_append, pElems, pVal_complete v n _ (by omega)]
    simp only
    rw [pElems_complete (w :: l) (by simp) n r (by omega)]
    rfl

theorem pMembers_complete : ∀ (l : List (Text × Json)), l ≠ [] → ∀ (n : Nat) (r : List Tok), 2 * (toksMembers l).length + 2 ≤ n →
    pMembers n (toksMembers l ++ .rbrace :: r) = some (l, r)
  | [], h, _, _, _ => absurd rfl h
  | [(k, v)], _, n, r, hn => by
    obtain ⟨n, rfl⟩ : ∃ m, n = m + 1 := ⟨n - 1, by omega⟩
    rw [toksMembers] at hn ⊢
    simp only [List.length_cons] at hn
    rw [List.cons_append, List.cons_append, pMembers, pVal_complete v n _ (by omega)]
  | (k, v) :: m :: l, _, n, r, hn => by
    obtain ⟨n, rfl⟩ : ∃ m, n = m + 1 := ⟨n - 1, by omega⟩
    rw [toksMembers_cons _ _ (by simp)] at hn ⊢
    simp only [List.length_append, List.length_cons] at hn
    rw [List.cons_append, List.cons_append, List.append_assoc, List.cons_append, pMembers, pVal_complete v n _ (by omega)]
    simp only
    rw [pMembers_complete (m :: l) (by simp) n r (by omega)]
    rfl
end

/-- The tokens are parsed to a value exactly when they are the tokens of the value. -/
theorem parseToks_iff (ts : List Tok) (v : Json) : parseToks ts = some v ↔ ts = toks v := by
  unfold parseToks
  constructor
  · intro h
    split at h
    · rename_i w hw
      simp only [Option.some.injEq] at h
      subst h
      simpa using (pVal_sound _).1 _ _ _ hw
    · simp at h
  · intro h
    subst h
    have := pVal_complete v (2 * (toks v).length) [] (le_refl _)
    rw [List.append_nil] at this
    rw [this]

end Gemlab.MeshJson
