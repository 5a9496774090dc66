import Verif.Proofs.MeshText2

/-! Printing a mesh and reading it back. -/
namespace Gemlab.MeshText
open Gemlab Gemlab.Mesh

/-- A non-empty word without white space. -/
def IsWord (w : Text) : Prop := w ≠ [] ∧ ∀ c ∈ w, isWs c = false

theorem IsWord.head {w : Text} (h : IsWord w) : ∃ c cs, w = c :: cs ∧ isWs c = false := by
  obtain ⟨h1, h2⟩ := h
  cases w with
  | nil => exact absurd rfl h1
  | cons c cs => exact ⟨c, cs, rfl, h2 c (by simp)⟩

theorem wordsGo_word (w : Text) (hw : ∀ c ∈ w, isWs c = false) (r cur : Text) : wordsGo (w ++ r) cur = wordsGo r (w.reverse ++ cur) := by
  induction w generalizing cur with
  | nil => rfl
  | cons c w ih =>
    have hc := hw c (by simp)
    simp only [List.cons_append, wordsGo, hc, Bool.false_eq_true, if_false]
    rw [ih (fun c hc => hw c (by simp [hc]))]
    simp

theorem isWs_space : isWs ' ' = true := by decide

theorem words_spaced (ws : List Text) (h : ∀ w ∈ ws, IsWord w) : words (spaced ws) = ws := by
  unfold words
  induction ws with
  | nil => rfl
  | cons w ws ih =>
    obtain ⟨h1, h2⟩ := h w (by simp)
    have hr : w.reverse ≠ [] := by simpa using h1
    cases ws with
    | nil =>
      have := wordsGo_word w h2 [] []
      rw [List.append_nil, List.append_nil] at this
      simp only [spaced]
      rw [this]
      match hrr : w.reverse with
      | [] => exact absurd hrr hr
      | a :: b => simp only [wordsGo]; rw [← hrr, List.reverse_reverse]
    | cons v vs =>
      have ih := ih (fun w hw => h w (by simp [hw]))
      simp only [spaced] at ih ⊢
      rw [wordsGo_word w h2, List.append_nil]
      simp only [wordsGo, isWs_space, if_true, if_neg hr, List.reverse_reverse]
      rw [ih]

theorem spaced_mem (ws : List Text) (c : Char) (hc : c ∈ spaced ws) : c = ' ' ∨ ∃ w ∈ ws, c ∈ w := by
  induction ws with
  | nil => simp [spaced] at hc
  | cons w ws ih =>
    cases ws with
    | nil => simp only [spaced] at hc; exact Or.inr ⟨w, by simp, hc⟩
    | cons v vs =>
      simp only [spaced, List.mem_append, List.mem_cons] at hc
      rcases hc with h | h | h
      · exact Or.inr ⟨w, by simp, h⟩
      · exact Or.inl h
      · rcases ih (by simpa using h) with h | ⟨w', hw', hc⟩
        · exact Or.inl h
        · exact Or.inr ⟨w', by simp at hw' ⊢; tauto, hc⟩

theorem isWs_nl : isWs '\n' = true := by decide
theorem isWs_cr : isWs '\r' = true := by decide

theorem spaced_no_nl (ws : List Text) (h : ∀ w ∈ ws, IsWord w) : '\n' ∉ spaced ws := by
  intro hc
  rcases spaced_mem ws _ hc with h1 | ⟨w, hw, h1⟩
  · exact absurd h1 (by decide)
  · exact absurd ((h w hw).2 _ h1) (by decide)

theorem spaced_no_cr (ws : List Text) (h : ∀ w ∈ ws, IsWord w) : '\r' ∉ spaced ws := by
  intro hc
  rcases spaced_mem ws _ hc with h1 | ⟨w, hw, h1⟩
  · exact absurd h1 (by decide)
  · exact absurd ((h w hw).2 _ h1) (by decide)

theorem spaced_cons (w : Text) (ws : List Text) : ∃ r, spaced (w :: ws) = w ++ r := by
  cases ws with
  | nil => exact ⟨[], by simp [spaced]⟩
  | cons v vs => exact ⟨' ' :: spaced (v :: vs), rfl⟩

theorem dataOf_spaced (w : Text) (ws : List Text) (h : ∀ v ∈ w :: ws, IsWord v) (hh : w.head? ≠ some '#') :
    dataOf (spaced (w :: ws)) = some (w :: ws) := by
  obtain ⟨c, cs, rfl, hc⟩ := (h w (by simp)).head
  obtain ⟨r, hr⟩ := spaced_cons (c :: cs) ws
  have hnl := spaced_no_nl _ h
  have hd : (spaced ((c :: cs) :: ws)).dropWhile isWs = spaced ((c :: cs) :: ws) := by
    rw [hr]; simp [hc]
  have hd2 : ∀ t : Text, '\n' ∉ t → t.dropWhile (· = '\n') = t := by
    intro t ht
    cases t with
    | nil => rfl
    | cons a t =>
      rw [List.dropWhile_cons_of_neg]
      simp only [List.mem_cons, not_or] at ht
      simpa using fun h => ht.1 h.symm
  unfold dataOf
  rw [hd, hd2 _ (by simpa using hnl), List.reverse_reverse]
  dsimp only
  rw [if_neg, words_spaced _ h]
  rw [hr]
  simpa using hh

/-! ### Numbers -/

theorem showNat_digits (n : Nat) : ∀ c ∈ showNat n, ∃ d < 10, c = Char.ofNat (48 + d) := by
  induction n using showNat.induct with
  | case1 n h =>
    intro c hc
    rw [showNat, if_pos h] at hc
    exact ⟨n, h, by simpa using hc⟩
  | case2 n h ih =>
    intro c hc
    rw [showNat, if_neg h, List.mem_append] at hc
    rcases hc with hc | hc
    · exact ih c hc
    · exact ⟨n % 10, Nat.mod_lt _ (by omega), by simpa using hc⟩

theorem digit_facts : ∀ d : Fin 10, digitVal (Char.ofNat (48 + d)) = some d.1 ∧ isWs (Char.ofNat (48 + d)) = false ∧
    Char.ofNat (48 + d) ≠ '#' ∧ Char.ofNat (48 + d) ≠ '+' ∧ Char.ofNat (48 + d) ≠ '-' := by decide

theorem showNat_ne_nil (n : Nat) : showNat n ≠ [] := by
  rw [showNat]; split <;> simp

theorem showNat_word (n : Nat) : IsWord (showNat n) := by
  refine ⟨showNat_ne_nil n, fun c hc => ?_⟩
  obtain ⟨d, hd, rfl⟩ := showNat_digits n c hc
  exact (digit_facts ⟨d, hd⟩).2.1

theorem showNat_head (n : Nat) : ∃ c cs, showNat n = c :: cs ∧ c ≠ '#' ∧ c ≠ '+' ∧ c ≠ '-' := by
  obtain ⟨c, cs, h, _⟩ := (showNat_word n).head
  obtain ⟨d, hd, rfl⟩ := showNat_digits n c (by rw [h]; simp)
  exact ⟨_, cs, h, (digit_facts ⟨d, hd⟩).2.2⟩

theorem showNat_fold (n : Nat) : (showNat n).foldlM (fun (acc : Nat) (c : Char) => do
    let d ← digitVal c
    some (10 * acc + d)) 0 = some n := by
  induction n using showNat.induct with
  | case1 n h =>
    rw [showNat, if_pos h]
    have := (digit_facts ⟨n, h⟩).1
    simp only at this
    simp [this]
  | case2 n h ih =>
    rw [showNat, if_neg h, List.foldlM_append, ih]
    have := (digit_facts ⟨n % 10, Nat.mod_lt _ (by omega)⟩).1
    simp only at this
    simp [this]
    omega

theorem parseDigits_showNat (n : Nat) : parseDigits (showNat n) = some n := by
  unfold parseDigits
  rw [if_neg (showNat_ne_nil n), showNat_fold]

theorem parseUsize_showNat (n : Nat) (h : n ≤ usizeMax) : parseUsize (showNat n) = some n := by
  have h1 := parseDigits_showNat n
  obtain ⟨c, cs, hs, _, hp, _⟩ := showNat_head n
  unfold parseUsize
  rw [hs] at h1 ⊢
  split
  · rename_i heq; simp only [List.cons.injEq] at heq; exact absurd heq.1 hp
  · rw [h1]; simp [h]

theorem parseI32_showInt (n : Int) (h1 : -2 ^ 31 ≤ n) (h2 : n < 2 ^ 31) : parseI32 (showInt n) = some n := by
  have hd := parseDigits_showNat n.natAbs
  unfold parseI32 showInt
  by_cases hn : n < 0
  · rw [if_pos hn]
    simp only [hd, Option.map_some]
    have : -((n.natAbs : Nat) : Int) = n := by omega
    rw [this]
    simp only [Option.bind_eq_bind, Option.bind_some]
    rw [if_pos ⟨h1, h2⟩]
  · rw [if_neg hn]
    obtain ⟨c, cs, hs, _, hp, hm⟩ := showNat_head n.natAbs
    rw [hs] at hd ⊢
    have : ((n.natAbs : Nat) : Int) = n := by omega
    split
    · rename_i heq; simp only [List.cons.injEq] at heq; exact absurd heq.1 hm
    · rename_i heq; simp only [List.cons.injEq] at heq; exact absurd heq.1 hp
    · rw [hd]
      simp only [Option.map_some, this, Option.bind_eq_bind, Option.bind_some]
      rw [if_pos ⟨h1, h2⟩]

theorem showInt_word (n : Int) : IsWord (showInt n) := by
  unfold showInt
  split
  · refine ⟨by simp, fun c hc => ?_⟩
    simp only [List.mem_cons] at hc
    rcases hc with rfl | hc
    · decide
    · exact (showNat_word _).2 c hc
  · exact showNat_word _

theorem showInt_head (n : Int) : (showInt n).head? ≠ some '#' := by
  unfold showInt
  split
  · simp
  · obtain ⟨c, cs, hs, h, _⟩ := showNat_head n.natAbs
    rw [hs]; simpa using h

theorem showNat_head' (n : Nat) : (showNat n).head? ≠ some '#' := by
  obtain ⟨c, cs, hs, h, _⟩ := showNat_head n
  rw [hs]; simpa using h

theorem kind_word (k : GeoKind) : IsWord k.toStr.toList := by
  constructor
  · cases k <;> decide +kernel
  · cases k <;> decide +kernel

theorem kind_roundtrip (k : GeoKind) : GeoKind.fromString (String.ofList k.toStr.toList) = some k := by
  rw [String.ofList_toList]
  cases k <;> decide +kernel

/-! ### Lines -/

theorem linesGo_line (l : Text) (hl : '\n' ∉ l) (r cur : Text) : linesGo (l ++ '\n' :: r) cur = stripCr (l.reverse ++ cur) :: linesGo r [] := by
  induction l generalizing cur with
  | nil => simp [linesGo]
  | cons c l ih =>
    simp only [List.mem_cons, not_or] at hl
    simp only [List.cons_append, linesGo, if_neg (Ne.symm hl.1)]
    rw [ih hl.2]
    simp

theorem stripCr_reverse (l : Text) (h : '\r' ∉ l) : stripCr l.reverse = l := by
  unfold stripCr
  split
  · rename_i cur heq
    have : '\r' ∈ l.reverse := by rw [heq]; simp
    simp at this; exact absurd this h
  · simp

theorem lines_join (ls : List Text) (h : ∀ l ∈ ls, '\n' ∉ l ∧ '\r' ∉ l) : lines (ls.flatMap fun l => l ++ ['\n']) = ls := by
  unfold lines
  induction ls with
  | nil => rfl
  | cons l ls ih =>
    have ⟨h1, h2⟩ := h l (by simp)
    rw [List.flatMap_cons, List.append_assoc, List.singleton_append, linesGo_line l h1, List.append_nil, stripCr_reverse l h2,
      ih fun l hl => h l (by simp [hl])]

theorem spaced_append (ws : List Text) (hws : ws ≠ []) (ps : List Nat) :
    spaced ws ++ ps.flatMap (fun p => ' ' :: showNat p) = spaced (ws ++ ps.map showNat) := by
  induction ws with
  | nil => exact absurd rfl hws
  | cons w ws ih =>
    cases ws with
    | nil =>
      simp only [spaced, List.cons_append, List.nil_append]
      clear ih hws
      induction ps generalizing w with
      | nil => simp [spaced]
      | cons p ps ih =>
        simp only [List.flatMap_cons, List.map_cons, spaced, List.cons_append]
        rw [ih]
    | cons v vs =>
      have := ih (by simp)
      simp only [List.cons_append] at this ⊢
      simp only [spaced, List.append_assoc, List.cons_append]
      rw [this]

end Gemlab.MeshText
