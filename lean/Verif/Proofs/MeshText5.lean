import Verif.Proofs.MeshText4
import Mathlib.Data.List.TakeWhile

/-! When the parser panics. -/
namespace Gemlab.MeshText
open Gemlab Gemlab.Mesh

theorem dataOf_ne_nil {l : Text} {ws : List Text} (h : dataOf l = some ws) : ws ≠ [] := by
  unfold dataOf at h
  dsimp only at h
  split at h
  · cases h
  rename_i hn
  simp only [not_or] at hn
  simp only [Option.some.injEq] at h
  obtain ⟨_, hne⟩ := hn
  have hfirst : ∃ c cs, ((l.dropWhile isWs).reverse.dropWhile (· = '\n')).reverse = c :: cs ∧ isWs c = false := by
    obtain ⟨suf, hsuf⟩ := List.dropWhile_suffix (l := (l.dropWhile isWs).reverse) (fun c => decide (c = '\n'))
    have hpre : l.dropWhile isWs = ((l.dropWhile isWs).reverse.dropWhile (fun c => decide (c = '\n'))).reverse ++ suf.reverse := by
      rw [← List.reverse_append, hsuf, List.reverse_reverse]
    match ht : ((l.dropWhile isWs).reverse.dropWhile (fun c => decide (c = '\n'))).reverse with
    | [] => exact absurd ht hne
    | c :: cs =>
      refine ⟨c, cs, rfl, ?_⟩
      rw [ht] at hpre
      have hh : (l.dropWhile isWs).head? = some c := by rw [hpre]; rfl
      have hlt : 0 < (l.dropWhile isWs).length := by rw [hpre]; simp
      have := List.dropWhile_get_zero_not (p := isWs) l hlt
      have h0 : (l.dropWhile isWs).get ⟨0, hlt⟩ = c := by
        have : (l.dropWhile isWs)[0]? = some c := by rw [← List.head?_eq_getElem?, hh]
        rw [List.getElem?_eq_getElem hlt] at this
        simpa using this
      rw [h0] at this
      simpa using this
  obtain ⟨c, cs, hc, hw⟩ := hfirst
  rw [← h, hc]
  unfold words
  simp only [wordsGo, hw, Bool.false_eq_true, if_false]
  have : ∀ (t cur : Text), cur ≠ [] → wordsGo t cur ≠ [] := by
    intro t
    induction t with
    | nil => intro cur hcur; cases cur with
      | nil => exact absurd rfl hcur
      | cons a b => simp [wordsGo]
    | cons d t ih =>
      intro cur hcur
      simp only [wordsGo, if_neg hcur]
      split
      · simp
      · exact ih _ (by simp)
  exact this _ _ (by simp)

theorem dataLines_ne_nil {t : Text} {ws : List Text} (h : ws ∈ dataLines t) : ws ≠ [] := by
  obtain ⟨l, _, hl⟩ := List.mem_filterMap.mp h
  exact dataOf_ne_nil hl

theorem next_ne_panic {α : Type} (p : Text → Option α) (a b : String) (ws : List Text) : next p a b ws ≠ .panic := by
  unfold next; split
  · simp
  · split <;> simp

theorem first_ne_panic {α : Type} (p : Text → Option α) (a : String) (ws : List Text) (h : ws ≠ []) : first p a ws ≠ .panic := by
  unfold first; split
  · exact absurd rfl h
  · split <;> simp

theorem bind_panic {α β : Type} {x : Res α} {f : α → Res β} (hx : x ≠ .panic) :
    x.bind f = .panic ↔ ∃ a, x = .ok a ∧ f a = .panic := by
  cases x with
  | ok a => simp [Res.bind]
  | err e => simp [Res.bind]
  | panic => exact absurd rfl hx

theorem bind_ne_panic {α β : Type} {x : Res α} {f : α → Res β} (hx : x ≠ .panic) (hf : ∀ a, x = .ok a → f a ≠ .panic) :
    (x >>= f) ≠ .panic := by
  show x.bind f ≠ .panic
  intro h
  obtain ⟨a, h1, h2⟩ := (bind_panic hx).mp h
  exact hf a h1 h2

theorem parseSizes_ne_panic (ws : List Text) (h : ws ≠ []) : parseSizes ws ≠ .panic := by
  unfold parseSizes
  refine bind_ne_panic (first_ne_panic _ _ _ h) fun a _ => ?_
  refine bind_ne_panic (next_ne_panic _ _ _ _) fun a _ => ?_
  refine bind_ne_panic (next_ne_panic _ _ _ _) fun a _ => ?_
  refine bind_ne_panic (next_ne_panic _ _ _ _) fun a _ => ?_
  refine bind_ne_panic (next_ne_panic _ _ _ _) fun a _ => ?_
  simp

theorem parseIds_ne_panic (n : Nat) (ws : List Text) : parseIds n ws ≠ .panic := by
  induction n generalizing ws with
  | zero => simp [parseIds]
  | succ n ih =>
    unfold parseIds
    refine bind_ne_panic (next_ne_panic _ _ _ _) fun a _ => ?_
    refine bind_ne_panic (ih _) fun a _ => ?_
    simp

theorem parseCell_ne_panic (k : Nat) (ws : List Text) (h : ws ≠ []) : parseCell k ws ≠ .panic := by
  unfold parseCell
  refine bind_ne_panic (first_ne_panic _ _ _ h) fun a _ => ?_
  dsimp only
  split
  · simp
  refine bind_ne_panic (next_ne_panic _ _ _ _) fun a _ => ?_
  refine bind_ne_panic (next_ne_panic _ _ _ _) fun a _ => ?_
  refine bind_ne_panic (parseIds_ne_panic _ _) fun a _ => ?_
  split <;> simp

theorem parseMarkedEdge_ne_panic (ws : List Text) (h : ws ≠ []) : parseMarkedEdge ws ≠ .panic := by
  unfold parseMarkedEdge
  refine bind_ne_panic (first_ne_panic _ _ _ h) fun a _ => ?_
  refine bind_ne_panic (next_ne_panic _ _ _ _) fun a _ => ?_
  refine bind_ne_panic (next_ne_panic _ _ _ _) fun a _ => ?_
  dsimp only
  split <;> simp

theorem parseMarkedFace_ne_panic (ws : List Text) (h : ws ≠ []) : parseMarkedFace ws ≠ .panic := by
  unfold parseMarkedFace
  refine bind_ne_panic (first_ne_panic _ _ _ h) fun a _ => ?_
  refine bind_ne_panic (next_ne_panic _ _ _ _) fun a _ => ?_
  refine bind_ne_panic (next_ne_panic _ _ _ _) fun a _ => ?_
  refine bind_ne_panic (next_ne_panic _ _ _ _) fun a _ => ?_
  dsimp only
  split
  · simp
  · split <;> simp

variable {K : Type} [Zero K]

theorem parsePoint_ne_panic (ft : FloatText K) (ndim k : Nat) (ws : List Text) (h : ws ≠ []) (hd : 2 ≤ ndim) :
    parsePoint ft ndim k ws ≠ .panic := by
  unfold parsePoint
  refine bind_ne_panic (first_ne_panic _ _ _ h) fun a _ => ?_
  dsimp only
  split
  · simp
  refine bind_ne_panic (next_ne_panic _ _ _ _) fun a _ => ?_
  refine bind_ne_panic (next_ne_panic _ _ _ _) fun x _ => ?_
  refine bind_ne_panic (by rw [Res.setIdx, if_pos (by simp; omega)]; simp) fun c1 hc1 => ?_
  have hl1 : c1.length = ndim := by
    rw [Res.setIdx_eq_ok] at hc1; rw [hc1.2]; simp
  refine bind_ne_panic (next_ne_panic _ _ _ _) fun y _ => ?_
  refine bind_ne_panic (by rw [Res.setIdx, if_pos (by omega)]; simp) fun c2 hc2 => ?_
  have hl2 : c2.length = ndim := by
    rw [Res.setIdx_eq_ok] at hc2; rw [hc2.2]; simp [hl1]
  refine bind_ne_panic ?_ fun z _ => ?_
  · split
    · rename_i h3
      refine bind_ne_panic (next_ne_panic _ _ _ _) fun z _ => ?_
      refine bind_ne_panic (by rw [Res.setIdx, if_pos (by omega)]; simp) fun c2 hc2 => ?_
      simp
    · simp
  · split <;> simp

theorem sectionT_ne_panic {α : Type} (parse : Nat → List Text → Res α) (n : Nat) (ds : List (List Text)) (acc : List α)
    (h : ∀ k, ∀ d ∈ ds, parse k d ≠ .panic) : sectionT parse n ds acc ≠ .panic := by
  induction ds generalizing acc with
  | nil => simp [sectionT]
  | cons d ds ih =>
    unfold sectionT
    refine bind_ne_panic (h _ d (by simp)) fun a _ => ?_
    split
    · simp
    · exact ih _ fun k d hd => h k d (by simp [hd])

theorem sectionT_suffix {α : Type} (parse : Nat → List Text → Res α) (n : Nat) (ds rest : List (List Text)) (acc r : List α)
    (h : sectionT parse n ds acc = .ok (r, rest)) : rest <:+ ds := by
  induction ds generalizing acc with
  | nil => simp only [sectionT, Res.ok.injEq, Prod.mk.injEq] at h; rw [← h.2]; exact List.suffix_refl _
  | cons d ds ih =>
    unfold sectionT at h
    rw [Res.bind_eq_ok] at h
    obtain ⟨a, _, h⟩ := h
    split at h
    · simp only [Res.ok.injEq, Prod.mk.injEq] at h; rw [← h.2]; exact List.suffix_cons d ds
    · exact (ih _ h).trans (List.suffix_cons d ds)

/-- After the points, nothing panics. -/
theorem bodyT_panic (ft : FloatText K) (s : Sizes) (ds : List (List Text)) (h : ∀ d ∈ ds, d ≠ []) :
    bodyT ft s ds = .panic → sectionT (parsePoint ft s.ndim) s.npoint ds [] = .panic := by
  intro hp
  by_contra hne
  revert hp
  unfold bodyT
  show ¬_
  refine bind_ne_panic hne fun a ha => ?_
  obtain ⟨a1, d1⟩ := a
  have s1 := sectionT_suffix _ _ _ _ _ _ ha
  dsimp only
  split
  · simp
  refine bind_ne_panic (sectionT_ne_panic _ _ _ _ fun k d hd => parseCell_ne_panic k d (h d (s1.mem hd))) fun b hb => ?_
  obtain ⟨b1, d2⟩ := b
  have s2 := (sectionT_suffix _ _ _ _ _ _ hb).trans s1
  dsimp only
  split
  · simp
  refine bind_ne_panic ?_ fun c hc => ?_
  · split
    · exact sectionT_ne_panic _ _ _ _ fun k d hd => parseMarkedEdge_ne_panic d (h d (s2.mem hd))
    · simp
  obtain ⟨c1, d3⟩ := c
  have s3 : d3 <:+ ds := by
    split at hc
    · exact (sectionT_suffix _ _ _ _ _ _ hc).trans s2
    · simp only [Res.ok.injEq, Prod.mk.injEq] at hc; rw [← hc.2]; exact s2
  dsimp only
  split
  · simp
  refine bind_ne_panic ?_ fun e he => ?_
  · split
    · exact sectionT_ne_panic _ _ _ _ fun k d hd => parseMarkedFace_ne_panic d (h d (s3.mem hd))
    · simp
  split <;> simp

/-- First point line of a text with dimension 0 or 1: it panics exactly when the words up to the first coordinate that does not fit
can be parsed. -/
theorem parsePoint_low (ft : FloatText K) (ndim : Nat) (ws : List Text) (hw : ws ≠ []) (hd : ndim < 2) :
    (∀ p, parsePoint ft ndim 0 ws ≠ .ok p) ∧
    (parsePoint ft ndim 0 ws = .panic ↔ ∃ wid wm wx r, ws = wid :: wm :: wx :: r ∧ parseUsize wid = some 0 ∧
      (∃ mk, parseI32 wm = some mk) ∧ (∃ x, ft.parse wx = some x) ∧ (ndim = 1 → ∃ wy r', r = wy :: r' ∧ ∃ y, ft.parse wy = some y)) := by
  constructor
  · intro p hp
    have := (parsePoint_ok.mp hp).2
    omega
  · match ws, hw with
    | wid :: t, _ =>
    unfold parsePoint first
    cases hid : parseUsize wid with
    | none => simp only [Bind.bind, Res.bind]; simp [hid]
    | some id =>
    simp only [hid, Res.bind_ok]
    by_cases h0 : id = 0
    swap
    · rw [if_pos h0]; simp [hid, h0]
    rw [if_neg (by simpa using h0)]
    subst h0
    match t with
    | [] => simp [next, Bind.bind, Res.bind]
    | wm :: t =>
    cases hm : parseI32 wm with
    | none => simp [next, Bind.bind, Res.bind, hm]
    | some mk =>
    simp only [next, hm, Res.bind_ok]
    match t with
    | [] => simp [Bind.bind, Res.bind]
    | wx :: t =>
    cases hx : ft.parse wx with
    | none => simp [Bind.bind, Res.bind, hx]
    | some x =>
    simp only [hx, Res.bind_ok]
    have hcase : ndim = 0 ∨ ndim = 1 := by omega
    rcases hcase with rfl | rfl
    · simp [Res.setIdx, Bind.bind, Res.bind, hid, hm, hx]
    · have : Res.setIdx (List.replicate 1 (0 : K)) 0 x = .ok [x] := rfl
      rw [this]
      simp only [Res.bind_ok]
      match t with
      | [] => simp [Bind.bind, Res.bind]
      | wy :: t =>
      cases hy : ft.parse wy with
      | none => simp [Bind.bind, Res.bind, hy]
      | some y => simp [hy, Res.setIdx, Bind.bind, Res.bind, hid, hm, hx]

theorem parseT_panic (ft : FloatText K) (msg : String) (ds : List (List Text)) (h : ∀ d ∈ ds, d ≠ []) :
    parseT ft msg ds = .panic ↔ ∃ header ws rest, ds = header :: ws :: rest ∧
      ∃ ndim npoint ncell nedge nface, 5 ≤ header.length ∧ AreNats (header.take 5) [ndim, npoint, ncell, nedge, nface] ∧ ndim < 2 ∧
      ∃ wid wm wx r, ws = wid :: wm :: wx :: r ∧ parseUsize wid = some 0 ∧
      (∃ mk, parseI32 wm = some mk) ∧ (∃ x, ft.parse wx = some x) ∧ (ndim = 1 → ∃ wy r', r = wy :: r' ∧ ∃ y, ft.parse wy = some y) := by
  unfold parseT
  constructor
  · intro hp
    cases ds with
    | nil => simp [headerT, Bind.bind, Res.bind] at hp
    | cons hd ds =>
      have hne := parseSizes_ne_panic hd (h hd (by simp))
      cases hs : parseSizes hd with
      | panic => exact absurd hs hne
      | err e => simp [headerT, hs, Bind.bind, Res.bind] at hp
      | ok s =>
        simp only [headerT, hs, Res.bind_ok] at hp
        have hp := bodyT_panic ft s ds (fun d hd => h d (by simp [hd])) hp
        by_cases hlow : 2 ≤ s.ndim
        · exact absurd hp (sectionT_ne_panic _ _ _ _ fun k d hd => parsePoint_ne_panic ft _ k d (h d (by simp [hd])) hlow)
        cases ds with
        | nil => simp [sectionT] at hp
        | cons ws rest =>
          have hw := h ws (by simp)
          obtain ⟨l1, l2⟩ := parsePoint_low ft s.ndim ws hw (by omega)
          have : parsePoint ft s.ndim 0 ws = .panic := by
            unfold sectionT at hp
            cases hpp : parsePoint ft s.ndim 0 ws with
            | panic => rfl
            | ok p => exact absurd hpp (l1 p)
            | err e => simp [hpp, Bind.bind, Res.bind] at hp
          obtain ⟨q1, q2⟩ := parseSizes_ok.mp hs
          exact ⟨hd, ws, rest, rfl, s.ndim, s.npoint, s.ncell, s.nmarkedEdge, s.nmarkedFace, q1, q2, by omega, l2.mp this⟩
  · rintro ⟨header, ws, rest, rfl, ndim, npoint, ncell, nedge, nface, h1, h2, h3, h4⟩
    have hs := (parseSizes_ok (ws := header) (s := ⟨ndim, npoint, ncell, nedge, nface⟩)).mpr ⟨h1, h2⟩
    have hp := (parsePoint_low ft ndim ws (h ws (by simp)) h3).2.mpr h4
    simp only [headerT, hs, Res.bind_ok]
    unfold bodyT sectionT
    simp [hp, Bind.bind, Res.bind]

end Gemlab.MeshText
