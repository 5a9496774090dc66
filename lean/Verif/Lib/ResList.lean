import Verif.Model.Res
import Mathlib.Data.List.Forall2

/-! # Loops in the `Res` monad -/
namespace Gemlab.Res

theorem forM_ok_iff {α : Type} (f : α → Res PUnit) (l : List α) : l.forM f = .ok () ↔ ∀ x ∈ l, f x = .ok () := by
  induction l with
  | nil => simp
  | cons a l ih =>
    have e : (a :: l).forM f = (f a >>= fun _ => l.forM f) := rfl
    rw [e, List.forall_mem_cons]
    cases h : f a with
    | ok u => rw [bind_ok]; simp only [true_and]; exact ih
    | err m => simp
    | panic => simp

/-- If no iteration can panic, the loop does not panic. -/
theorem forM_ne_panic {α : Type} (f : α → Res PUnit) (l : List α) (h : ∀ x ∈ l, f x ≠ .panic) : l.forM f ≠ .panic := by
  induction l with
  | nil => simp
  | cons a l ih =>
    have e : (a :: l).forM f = (f a >>= fun _ => l.forM f) := rfl
    rw [e]
    have ha := h a (by simp)
    cases hfa : f a with
    | ok u => simpa using ih (fun x hx => h x (List.mem_cons_of_mem _ hx))
    | err m => simp
    | panic => exact absurd hfa ha

theorem mapM_nil' {α β : Type} (f : α → Res β) : ([] : List α).mapM f = .ok [] := by simp [List.mapM_nil]

theorem mapM_ok_iff {α β : Type} (f : α → Res β) (l : List α) (l' : List β) :
    l.mapM f = .ok l' ↔ List.Forall₂ (fun a b => f a = .ok b) l l' := by
  induction l generalizing l' with
  | nil =>
    simp only [List.mapM_nil, pure_eq, ok.injEq, List.forall₂_nil_left_iff]
    exact eq_comm
  | cons a l ih =>
    simp only [List.mapM_cons, List.forall₂_cons_left_iff]
    constructor
    · intro h
      obtain ⟨b, hb, h⟩ := bind_eq_ok.1 h
      obtain ⟨bs, hbs, h⟩ := bind_eq_ok.1 h
      simp only [pure_eq, ok.injEq] at h
      exact ⟨b, bs, hb, (ih bs).1 hbs, h.symm⟩
    · rintro ⟨b, bs, hb, hbs, rfl⟩
      rw [hb]
      simp only [bind_ok]
      rw [(ih bs).2 hbs]; rfl

theorem mapM_eq_ok_of {α β : Type} (f : α → Res β) (g : α → β) (l : List α) (h : ∀ a ∈ l, f a = .ok (g a)) :
    l.mapM f = .ok (l.map g) := by
  rw [mapM_ok_iff]
  induction l with
  | nil => simp
  | cons a l ih =>
    simp only [List.map_cons, List.forall₂_cons]
    exact ⟨h a (by simp), ih (fun x hx => h x (List.mem_cons_of_mem _ hx))⟩

theorem mapM_panic {α β : Type} (f : α → Res β) (l : List α) (h : ∀ a ∈ l, (∃ b, f a = .ok b) ∨ f a = .panic)
    (hp : ∃ a ∈ l, f a = .panic) : l.mapM f = .panic := by
  induction l with
  | nil => simp at hp
  | cons a l ih =>
    simp only [List.mapM_cons]
    rcases h a (by simp) with ⟨b, hb⟩ | hb
    · rw [hb]; simp only [bind_ok]
      obtain ⟨a', ha', hp'⟩ := hp
      rcases List.mem_cons.1 ha' with rfl | ha'
      · rw [hb] at hp'; simp at hp'
      · rw [ih (fun x hx => h x (List.mem_cons_of_mem _ hx)) ⟨a', ha', hp'⟩]; rfl
    · rw [hb]; rfl

/-- Loop rule for `for i in 0..n` with an invariant. -/
theorem foldlM_range {σ : Type} (f : σ → Nat → Res σ) (n : Nat) (s : σ) (P : Nat → σ → Prop) (h0 : P 0 s)
    (hstep : ∀ i s, i < n → P i s → ∃ s', f s i = .ok s' ∧ P (i + 1) s') :
    ∃ s', (List.range n).foldlM f s = .ok s' ∧ P n s' := by
  induction n with
  | zero => exact ⟨s, rfl, h0⟩
  | succ n ih =>
    obtain ⟨s1, h1, p1⟩ := ih (fun i s hi hp => hstep i s (by omega) hp)
    obtain ⟨s2, h2, p2⟩ := hstep n s1 (by omega) p1
    refine ⟨s2, ?_, p2⟩
    rw [List.range_succ, List.foldlM_append, h1]
    simp [h2]

/-- Loop rule for a loop over a list; the invariant speaks of the elements already treated. -/
theorem foldlM_list {α σ : Type} (f : σ → α → Res σ) (l : List α) (s : σ) (P : List α → σ → Prop) (h0 : P [] s)
    (hstep : ∀ pre a s, a ∈ l → (∃ suf, l = pre ++ a :: suf) → P pre s → ∃ s', f s a = .ok s' ∧ P (pre ++ [a]) s') :
    ∃ s', l.foldlM f s = .ok s' ∧ P l s' := by
  have key : ∀ (suf pre : List α) (s : σ), l = pre ++ suf → P pre s → ∃ s', suf.foldlM f s = .ok s' ∧ P l s' := by
    intro suf
    induction suf with
    | nil => intro pre s hl hp; rw [List.append_nil] at hl; subst hl; exact ⟨s, rfl, hp⟩
    | cons a suf ih =>
      intro pre s hl hp
      obtain ⟨s1, h1, p1⟩ := hstep pre a s (by rw [hl]; simp) ⟨suf, hl⟩ hp
      obtain ⟨s2, h2, p2⟩ := ih (pre ++ [a]) s1 (by rw [hl]; simp) p1
      refine ⟨s2, ?_, p2⟩
      rw [List.foldlM_cons, h1]
      exact h2
  exact key l [] s rfl h0

/-- A loop that returns `Ok` went through: invariant form. -/
theorem foldlM_ok_inv {α σ : Type} (f : σ → α → Res σ) (l : List α) (s s' : σ) (P : List α → σ → Prop) (h0 : P [] s)
    (hstep : ∀ pre a s s', a ∈ l → P pre s → f s a = .ok s' → P (pre ++ [a]) s') (h : l.foldlM f s = .ok s') : P l s' := by
  have key : ∀ (suf pre : List α) (s : σ), l = pre ++ suf → P pre s → suf.foldlM f s = .ok s' → P l s' := by
    intro suf
    induction suf with
    | nil => intro pre s hl hp h; rw [List.append_nil] at hl; subst hl; simp only [List.foldlM_nil, pure_eq, ok.injEq] at h; subst h; exact hp
    | cons a suf ih =>
      intro pre s hl hp h
      rw [List.foldlM_cons] at h
      obtain ⟨s1, h1, h2⟩ := bind_eq_ok.1 h
      exact ih (pre ++ [a]) s1 (by rw [hl]; simp) (hstep pre a s s1 (by rw [hl]; simp) hp h1) h2
  exact key l [] s rfl h0 h

/-- A loop whose steps all return `Ok` is a pure fold. -/
theorem foldlM_eq_foldl {α σ : Type} (f : σ → α → Res σ) (g : σ → α → σ) (l : List α) (s : σ)
    (h : ∀ a ∈ l, ∀ s, f s a = .ok (g s a)) : l.foldlM f s = .ok (l.foldl g s) := by
  induction l generalizing s with
  | nil => rfl
  | cons a l ih =>
    rw [List.foldlM_cons, h a (by simp), bind_ok, List.foldl_cons]
    exact ih _ (fun a' ha' => h a' (List.mem_cons_of_mem _ ha'))

end Gemlab.Res
