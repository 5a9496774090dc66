import Verif.Proofs.GridSearch

/-! # Proofs about `num_divisions` and `GridSearch::new` -/
namespace Gemlab
noncomputable section
open Classical

theorem long_fold (δ : Nat → ℝ) (l : List Nat) (i0 : Nat) :
    let s := l.foldl (fun (s : Nat × ℝ) i => if δ i > s.2 then (i, δ i) else s) (i0, δ i0)
    s.1 ∈ i0 :: l ∧ s.2 = δ s.1 ∧ ∀ j ∈ i0 :: l, δ j ≤ s.2 := by
  induction l generalizing i0 with
  | nil => simp
  | cons a l ih =>
    rw [List.foldl_cons]
    dsimp only
    by_cases h : δ a > δ i0
    · rw [if_pos h]
      obtain ⟨h1, h2, h3⟩ := ih a
      refine ⟨List.mem_cons_of_mem _ h1, h2, ?_⟩
      intro j hj
      rcases List.mem_cons.1 hj with rfl | hj
      · exact h.le.trans (h3 a (by simp))
      · exact h3 j hj
    · rw [if_neg h]
      obtain ⟨h1, h2, h3⟩ := ih i0
      refine ⟨?_, h2, ?_⟩
      · rcases List.mem_cons.1 h1 with h1 | h1
        · rw [h1]; simp
        · exact List.mem_cons_of_mem _ (List.mem_cons_of_mem _ h1)
      · intro j hj
        rcases List.mem_cons.1 hj with rfl | hj
        · exact h3 _ (by simp)
        · rcases List.mem_cons.1 hj with rfl | hj
          · exact (not_lt.1 h).trans (h3 i0 (by simp))
          · exact h3 j (List.mem_cons_of_mem _ hj)

theorem mem_zero_range' (n : Nat) (hn : 0 < n) (i : Nat) : i ∈ 0 :: List.range' 1 (n - 1) ↔ i < n := by
  rw [List.mem_cons, List.mem_range'_1]; omega

theorem at'_zipWith_sub {a b : List ℝ} (h : a.length = b.length) (i : Nat) :
    at' (List.zipWith (fun a b => b - a) a b) i = at' b i - at' a i := by
  by_cases hi : i < a.length
  · have h2 : i < b.length := by omega
    simp [at', hi, h2]
  · rw [at'_of_ge (by rw [List.length_zipWith]; omega), at'_of_ge (v := a) (by omega), at'_of_ge (v := b) (by omega)]; ring

/-- Valid arguments of `num_divisions`. -/
def NdivValid (ndivMin ndivLong : Nat) (xmin xmax : List ℝ) : Prop :=
  1 ≤ ndivMin ∧ ndivMin < ndivLong ∧ xmin.length = xmax.length ∧ 2 ≤ xmin.length ∧ ∀ i < xmin.length, at' xmin i < at' xmax i

theorem mapM_err_of {α β : Type} (f : α → Res β) (l : List α) (h : ∀ a ∈ l, f a ≠ .panic) (he : ∃ a ∈ l, ∃ e, f a = .err e) :
    ∃ e, l.mapM f = .err e := by
  induction l with
  | nil => obtain ⟨a, ha, _⟩ := he; simp at ha
  | cons a l ih =>
    rw [List.mapM_cons]
    cases hfa : f a with
    | err e => exact ⟨e, rfl⟩
    | panic => exact absurd hfa (h a (by simp))
    | ok b =>
      obtain ⟨a', ha', e, he'⟩ := he
      have ha'' : a' ∈ l := by
        rcases List.mem_cons.1 ha' with rfl | h'
        · rw [hfa] at he'; simp at he'
        · exact h'
      obtain ⟨e2, h2⟩ := ih (fun x hx => h x (List.mem_cons_of_mem _ hx)) ⟨a', ha'', e, he'⟩
      refine ⟨e2, ?_⟩
      rw [Res.bind_ok, h2]; rfl

theorem numDivisions_err {ndivMin ndivLong : Nat} {xmin xmax : List ℝ} (h : ¬ NdivValid ndivMin ndivLong xmin xmax) :
    ∃ e, numDivisions ndivMin ndivLong xmin xmax = .err e := by
  unfold numDivisions
  by_cases h1 : ndivMin < 1
  · rw [if_pos h1]; exact ⟨_, rfl⟩
  rw [if_neg h1]
  by_cases h2 : ndivLong ≤ ndivMin
  · rw [if_pos h2]; exact ⟨_, rfl⟩
  rw [if_neg h2]
  by_cases h3 : xmin.length ≠ xmax.length
  · rw [if_pos h3]; exact ⟨_, rfl⟩
  rw [if_neg h3]
  dsimp only
  by_cases h4 : xmin.length < 2
  · rw [if_pos h4]; exact ⟨_, rfl⟩
  rw [if_neg h4]
  rw [not_not] at h3
  have h5 : ∃ i < xmin.length, at' xmax i ≤ at' xmin i := by
    by_contra hc
    push_neg at hc
    exact h ⟨by omega, by omega, h3, by omega, hc⟩
  obtain ⟨i, hi, hle⟩ := h5
  apply mapM_err_of
  · intro a _; split
    · simp
    · split <;> simp
  · refine ⟨i, List.mem_range.2 hi, _, if_pos ?_⟩
    rw [at'_zipWith_sub h3]; linarith

theorem numDivisions_ok {ndivMin ndivLong : Nat} {xmin xmax : List ℝ} (h : NdivValid ndivMin ndivLong xmin xmax) :
    ∃ nd, numDivisions ndivMin ndivLong xmin xmax = .ok nd ∧ nd.length = xmin.length ∧
      ∀ L < xmin.length, (∀ j < xmin.length, at' xmax j - at' xmin j ≤ at' xmax L - at' xmin L) →
        ∀ i < xmin.length, nd.getD i 0
          = max ndivMin ⌊((at' xmax i - at' xmin i) / (at' xmax L - at' xmin L)) * (ndivLong : ℝ)⌋₊ := by
  obtain ⟨h1, h2, h3, h4, h5⟩ := h
  unfold numDivisions
  rw [if_neg (by omega), if_neg (by omega), if_neg (not_not.2 h3)]
  dsimp only
  rw [if_neg (by omega)]
  have hf := long_fold (at' (List.zipWith (fun a b => b - a) xmin xmax)) (List.range' 1 (xmin.length - 1)) 0
  generalize hs : (List.range' 1 (xmin.length - 1)).foldl (fun (s : Nat × ℝ) i => if at' (List.zipWith (fun a b => b - a) xmin xmax) i > s.2
    then (i, at' (List.zipWith (fun a b => b - a) xmin xmax) i) else s) (0, at' (List.zipWith (fun a b => b - a) xmin xmax) 0) = s at hf
  obtain ⟨f1, f2, f3⟩ := hf
  rw [mem_zero_range' _ (by omega)] at f1
  have f3' : ∀ j < xmin.length, at' xmax j - at' xmin j ≤ s.2 := by
    intro j hj
    rw [← at'_zipWith_sub h3]
    exact f3 j ((mem_zero_range' _ (by omega) j).2 hj)
  rw [at'_zipWith_sub h3] at f2
  refine ⟨_, Res.mapM_eq_ok_of _ (fun i => if i = s.1 then ndivLong else max ndivMin ⌊((at' xmax i - at' xmin i) / s.2) * (ndivLong : ℝ)⌋₊) _ ?_, by simp, ?_⟩
  · intro i hi
    rw [List.mem_range] at hi
    simp only [at'_zipWith_sub h3]
    have := h5 i hi
    rw [if_neg (by linarith)]
    split <;> rfl
  · intro L hL hmax i hi
    have hsL : s.2 = at' xmax L - at' xmin L := le_antisymm (by rw [f2]; exact hmax _ f1) (f3' L hL)
    have hpos : 0 < at' xmax L - at' xmin L := by have := h5 L hL; linarith
    have : ((List.range xmin.length).map fun i => if i = s.1 then ndivLong else max ndivMin ⌊((at' xmax i - at' xmin i) / s.2) * (ndivLong : ℝ)⌋₊).getD i 0
        = if i = s.1 then ndivLong else max ndivMin ⌊((at' xmax i - at' xmin i) / s.2) * (ndivLong : ℝ)⌋₊ := by
      simp [hi]
    rw [this, hsL]
    split
    · rename_i he
      subst he
      rw [← f2, hsL, div_self hpos.ne', one_mul, Nat.floor_natCast]; omega
    · rfl

/-- Consequence: at least one division. -/
theorem numDivisions_pos {ndivMin ndivLong : Nat} {xmin xmax : List ℝ} {nd : List Nat}
    (h : numDivisions ndivMin ndivLong xmin xmax = .ok nd) :
    NdivValid ndivMin ndivLong xmin xmax ∧ nd.length = xmin.length ∧ ∀ i < xmin.length, 1 ≤ nd.getD i 0 := by
  by_cases hv : NdivValid ndivMin ndivLong xmin xmax
  · obtain ⟨nd', h1, h2, h3⟩ := numDivisions_ok hv
    rw [h] at h1
    cases h1
    refine ⟨hv, h2, fun i hi => ?_⟩
    obtain ⟨L, hL, hmax⟩ : ∃ L < xmin.length, ∀ j < xmin.length, at' xmax j - at' xmin j ≤ at' xmax L - at' xmin L := by
      have hf := long_fold (fun j => at' xmax j - at' xmin j) (List.range' 1 (xmin.length - 1)) 0
      obtain ⟨f1, f2, f3⟩ := hf
      have hl := hv.2.2.2.1
      rw [mem_zero_range' _ (by omega)] at f1
      refine ⟨_, f1, fun j hj => ?_⟩
      rw [← f2]
      exact f3 j ((mem_zero_range' _ (by omega) j).2 hj)
    rw [h3 L hL hmax i hi]
    exact hv.1.trans (le_max_left _ _)
  · obtain ⟨e, he⟩ := numDivisions_err hv
    rw [he] at h; simp at h

theorem max_fold (f : Nat → ℝ) (l : List Nat) (s0 : ℝ) :
    s0 ≤ l.foldl (fun s i => max s (f i)) s0 ∧ (∀ i ∈ l, f i ≤ l.foldl (fun s i => max s (f i)) s0) ∧
    (l.foldl (fun s i => max s (f i)) s0 = s0 ∨ ∃ i ∈ l, l.foldl (fun s i => max s (f i)) s0 = f i) := by
  induction l generalizing s0 with
  | nil => simp
  | cons a l ih =>
    rw [List.foldl_cons]
    obtain ⟨h1, h2, h3⟩ := ih (max s0 (f a))
    refine ⟨(le_max_left _ _).trans h1, ?_, ?_⟩
    · intro i hi
      rcases List.mem_cons.1 hi with rfl | hi
      · exact (le_max_right _ _).trans h1
      · exact h2 i hi
    · rcases h3 with h3 | ⟨i, hi, h3⟩
      · rw [h3]
        rcases max_choice s0 (f a) with h | h
        · exact Or.inl h
        · exact Or.inr ⟨a, by simp, h⟩
      · exact Or.inr ⟨i, List.mem_cons_of_mem _ hi, h3⟩

namespace GridSearch

theorem at'_expand {v : List ℝ} (c : ℝ) {i : Nat} (hi : i < v.length) : at' (v.map (fun u => u + c)) i = at' v i + c := by
  simp [at', hi]

theorem at'_expand' {v : List ℝ} (c : ℝ) {i : Nat} (hi : i < v.length) : at' (v.map (fun u => u - c)) i = at' v i - c := by
  simp [at', hi]

/-- What `new` returns. -/
theorem new_ok {xmin xmax : List ℝ} {ndiv : Option Nat} {tol btol : Option ℝ} {g : GridSearch}
    (h : new xmin xmax ndiv tol btol = .ok g) :
    WF g ∧ g.containers = [] ∧ g.ndim = xmin.length ∧ xmax.length = xmin.length ∧ g.tolerance = tol.getD (1 / 10000) ∧
    0 ≤ btol.getD (1 / 100) ∧ numDivisions 1 (ndiv.getD 100) xmin xmax = .ok g.ndiv ∧
    (∀ i < g.ndim, at' g.xmin i = at' xmin i - btol.getD (1 / 100) ∧ at' xmax i + btol.getD (1 / 100) ≤ at' g.xmax i) ∧
    (∀ i < g.ndim, (at' xmax i - at' xmin i + 2 * btol.getD (1 / 100)) / ((g.ndiv.getD i 0 : Nat) : ℝ) ≤ g.sideLength) ∧
    ∃ i < g.ndim, g.sideLength = (at' xmax i - at' xmin i + 2 * btol.getD (1 / 100)) / ((g.ndiv.getD i 0 : Nat) : ℝ) := by
  unfold new at h
  dsimp only at h
  split at h
  · simp at h
  rename_i hd
  split at h
  · simp at h
  rename_i hl
  rw [not_not] at hl
  split at h
  · simp at h
  obtain ⟨nd, hnd, h⟩ := Res.bind_eq_ok.1 h
  obtain ⟨hval, hndl, hndp⟩ := numDivisions_pos hnd
  split at h
  · simp at h
  rename_i ht
  split at h
  · simp at h
  rename_i hb
  generalize tol.getD (1 / 10000) = t at *
  generalize btol.getD (1 / 100) = bt at *
  obtain ⟨x0, x1, e0, e1⟩ : ∃ x0 x1, (if bt > 0 then xmin.map (fun v => v - bt) else xmin) = x0 ∧
    (if bt > 0 then xmax.map (fun v => v + bt) else xmax) = x1 := ⟨_, _, rfl, rfl⟩
  rw [e0, e1] at h
  have a0 : x0.length = xmin.length := by rw [← e0]; split <;> simp
  have b0 : ∀ i < xmin.length, at' x0 i = at' xmin i - bt := by
    intro i hi; rw [← e0]; split
    · exact at'_expand' bt hi
    · have : bt = 0 := by linarith
      rw [this, sub_zero]
  have b1 : ∀ i < xmin.length, at' x1 i = at' xmax i + bt := by
    intro i hi; rw [← e1]; split
    · exact at'_expand bt (by omega)
    · have : bt = 0 := by linarith
      rw [this, add_zero]
  have hmf := max_fold (fun i => (at' x1 i - at' x0 i) / ((nd.getD i 0 : Nat) : ℝ)) (List.range' 1 (xmin.length - 1))
    ((at' x1 0 - at' x0 0) / ((nd.getD 0 0 : Nat) : ℝ))
  generalize hside : (List.range' 1 (xmin.length - 1)).foldl (fun s i => max s ((at' x1 i - at' x0 i) / ((nd.getD i 0 : Nat) : ℝ)))
    ((at' x1 0 - at' x0 0) / ((nd.getD 0 0 : Nat) : ℝ)) = side at *
  split at h
  · simp at h
  rename_i hs
  simp only [Res.ok.injEq] at h
  subst h
  obtain ⟨m1, m2, m3⟩ := hmf
  have mall : ∀ i < xmin.length, (at' x1 i - at' x0 i) / ((nd.getD i 0 : Nat) : ℝ) ≤ side := by
    intro i hi
    rcases List.mem_cons.1 ((mem_zero_range' xmin.length (by omega) i).2 hi) with rfl | hi
    · exact m1
    · exact m2 i hi
  have ebt : ∀ i < xmin.length, at' x1 i - at' x0 i = at' xmax i - at' xmin i + 2 * bt := by
    intro i hi; rw [b0 i hi, b1 i hi]; ring
  have hxm : ∀ i < xmin.length, at' ((List.range xmin.length).map fun i => at' x0 i + side * ((nd.getD i 0 : Nat) : ℝ)) i
      = at' x0 i + side * ((nd.getD i 0 : Nat) : ℝ) := by
    intro i hi; simp [at', hi]
  have hndim : xmin.length = 2 ∨ xmin.length = 3 := by omega
  refine ⟨⟨hndim, hndl, hndp, a0, by simp, rfl, not_le.1 ht, not_le.1 hs, hxm, ?_, ?_⟩, rfl, rfl, hl, rfl, not_lt.1 hb, hnd, ?_, ?_, ?_⟩
  · dsimp only
    rcases hndim with h | h
    · rw [if_pos h, h]; norm_num
    · rw [if_neg (by omega), h]; norm_num
  · dsimp only
    rcases hndim with h | h
    · rw [if_pos h, h]; norm_num
    · rw [if_neg (by omega), h]; norm_num
  · intro i hi
    dsimp only at hi ⊢
    refine ⟨b0 i hi, ?_⟩
    rw [hxm i hi, ← b1 i hi]
    have hp : (0 : ℝ) < ((nd.getD i 0 : Nat) : ℝ) := by exact_mod_cast hndp i hi
    have := mall i hi
    rw [div_le_iff₀ hp] at this
    linarith
  · intro i hi
    dsimp only at hi ⊢
    rw [← ebt i hi]; exact mall i hi
  · dsimp only
    rcases m3 with m3 | ⟨i, hi, m3⟩
    · exact ⟨0, by omega, by rw [m3, ebt 0 (by omega)]⟩
    · have hi' := (mem_zero_range' xmin.length (by omega) i).1 (List.mem_cons_of_mem _ hi)
      exact ⟨i, hi', by rw [m3, ebt i hi']⟩

/-- When `new` succeeds. -/
theorem new_ok_of {xmin xmax : List ℝ} {ndiv : Option Nat} {tol btol : Option ℝ} {nd : List Nat}
    (hd : xmin.length = 2 ∨ xmin.length = 3) (hl : xmax.length = xmin.length)
    (hnd : numDivisions 1 (ndiv.getD 100) xmin xmax = .ok nd) (ht : 0 < tol.getD (1 / 10000)) (hb : 0 ≤ btol.getD (1 / 100))
    (hs : ∃ i < xmin.length, 2 * tol.getD (1 / 10000) < (at' xmax i - at' xmin i + 2 * btol.getD (1 / 100)) / ((nd.getD i 0 : Nat) : ℝ)) :
    ∃ g, new xmin xmax ndiv tol btol = .ok g := by
  unfold new
  dsimp only
  have hv := (numDivisions_pos hnd).1
  rw [if_neg (by omega), if_neg (not_not.2 hl), if_neg (by have := hv.2.1; omega), hnd, Res.bind_ok, if_neg (not_le.2 ht), if_neg (not_lt.2 hb)]
  generalize tol.getD (1 / 10000) = t at *
  generalize btol.getD (1 / 100) = bt at *
  obtain ⟨x0, x1, e0, e1⟩ : ∃ x0 x1, (if bt > 0 then xmin.map (fun v => v - bt) else xmin) = x0 ∧
    (if bt > 0 then xmax.map (fun v => v + bt) else xmax) = x1 := ⟨_, _, rfl, rfl⟩
  rw [e0, e1]
  have b0 : ∀ i < xmin.length, at' x0 i = at' xmin i - bt := by
    intro i hi; rw [← e0]; split
    · exact at'_expand' bt hi
    · have : bt = 0 := by linarith
      rw [this, sub_zero]
  have b1 : ∀ i < xmin.length, at' x1 i = at' xmax i + bt := by
    intro i hi; rw [← e1]; split
    · exact at'_expand bt (by omega)
    · have : bt = 0 := by linarith
      rw [this, add_zero]
  obtain ⟨m1, m2, _⟩ := max_fold (fun i => (at' x1 i - at' x0 i) / ((nd.getD i 0 : Nat) : ℝ)) (List.range' 1 (xmin.length - 1))
    ((at' x1 0 - at' x0 0) / ((nd.getD 0 0 : Nat) : ℝ))
  rw [if_neg]
  · exact ⟨_, rfl⟩
  · rw [not_le]
    obtain ⟨i, hi, hlt⟩ := hs
    refine hlt.trans_le ?_
    have : at' xmax i - at' xmin i + 2 * bt = at' x1 i - at' x0 i := by rw [b0 i hi, b1 i hi]; ring
    rw [this]
    rcases List.mem_cons.1 ((mem_zero_range' xmin.length (by omega) i).2 hi) with rfl | hi
    · exact m1
    · exact m2 i hi

theorem new_ne_panic (xmin xmax : List ℝ) (ndiv : Option Nat) (tol btol : Option ℝ) : new xmin xmax ndiv tol btol ≠ .panic := by
  unfold new
  dsimp only
  split
  · simp
  split
  · simp
  split
  · simp
  cases hnd : numDivisions 1 (ndiv.getD 100) xmin xmax with
  | ok nd => rw [Res.bind_ok]; (repeat' split) <;> exact nofun
  | err e => simp
  | panic =>
    by_cases hv : NdivValid 1 (ndiv.getD 100) xmin xmax
    · obtain ⟨nd, h, _⟩ := numDivisions_ok hv; rw [hnd] at h; simp at h
    · obtain ⟨e, h⟩ := numDivisions_err hv; rw [hnd] at h; simp at h

end GridSearch
end
end Gemlab
