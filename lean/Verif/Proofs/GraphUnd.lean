import Verif.Proofs.Bfs
import Verif.Spec.Walk
import Mathlib.Data.List.Perm.Basic
import Mathlib.Data.List.Nodup
import Mathlib.Data.Fintype.Card
import Mathlib.Data.List.FinRange

/-! # Helper lemmas for the undirected graph -/
namespace Gemlab.GraphUnd
open Gemlab.Spec

/-! ### walks -/

theorem walkN_iff {E : Nat → Nat → Prop} {k a b : Nat} :
    WalkN E k a b ↔ ∃ w, IsWalk E w a b ∧ w.length = k + 1 := by
  constructor
  · intro h
    induction h with
    | refl a => exact ⟨[a], by simp [IsWalk]⟩
    | snoc _ he ih =>
      obtain ⟨w, ⟨h1, h2, h3⟩, hl⟩ := ih
      rename_i k a b c _
      refine ⟨w ++ [c], ⟨?_, by simp, ?_⟩, by simp [hl]⟩
      · cases w <;> simp_all
      · rw [List.isChain_append]
        refine ⟨h3, by simp, ?_⟩
        intro x hx y hy
        rw [h2] at hx; simp at hx hy; subst hx; subst hy; exact he
  · rintro ⟨w, ⟨h1, h2, h3⟩, hl⟩
    induction k generalizing w b with
    | zero =>
      match w, hl with
      | [x], _ => simp at h1 h2; subst h1; subst h2; exact .refl _
    | succ k ih =>
      have hw : w ≠ [] := by rintro rfl; simp at hl
      obtain ⟨w', c, rfl⟩ := List.eq_nil_or_concat w |>.resolve_left hw
      simp at h2; subst h2
      have hw' : w' ≠ [] := by rintro rfl; simp at hl
      rw [List.concat_eq_append, List.isChain_append] at h3
      obtain ⟨x, hx⟩ : ∃ x, w'.getLast? = some x := by
        cases h : w'.getLast? with
        | none => simp at h; exact absurd h hw'
        | some x => exact ⟨x, rfl⟩
      have hh : w'.head? = some a := by cases w' <;> simp_all
      have hl' : w'.length = k + 1 := by simpa using hl
      exact .snoc (b := x) (ih (b := x) (w := w') hl' hh hx h3.1) (h3.2.2 x hx c (by simp))

theorem isWalk_length_pos {E : Nat → Nat → Prop} {w : List Nat} {a b : Nat} (h : IsWalk E w a b) : 0 < w.length := by
  cases w <;> simp_all [IsWalk]

theorem reach_iff {E : Nat → Nat → Prop} {a b : Nat} : Reach E a b ↔ ∃ k, WalkN E k a b := by
  constructor
  · rintro ⟨w, hw⟩
    have := isWalk_length_pos hw
    exact ⟨w.length - 1, walkN_iff.2 ⟨w, hw, by omega⟩⟩
  · rintro ⟨k, hk⟩
    obtain ⟨w, hw, _⟩ := walkN_iff.1 hk
    exact ⟨w, hw⟩

theorem isDistance_of {E : Nat → Nat → Prop} {a b k : Nat} (h1 : WalkN E k a b)
    (h2 : ∀ j, WalkN E j a b → k ≤ j) : IsDistance E a b k := by
  refine ⟨walkN_iff.1 h1, fun w hw => ?_⟩
  have := isWalk_length_pos hw
  have := h2 (w.length - 1) (walkN_iff.2 ⟨w, hw, by omega⟩)
  omega

theorem WalkN.trans {E : Nat → Nat → Prop} {k j a b c : Nat} (h1 : WalkN E k a b) (h2 : WalkN E j b c) :
    WalkN E (k + j) a c := by
  induction h2 with
  | refl => exact h1
  | snoc _ he ih => exact .snoc (ih h1) he

theorem WalkN.symm {E : Nat → Nat → Prop} (hs : ∀ x y, E x y → E y x) {k a b : Nat} (h : WalkN E k a b) :
    WalkN E k b a := by
  induction h with
  | refl => exact .refl _
  | snoc _ he ih =>
    have h1 : WalkN E 1 _ _ := .snoc (.refl _) (hs _ _ he)
    have := WalkN.trans h1 ih
    rwa [Nat.add_comm] at this

theorem WalkN.mono {E F : Nat → Nat → Prop} (hs : ∀ x y, E x y → F x y) {k a b : Nat} (h : WalkN E k a b) :
    WalkN F k a b := by
  induction h with
  | refl => exact .refl _
  | snoc _ he ih => exact .snoc ih (hs _ _ he)

theorem LogSpec.isDistance {adj : List (List Nat)} {r : Nat} {l : List (Nat × Nat)} (h : LogSpec adj r l) {u : Nat}
    (hu : u ∈ r :: l.map Prod.fst) : IsDistance (Edge adj) r u (gDist l u) :=
  isDistance_of (h.walk hu) (fun _ hj => (h.le hj).2)

theorem LogSpec.mem_iff {adj : List (List Nat)} {r : Nat} {l : List (Nat × Nat)} (h : LogSpec adj r l) {u : Nat} :
    u ∈ r :: l.map Prod.fst ↔ Reach (Edge adj) r u := by
  rw [reach_iff]
  exact ⟨fun hu => ⟨_, h.walk hu⟩, fun ⟨_, hk⟩ => (h.le hk).1⟩

/-! ### replaying logs -/

theorem gDist_notMem {l : List (Nat × Nat)} {x : Nat} (h : x ∉ l.map Prod.fst) : gDist l x = 0 := by
  induction l using List.reverseRecOn with
  | nil => rfl
  | append_singleton l ba ih =>
    obtain ⟨b, a⟩ := ba
    simp at h
    rw [gDist_snoc, Function.update_of_ne]
    · exact ih (by simpa using h.1)
    · exact h.2

theorem replay_dist {n : Nat} (l : List (Nat × Nat)) (hl : ∀ ba ∈ l, ba.1 < n ∧ ba.2 < n) :
    replay visitDist l (List.replicate n 0) = .ok ((List.range n).map (gDist l)) := by
  induction l using List.reverseRecOn with
  | nil =>
    simp [gDist]
  | append_singleton l ba ih =>
    rw [replay_append, ih (fun x hx => hl x (by simp [hx]))]
    obtain ⟨hb, ha⟩ := hl ba (by simp)
    simp only [Res.bind_ok, replay_cons, replay_nil, visitDist]
    have h1 : Res.idx ((List.range n).map (gDist l)) ba.2 = .ok (gDist l ba.2) := by simp [ha]
    rw [h1]
    simp only [Res.bind_ok]
    rw [Res.setIdx_of_lt (by simpa using hb)]
    simp only [Res.bind_ok, Res.ok.injEq]
    apply List.ext_getElem?
    intro i
    rw [List.getElem?_set]
    obtain ⟨b, a⟩ := ba
    simp only at *
    rw [gDist_snoc]
    by_cases hi : b = i
    · subst hi; simp [hb]
    · simp only [hi, if_false, List.getElem?_map]
      cases hr : (List.range n)[i]? with
      | none => simp
      | some j =>
        obtain ⟨_, rfl⟩ := List.getElem?_eq_some_iff.1 hr
        simp [Function.update_of_ne (Ne.symm hi)]

/-- Parents recorded by a discovery log. -/
def gPar (l : List (Nat × Nat)) : Nat → Option Nat :=
  l.foldl (fun d ba => Function.update d ba.1 (some ba.2)) (fun _ => none)

theorem gPar_snoc (l : List (Nat × Nat)) (b a : Nat) :
    gPar (l ++ [(b, a)]) = Function.update (gPar l) b (some a) := by simp [gPar]

theorem gPar_eq_some {l : List (Nat × Nat)} {x y : Nat} (h : gPar l x = some y) : (x, y) ∈ l := by
  induction l using List.reverseRecOn with
  | nil => simp [gPar] at h
  | append_singleton l ba ih =>
    obtain ⟨b, a⟩ := ba
    rw [gPar_snoc] at h
    by_cases hx : x = b
    · subst hx; simp at h; subst h; simp
    · rw [Function.update_of_ne hx] at h
      simp [ih h]

theorem gPar_eq_none {l : List (Nat × Nat)} {x : Nat} : gPar l x = none ↔ x ∉ l.map Prod.fst := by
  induction l using List.reverseRecOn with
  | nil => simp [gPar]
  | append_singleton l ba ih =>
    obtain ⟨b, a⟩ := ba
    rw [gPar_snoc]
    by_cases hx : x = b
    · subst hx; simp
    · rw [Function.update_of_ne hx, ih]; simp [hx]

theorem replay_path {n : Nat} (l : List (Nat × Nat)) (hl : ∀ ba ∈ l, ba.1 < n ∧ ba.2 < n) :
    replay visitPath l (List.replicate n 0, List.replicate n none) =
      .ok ((List.range n).map (gDist l), (List.range n).map (gPar l)) := by
  induction l using List.reverseRecOn with
  | nil => simp [gDist, gPar]
  | append_singleton l ba ih =>
    have hd := replay_dist (l ++ [ba]) hl
    rw [replay_append, replay_dist l (fun x hx => hl x (by simp [hx]))] at hd
    simp only [Res.bind_ok, replay_cons, replay_nil] at hd
    rw [replay_append, ih (fun x hx => hl x (by simp [hx]))]
    obtain ⟨hb, ha⟩ := hl ba (by simp)
    obtain ⟨b, a⟩ := ba
    simp only [Res.bind_ok, replay_cons, replay_nil, visitPath] at hd ⊢
    cases hv : visitDist a b ((List.range n).map (gDist l)) with
    | ok d' =>
      rw [hv] at hd
      simp only [Res.bind_ok, Res.ok.injEq] at hd
      simp only [Res.bind_ok]
      rw [Res.setIdx_of_lt (by simpa using hb)]
      simp only [Res.bind_ok, Res.pure_eq, Res.ok.injEq, Prod.mk.injEq]
      refine ⟨hd, ?_⟩
      apply List.ext_getElem?
      intro i
      rw [List.getElem?_set, gPar_snoc]
      by_cases hi : b = i
      · subst hi; simp only at hb; simp [hb]
      · simp only [hi, if_false, List.getElem?_map]
        cases hr : (List.range n)[i]? with
        | none => simp
        | some j =>
          obtain ⟨_, rfl⟩ := List.getElem?_eq_some_iff.1 hr
          simp [Function.update_of_ne (Ne.symm hi)]
    | err m => rw [hv] at hd; simp at hd
    | panic => rw [hv] at hd; simp at hd

theorem set_append_replicate (l : List Nat) (k b : Nat) (hk : 0 < k) :
    (l ++ List.replicate k 0).set l.length b = (l ++ [b]) ++ List.replicate (k - 1) 0 := by
  obtain ⟨k', rfl⟩ : ∃ k', k = k' + 1 := ⟨k - 1, by omega⟩
  rw [List.set_append_right _ _ (Nat.le_refl _)]
  simp [List.replicate_succ]

theorem replay_cm {n r : Nat} (l : List (Nat × Nat)) (hn : l.length + 1 ≤ n) :
    replay visitCM l ((List.replicate n 0).set 0 r, 1) =
      .ok ((r :: l.map Prod.fst) ++ List.replicate (n - (l.length + 1)) 0, l.length + 1) := by
  induction l using List.reverseRecOn with
  | nil =>
    simp only [replay_nil, Res.ok.injEq, Prod.mk.injEq, and_true, List.length_nil, Nat.zero_add]
    obtain ⟨k', rfl⟩ : ∃ k', n = k' + 1 := ⟨n - 1, by simp at hn; omega⟩
    simp [List.replicate_succ]
  | append_singleton l ba ih =>
    simp only [List.length_append, List.length_singleton] at hn
    rw [replay_append, ih (by omega)]
    simp only [Res.bind_ok, replay_cons, replay_nil, visitCM]
    rw [if_pos (by simp; omega)]
    simp only [Res.bind_ok, Res.ok.injEq, Prod.mk.injEq]
    constructor
    · have := set_append_replicate (r :: l.map Prod.fst) (n - (l.length + 1)) ba.1 (by omega)
      simp only [List.length_cons, List.length_map] at this
      rw [this]
      simp only [List.map_append, List.map_cons, List.map_nil, List.length_append, List.length_singleton,
        List.cons_append, List.append_assoc]
      congr 4
    · simp

theorem LogSpec.length {adj : List (List Nat)} {r : Nat} {l : List (Nat × Nat)} (h : LogSpec adj r l) :
    l.length + 1 ≤ adj.length := by
  have h1 : (r :: l.map Prod.fst) ⊆ List.range adj.length := by
    intro x hx; simpa using h.lt x hx
  have := (List.subperm_of_subset h.nodup h1).length_le
  simpa using this

theorem LogSpec.bounds {adj : List (List Nat)} {r : Nat} {l : List (Nat × Nat)} (h : LogSpec adj r l) :
    ∀ ba ∈ l, ba.1 < adj.length ∧ ba.2 < adj.length := fun ba hba =>
  ⟨h.lt _ (List.mem_cons_of_mem _ (List.mem_map_of_mem hba)), h.lt _ (h.par ba hba).1⟩

end Gemlab.GraphUnd
