import Verif.Proofs.Json3
import Verif.Props.MeshText

/-!
# The values that are converted to meshes
-/
namespace Gemlab.MeshJson
open Gemlab Gemlab.Mesh
open Gemlab.MeshText (Text showNat showInt parseUsize parseI32)

variable {K : Type}

theorem decNat_iff (v : Json) (n : Nat) : decNat v = some n ↔ IsNat v n := by
  unfold decNat IsNat
  constructor
  · intro h
    split at h
    · exact ⟨_, rfl, (Props.MeshText.C18_usize _ _).1 h⟩
    · simp at h
  · rintro ⟨t, rfl, h⟩
    exact (Props.MeshText.C18_usize _ _).2 h

theorem decInt_iff (v : Json) (n : Int) : decInt v = some n ↔ IsInt v n := by
  unfold decInt IsInt
  constructor
  · intro h
    split at h
    · split_ifs at h with h0
      exact ⟨_, rfl, h0, (Props.MeshText.C18_i32 _ _).1 h⟩
    · simp at h
  · rintro ⟨t, rfl, h0, h⟩
    simp only [if_neg h0]
    exact (Props.MeshText.C18_i32 _ _).2 h

theorem decFloat_iff (F : JsonFloat K) (v : Json) (x : K) : decFloat F v = some x ↔ IsFloat F v x := by
  unfold decFloat IsFloat
  constructor
  · intro h
    split at h
    · exact ⟨_, rfl, h⟩
    · simp at h
  · rintro ⟨t, rfl, h⟩
    exact h

theorem mapM_iff {α β : Type} {d : α → Option β} {R : α → β → Prop} (h : ∀ v x, d v = some x ↔ R v x) (vs : List α) (l : List β) :
    vs.mapM d = some l ↔ List.Forall₂ R vs l := by
  induction vs generalizing l with
  | nil => simp [eq_comm]
  | cons v vs ih =>
    rw [List.mapM_cons]
    constructor
    · intro e
      simp only [Option.bind_eq_bind, Option.bind_eq_some_iff, Option.pure_def, Option.some.injEq] at e
      obtain ⟨x, hx, xs, hxs, rfl⟩ := e
      exact .cons ((h _ _).1 hx) ((ih _).1 hxs)
    · intro e
      cases e with
      | cons h1 h2 =>
        rw [(h _ _).2 h1, (ih _).2 h2]
        rfl

theorem decVec_iff {α : Type} {d : Json → Option α} {R : Json → α → Prop} (h : ∀ v x, d v = some x ↔ R v x) (v : Json) (l : List α) :
    decVec d v = some l ↔ IsList R v l := by
  unfold decVec IsList
  constructor
  · intro e
    split at e
    · exact ⟨_, rfl, (mapM_iff h _ _).1 e⟩
    · simp at e
  · rintro ⟨vs, rfl, e⟩
    exact (mapM_iff h _ _).2 e

theorem fields_iff (names : List String) (v : Json) (vs : List Json) : fields (names.map String.toList) v = some vs ↔ HasFields names v vs := by
  unfold fields HasFields
  have key : ∀ (ms : List (Text × Json)) (n : String) (x : Json),
      (match ms.filter (fun m => m.1 == n.toList) with | [m] => some m.2 | _ => none) = some x ↔
        ms.filter (fun m => m.1 == n.toList) = [(n.toList, x)] := by
    intro ms n x
    constructor
    · intro h
      split at h
      · rename_i m hm
        simp only [Option.some.injEq] at h
        have : m ∈ ms.filter (fun m => m.1 == n.toList) := by rw [hm]; simp
        have h1 := (List.mem_filter.1 this).2
        simp only [beq_iff_eq] at h1
        rw [hm, ← h, ← h1]
      · simp at h
    · intro h
      rw [h]
  constructor
  · intro h
    split at h
    · rename_i l
      split_ifs at h with hl
      simp only [Option.some.injEq] at h
      subst h
      right
      exact ⟨rfl, by simpa using hl⟩
    · rename_i ms
      left
      refine ⟨ms, rfl, ?_⟩
      rw [List.mapM_map] at h
      exact (mapM_iff (key ms) _ _).1 h
    · simp at h
  · rintro (⟨ms, rfl, h⟩ | ⟨rfl, h⟩)
    · simp only
      rw [List.mapM_map]
      exact (mapM_iff (key ms) _ _).2 h
    · simp [h]

theorem kindName_injective {k k' : GeoKind} (h : kindName k = kindName k') : k = k' := by
  revert h
  cases k <;> cases k' <;> first | (intro _; rfl) | (intro h; exact absurd h (by decide))

theorem find_kind (t : Text) (k : GeoKind) : (GeoKind.values.find? fun k => kindName k == t) = some k ↔ t = kindName k := by
  constructor
  · intro h
    have := List.find?_some h
    simp only [beq_iff_eq] at this
    exact this.symm
  · rintro rfl
    have hm : ∃ k', (GeoKind.values.find? fun k' => kindName k' == kindName k) = some k' := by
      rw [← Option.isSome_iff_exists, List.find?_isSome]
      exact ⟨k, by cases k <;> simp [GeoKind.values], by simp⟩
    obtain ⟨k', hk⟩ := hm
    have := List.find?_some hk
    simp only [beq_iff_eq] at this
    rw [hk, kindName_injective this]

theorem decKind_iff (v : Json) (k : GeoKind) : decKind v = some k ↔ IsKind v k := by
  unfold decKind IsKind
  constructor
  · intro h
    split at h
    · rw [find_kind] at h
      subst h
      exact Or.inl rfl
    · rw [find_kind] at h
      subst h
      exact Or.inr rfl
    · simp at h
  · rintro (rfl | rfl)
    · exact (find_kind _ _).2 rfl
    · exact (find_kind _ _).2 rfl

theorem decPoint_iff (F : JsonFloat K) (v : Json) (p : Point K) : decPoint F v = some p ↔ IsPoint F v p := by
  have hf := fun vs => fields_iff ["id", "marker", "coords"] v vs
  unfold decPoint IsPoint
  constructor
  · intro h
    split at h
    · rename_i i m x hx
      simp only [Option.bind_eq_bind, Option.bind_eq_some_iff, Option.some.injEq] at h
      obtain ⟨a, h1, b, h2, c, h3, rfl⟩ := h
      exact ⟨i, m, x, (hf _).1 hx, (decNat_iff _ _).1 h1, (decInt_iff _ _).1 h2, (decVec_iff (decFloat_iff F) _ _).1 h3⟩
    · simp at h
  · rintro ⟨i, m, x, h, h1, h2, h3⟩
    have e : fields pointNames v = some [i, m, x] := (hf _).2 h
    simp only [e]
    rw [(decNat_iff _ _).2 h1, (decInt_iff _ _).2 h2, (decVec_iff (decFloat_iff F) _ _).2 h3]
    rfl

theorem decCell_iff (v : Json) (c : Cell) : decCell v = some c ↔ IsCell v c := by
  have hf := fun vs => fields_iff ["id", "marker", "kind", "points"] v vs
  unfold decCell IsCell
  constructor
  · intro h
    split at h
    · rename_i i m k p hx
      simp only [Option.bind_eq_bind, Option.bind_eq_some_iff, Option.some.injEq] at h
      obtain ⟨a, h1, b, h2, k', h3, ps, h4, rfl⟩ := h
      exact ⟨i, m, k, p, (hf _).1 hx, (decNat_iff _ _).1 h1, (decInt_iff _ _).1 h2, (decKind_iff _ _).1 h3,
        (decVec_iff decNat_iff _ _).1 h4⟩
    · simp at h
  · rintro ⟨i, m, k, p, h, h1, h2, h3, h4⟩
    have e : fields cellNames v = some [i, m, k, p] := (hf _).2 h
    simp only [e]
    rw [(decNat_iff _ _).2 h1, (decInt_iff _ _).2 h2, (decKind_iff _ _).2 h3, (decVec_iff decNat_iff _ _).2 h4]
    rfl

theorem decEdge_iff (v : Json) (e : Int × Nat × Nat) : decEdge v = some e ↔ IsEdge v e := by
  unfold decEdge IsEdge
  constructor
  · intro h
    split at h
    · simp only [Option.bind_eq_bind, Option.bind_eq_some_iff, Option.some.injEq] at h
      obtain ⟨a, h1, b, h2, c, h3, rfl⟩ := h
      exact ⟨_, _, _, rfl, (decInt_iff _ _).1 h1, (decNat_iff _ _).1 h2, (decNat_iff _ _).1 h3⟩
    · simp at h
  · rintro ⟨m, a, b, rfl, h1, h2, h3⟩
    simp only
    rw [(decInt_iff _ _).2 h1, (decNat_iff _ _).2 h2, (decNat_iff _ _).2 h3]
    rfl

theorem decFace_iff (v : Json) (e : Int × Nat × Nat × Nat × Nat) : decFace v = some e ↔ IsFace v e := by
  unfold decFace IsFace
  constructor
  · intro h
    split at h
    · simp only [Option.bind_eq_bind, Option.bind_eq_some_iff, Option.some.injEq] at h
      obtain ⟨a, h1, b, h2, c, h3, d, h4, f, h5, rfl⟩ := h
      exact ⟨_, _, _, _, _, rfl, (decInt_iff _ _).1 h1, (decNat_iff _ _).1 h2, (decNat_iff _ _).1 h3, (decNat_iff _ _).1 h4,
        (decNat_iff _ _).1 h5⟩
    · simp at h
  · rintro ⟨m, a, b, c, d, rfl, h1, h2, h3, h4, h5⟩
    simp only
    rw [(decInt_iff _ _).2 h1, (decNat_iff _ _).2 h2, (decNat_iff _ _).2 h3, (decNat_iff _ _).2 h4, (decNat_iff _ _).2 h5]
    rfl

theorem decMesh_iff (F : JsonFloat K) (v : Json) (m : Mesh K) : decMesh F v = some m ↔ IsMesh F v m := by
  have hf := fun vs => fields_iff ["ndim", "points", "cells", "marked_edges", "marked_faces"] v vs
  unfold decMesh IsMesh
  constructor
  · intro h
    split at h
    · rename_i n p c e f hx
      simp only [Option.bind_eq_bind, Option.bind_eq_some_iff, Option.some.injEq] at h
      obtain ⟨a, h1, b, h2, k', h3, ps, h4, fs, h5, rfl⟩ := h
      exact ⟨n, p, c, e, f, (hf _).1 hx, (decNat_iff _ _).1 h1, (decVec_iff (decPoint_iff F) _ _).1 h2, (decVec_iff decCell_iff _ _).1 h3,
        (decVec_iff decEdge_iff _ _).1 h4, (decVec_iff decFace_iff _ _).1 h5⟩
    · simp at h
  · rintro ⟨n, p, c, e, f, h, h1, h2, h3, h4, h5⟩
    have he : fields meshNames v = some [n, p, c, e, f] := (hf _).2 h
    simp only [he]
    rw [(decNat_iff _ _).2 h1, (decVec_iff (decPoint_iff F) _ _).2 h2, (decVec_iff decCell_iff _ _).2 h3,
      (decVec_iff decEdge_iff _ _).2 h4, (decVec_iff decFace_iff _ _).2 h5]
    rfl

/-! ## Texts and values -/

theorem Layout.append {t t' : Text} {ts ts' : List Tok} (h : Layout t ts) (h' : Layout t' ts') : Layout (t ++ t') (ts ++ ts') := by
  induction h with
  | nil => exact h'
  | blank hb _ ih => exact .blank hb ih
  | @tok k s t ts hs _ ih =>
    rw [List.append_assoc]
    exact .tok hs ih

theorem Layout.single {k : Tok} {s : Text} (h : Spells k s) : Layout s [k] := by
  have := Layout.tok h .nil
  rwa [List.append_nil] at this

theorem commas_cons (t : Text) (l : List Text) (h : l ≠ []) : commas (t :: l) = t ++ ',' :: commas l := by
  cases l with
  | nil => exact absurd rfl h
  | cons a l => rfl

theorem layout_elems {ts : List Text} {vs : List Json} (h : List.Forall₂ Denotes ts vs) : Layout (commas ts) (toksElems vs) := by
  induction h with
  | nil =>
    rw [toksElems]
    exact .nil
  | @cons t v ts vs h1 h2 ih =>
    by_cases hv : vs = []
    · subst hv
      cases h2
      rw [toksElems]
      exact h1
    · have ht : ts ≠ [] := by
        rintro rfl
        cases h2
        exact hv rfl
      rw [commas_cons _ _ ht, toksElems_cons _ _ hv]
      exact Layout.append h1 (Layout.tok .comma ih)

theorem denotes_arr {ts : List Text} {vs : List Json} (h : List.Forall₂ Denotes ts vs) : Denotes (jArr ts) (.arr vs) := by
  unfold Denotes jArr
  rw [toks]
  exact Layout.append (Layout.single .lbrack) (Layout.append (layout_elems h) (Layout.single .rbrack))

theorem denotes_arr_map {α : Type} {j : α → Text} {v : α → Json} (l : List α) (h : ∀ x ∈ l, Denotes (j x) (v x)) :
    Denotes (jArr (l.map j)) (.arr (l.map v)) := by
  refine denotes_arr ?_
  rw [List.forall₂_map_left_iff, List.forall₂_map_right_iff]
  exact List.forall₂_same.2 h

theorem layout_members {l : List (Text × Text)} {ms : List (Text × Json)}
    (h : List.Forall₂ (fun a b => (∀ c ∈ a.1, isPlain c = true) ∧ a.1 = b.1 ∧ Denotes a.2 b.2) l ms) :
    Layout (commas (l.map fun m => showStr m.1 ++ ':' :: m.2)) (toksMembers ms) := by
  have hs : ∀ k : Text, (∀ c ∈ k, isPlain c = true) → Spells (.str k) (showStr k) := by
    intro k hk
    have : ∀ k : Text, (∀ c ∈ k, isPlain c = true) → k.flatMap escape = k ∧ SpellsStr k k := by
      intro k
      induction k with
      | nil => exact fun _ => ⟨rfl, .nil⟩
      | cons c k ih =>
        intro hk
        have hc := hk c (by simp)
        have hc' : escape c = [c] := by
          unfold escape
          rw [if_neg]
          rintro (rfl | rfl) <;> exact absurd hc (by decide)
        obtain ⟨h1, h2⟩ := ih fun x hx => hk x (by simp [hx])
        exact ⟨by rw [List.flatMap_cons, hc', h1]; rfl, .plain ((plain_iff _).1 hc) h2⟩
    unfold showStr
    rw [(this k hk).1]
    exact .str (this k hk).2
  have one : ∀ (a : Text × Text) (b : Text × Json), (∀ c ∈ a.1, isPlain c = true) ∧ a.1 = b.1 ∧ Denotes a.2 b.2 →
      Layout (showStr a.1 ++ ':' :: a.2) (.str b.1 :: .colon :: toks b.2) := by
    rintro a b ⟨h1, h2, h3⟩
    exact Layout.tok (by rw [← h2]; exact hs _ h1) (Layout.tok .colon h3)
  induction h with
  | nil =>
    rw [toksMembers]
    exact .nil
  | @cons t v ts vs h1 h2 ih =>
    by_cases hv : vs = []
    · subst hv
      cases h2
      rw [toksMembers]
      exact one _ _ h1
    · have ht : ts ≠ [] := by
        rintro rfl
        cases h2
        exact hv rfl
      rw [List.map_cons, commas_cons _ _ (by simpa using ht), toksMembers_cons _ _ hv]
      exact Layout.append (one _ _ h1) (Layout.tok .comma ih)

theorem denotes_obj {l : List (Text × Text)} {ms : List (Text × Json)}
    (h : List.Forall₂ (fun a b => (∀ c ∈ a.1, isPlain c = true) ∧ a.1 = b.1 ∧ Denotes a.2 b.2) l ms) : Denotes (jObj l) (.obj ms) := by
  unfold Denotes jObj
  rw [toks]
  exact Layout.append (Layout.single .lbrace) (Layout.append (layout_members h) (Layout.single .rbrace))

/-! ## Numbers -/

theorem isDigit_digit {d : Nat} (h : d < 10) : isDigit (Char.ofNat (48 + d)) = true := by
  interval_cases d <;> decide

theorem showNat_number (n : Nat) : Digits (showNat n) ∧ ((showNat n).head? = some '0' → showNat n = ['0']) := by
  refine ⟨⟨MeshText.showNat_ne_nil n, fun c hc => ?_⟩, ?_⟩
  · obtain ⟨d, hd, rfl⟩ := MeshText.showNat_digits n c hc
    exact isDigit_digit hd
  · induction n using Nat.strong_induction_on with
    | _ n ih =>
      rw [showNat]
      split_ifs with h
      · intro h'
        simp only [List.head?_cons, Option.some.injEq] at h'
        rw [h']
      · intro h'
        rw [List.head?_append_of_ne_nil _ (MeshText.showNat_ne_nil _)] at h'
        have := ih (n / 10) (by omega) h'
        exfalso
        have h10 : 1 ≤ n / 10 := by omega
        have hp := MeshText.parseDigits_showNat (n / 10)
        rw [this] at hp
        have : MeshText.parseDigits ['0'] = some 0 := by decide
        rw [this] at hp
        simp only [Option.some.injEq] at hp
        omega

theorem isNumber_showNat (n : Nat) : IsNumber (showNat n) :=
  ⟨[], showNat n, [], [], by simp, Or.inl rfl, showNat_number n, Or.inl rfl, Or.inl rfl⟩

theorem isNumber_showInt (n : Int) : IsNumber (showInt n) := by
  unfold showInt
  split_ifs
  · exact ⟨['-'], showNat n.natAbs, [], [], by simp, Or.inr rfl, showNat_number _, Or.inl rfl, Or.inl rfl⟩
  · exact isNumber_showNat _

theorem denotes_nat (n : Nat) : Denotes (jNat n) (valNat n) := by
  unfold Denotes valNat
  rw [toks]
  exact Layout.single (.num (isNumber_showNat n))

theorem denotes_int (n : Int) : Denotes (jInt n) (valInt n) := by
  unfold Denotes valInt
  rw [toks]
  exact Layout.single (.num (isNumber_showInt n))

theorem denotes_null : Denotes "null".toList .null := by
  unfold Denotes
  rw [toks]
  exact Layout.single .null

theorem denotes_float {F : JsonFloat K} (hF : Proper F) (x : K) : Denotes (jFloat F x) (valFloat F x) := by
  unfold jFloat valFloat
  cases h : F.fmt x with
  | none => exact denotes_null
  | some t =>
    unfold Denotes
    simp only [Option.getD_some]
    rw [toks]
    exact Layout.single (.num (hF x t h))

theorem kindName_plain (k : GeoKind) : ∀ c ∈ kindName k, isPlain c = true := by
  cases k <;> decide

theorem denotes_str {t : Text} (h : ∀ c ∈ t, isPlain c = true) : Denotes (showStr t) (.str t) := by
  have : ∀ k : Text, (∀ c ∈ k, isPlain c = true) → k.flatMap escape = k ∧ SpellsStr k k := by
    intro k
    induction k with
    | nil => exact fun _ => ⟨rfl, .nil⟩
    | cons c k ih =>
      intro hk
      have hc := hk c (by simp)
      have hc' : escape c = [c] := by
        unfold escape
        rw [if_neg]
        rintro (rfl | rfl) <;> exact absurd hc (by decide)
      obtain ⟨h1, h2⟩ := ih fun x hx => hk x (by simp [hx])
      exact ⟨by rw [List.flatMap_cons, hc', h1]; rfl, .plain ((plain_iff _).1 hc) h2⟩
  unfold Denotes showStr
  rw [(this t h).1, toks]
  exact Layout.single (.str (this t h).2)

theorem denotes_point {F : JsonFloat K} (hF : Proper F) (p : Point K) : Denotes (jPoint F p) (valPoint F p) :=
  denotes_obj (.cons ⟨by dsimp only; decide, rfl, denotes_nat _⟩ (.cons ⟨by dsimp only; decide, rfl, denotes_int _⟩
    (.cons ⟨by dsimp only; decide, rfl, denotes_arr_map _ fun x _ => denotes_float hF x⟩ .nil)))

theorem denotes_cell (c : Cell) : Denotes (jCell c) (valCell c) :=
  denotes_obj (.cons ⟨by dsimp only; decide, rfl, denotes_nat _⟩ (.cons ⟨by dsimp only; decide, rfl, denotes_int _⟩
    (.cons ⟨by dsimp only; decide, rfl, denotes_str (kindName_plain _)⟩
      (.cons ⟨by dsimp only; decide, rfl, denotes_arr_map _ fun x _ => denotes_nat x⟩ .nil))))

theorem denotes_edge (e : Int × Nat × Nat) : Denotes (jEdge e) (valEdge e) :=
  denotes_arr (.cons (denotes_int _) (.cons (denotes_nat _) (.cons (denotes_nat _) .nil)))

theorem denotes_face (f : Int × Nat × Nat × Nat × Nat) : Denotes (jFace f) (valFace f) :=
  denotes_arr (.cons (denotes_int _) (.cons (denotes_nat _) (.cons (denotes_nat _) (.cons (denotes_nat _) (.cons (denotes_nat _) .nil)))))

theorem denotes_mesh {F : JsonFloat K} (hF : Proper F) (m : Mesh K) : Denotes (writeMesh F m) (valMesh F m) :=
  denotes_obj (.cons ⟨by dsimp only; decide, rfl, denotes_nat _⟩
    (.cons ⟨by dsimp only; decide, rfl, denotes_arr_map _ fun p _ => denotes_point hF p⟩
    (.cons ⟨by dsimp only; decide, rfl, denotes_arr_map _ fun c _ => denotes_cell c⟩
    (.cons ⟨by dsimp only; decide, rfl, denotes_arr_map _ fun e _ => denotes_edge e⟩
    (.cons ⟨by dsimp only; decide, rfl, denotes_arr_map _ fun f _ => denotes_face f⟩ .nil)))))

end Gemlab.MeshJson
