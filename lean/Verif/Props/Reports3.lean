import Verif.Model.Reports
import Verif.Proofs.MeshText3
import Verif.Proofs.FromBlocks
import Verif.Lib.ResList

/-!
# C82 — statistics and printed summaries (edges and faces)
-/
namespace Gemlab.Reports
open Gemlab Gemlab.MeshText Gemlab.Mesh

/-- A token: no commas, no parentheses. -/
def IsToken (t : Text) : Prop := ∀ c ∈ t, c ≠ ',' ∧ c ≠ ')'

theorem cut {x x' r r' : Text} {d d' : Char} (h : IsToken x) (h' : IsToken x') (hd : d = ',' ∨ d = ')') (hd' : d' = ',' ∨ d' = ')')
    (he : x ++ d :: r = x' ++ d' :: r') : x = x' ∧ d = d' ∧ r = r' := by
  induction x generalizing x' with
  | nil =>
    cases x' with
    | nil => simp at he; exact ⟨rfl, he⟩
    | cons c x' =>
      simp at he
      have := h' c (by simp)
      rcases hd with rfl | rfl
      · exact absurd he.1.symm this.1
      · exact absurd he.1.symm this.2
  | cons c x ih =>
    cases x' with
    | nil =>
      simp at he
      have := h c (by simp)
      rcases hd' with rfl | rfl
      · exact absurd he.1 this.1
      · exact absurd he.1 this.2
    | cons c' x' =>
      simp only [List.cons_append, List.cons.injEq] at he
      obtain ⟨rfl, he⟩ := he
      obtain ⟨rfl, h2⟩ := ih (fun c hc => h c (by simp [hc])) (fun c hc => h' c (by simp [hc])) he
      exact ⟨rfl, h2⟩

theorem sepBy_cons2 (s t u : Text) (us : List Text) : sepBy s (t :: u :: us) = t ++ s ++ sepBy s (u :: us) := rfl

theorem sepBy_inj {ts ts' : List Text} (h : ∀ t ∈ ts, IsToken t) (h' : ∀ t ∈ ts', IsToken t) (hn : ts ≠ []) (hn' : ts' ≠ [])
    {r r' : Text} (he : sepBy [',', ' '] ts ++ ')' :: r = sepBy [',', ' '] ts' ++ ')' :: r') : ts = ts' ∧ r = r' := by
  induction ts generalizing ts' with
  | nil => exact absurd rfl hn
  | cons t ts ih =>
    cases ts' with
    | nil => exact absurd rfl hn'
    | cons t' ts' =>
      have ht := h t (by simp)
      have ht' := h' t' (by simp)
      cases ts with
      | nil =>
        cases ts' with
        | nil =>
          simp only [sepBy] at he
          obtain ⟨rfl, _, h2⟩ := cut ht ht' (.inr rfl) (.inr rfl) he
          exact ⟨rfl, h2⟩
        | cons u us =>
          simp only [sepBy, List.append_assoc, List.cons_append] at he
          obtain ⟨_, h1, _⟩ := cut ht ht' (.inr rfl) (.inl rfl) he
          exact absurd h1 (by decide)
      | cons u us =>
        cases ts' with
        | nil =>
          simp only [sepBy, List.append_assoc, List.cons_append] at he
          obtain ⟨_, h1, _⟩ := cut ht ht' (.inl rfl) (.inr rfl) he
          exact absurd h1 (by decide)
        | cons u' us' =>
          rw [sepBy_cons2, sepBy_cons2] at he
          simp only [List.append_assoc, List.cons_append, List.nil_append] at he
          obtain ⟨rfl, _, h1⟩ := cut ht ht' (.inl rfl) (.inl rfl) he
          injection h1 with _ h1
          obtain ⟨h2, h3⟩ := ih (fun t ht => h t (List.mem_cons_of_mem _ ht)) (fun t ht => h' t (List.mem_cons_of_mem _ ht))
            (by simp) (by simp) h1
          exact ⟨by rw [h2], h3⟩

/-- A key in parentheses. -/
def paren (ts : List Text) : Text := '(' :: sepBy [',', ' '] ts ++ [')']

theorem paren_ne (ts : List Text) : paren ts ≠ [] := by unfold paren; simp

theorem parens_inj {ks ks' : List (List Text)} (h : ∀ k ∈ ks, k ≠ [] ∧ ∀ t ∈ k, IsToken t) (h' : ∀ k ∈ ks', k ≠ [] ∧ ∀ t ∈ k, IsToken t)
    (he : sepBy [',', ' '] (ks.map paren) = sepBy [',', ' '] (ks'.map paren)) : ks = ks' := by
  induction ks generalizing ks' with
  | nil =>
    cases ks' with
    | nil => rfl
    | cons k ks' =>
      exfalso
      cases ks' <;> simp [sepBy, paren] at he
  | cons k ks ih =>
    cases ks' with
    | nil =>
      exfalso
      cases ks <;> simp [sepBy, paren] at he
    | cons k' ks' =>
      obtain ⟨hk, hkt⟩ := h k (by simp)
      obtain ⟨hk', hkt'⟩ := h' k' (by simp)
      have key : ∀ r r' : Text, paren k ++ r = paren k' ++ r' → k = k' ∧ r = r' := by
        intro r r' he
        unfold paren at he
        simp only [List.cons_append, List.append_assoc, List.cons.injEq, true_and, List.nil_append] at he
        exact sepBy_inj hkt hkt' hk hk' he
      cases ks with
      | nil =>
        cases ks' with
        | nil =>
          simp only [List.map_cons, List.map_nil, sepBy] at he
          obtain ⟨rfl, _⟩ := key [] [] (by simpa using he)
          rfl
        | cons u us =>
          simp only [List.map_cons, List.map_nil] at he
          rw [sepBy, sepBy] at he
          · obtain ⟨_, h2⟩ := key [] ([',', ' '] ++ sepBy [',', ' '] (paren u :: us.map paren)) (by simpa using he)
            simp at h2
          · simp
      | cons u us =>
        cases ks' with
        | nil =>
          simp only [List.map_cons, List.map_nil] at he
          rw [sepBy, sepBy] at he
          · obtain ⟨_, h2⟩ := key ([',', ' '] ++ sepBy [',', ' '] (paren u :: us.map paren)) [] (by simpa using he)
            simp at h2
          · simp
        | cons u' us' =>
          simp only [List.map_cons] at he
          rw [sepBy_cons2, sepBy_cons2, List.append_assoc, List.append_assoc] at he
          obtain ⟨rfl, h2⟩ := key _ _ he
          have h3 := List.append_cancel_left h2
          rw [← List.map_cons, ← List.map_cons] at h3
          rw [ih (fun k hk => h k (List.mem_cons_of_mem _ hk)) (fun k hk => h' k (List.mem_cons_of_mem _ hk)) h3]

theorem showAllGo_eq (one : Feature → Res Text) (all : List Feature) (tx : Feature → Text) (h : ∀ e ∈ all, one e = .ok (tx e)) (k : Nat)
    (b : Text) : showAllGo one (all.zipIdx (k + 1)) b = .ok (b ++ all.flatMap fun e => [',', ' '] ++ tx e) := by
  induction all generalizing k b with
  | nil => simp [showAllGo]
  | cons e all ih =>
    simp only [List.zipIdx_cons, showAllGo, h e (by simp), Res.bind_ok]
    rw [ih (fun e he => h e (by simp [he]))]
    simp

theorem sepBy_eq (t : Text) (ts : List Text) : sepBy [',', ' '] (t :: ts) = t ++ ts.flatMap fun e => [',', ' '] ++ e := by
  induction ts generalizing t with
  | nil => simp [sepBy]
  | cons u us ih =>
    rw [sepBy, ih]
    · simp
    · simp

theorem showAll_eq (one : Feature → Res Text) (all : List Feature) (tx : Feature → Text) (h : ∀ e ∈ all, one e = .ok (tx e)) :
    showAllGo one all.zipIdx [] = .ok (sepBy [',', ' '] (all.map tx)) := by
  cases all with
  | nil => rfl
  | cons e all =>
    simp only [List.zipIdx_cons, showAllGo, h e (by simp), Res.bind_ok, List.map_cons]
    rw [showAllGo_eq one all tx (fun e he => h e (by simp [he])), sepBy_eq, List.flatMap_map]
    simp

theorem showNat_token (n : Nat) : IsToken (showNat n) := by
  intro c hc
  obtain ⟨d, hd, rfl⟩ := showNat_digits n c hc
  interval_cases d <;> decide

theorem showNat_inj {a b : Nat} (h : showNat a = showNat b) : a = b := by
  have h1 := showNat_fold a
  rw [h, showNat_fold b] at h1
  injection h1 with h1
  exact h1.symm

theorem showNat_ne_max (n : Nat) : showNat n ≠ ['M', 'A', 'X'] := by
  intro h
  obtain ⟨d, hd, h1⟩ := showNat_digits n 'M' (by rw [h]; simp)
  interval_cases d <;> exact absurd h1 (by decide)

/-! ## Edges -/

/-- The edges have the same end points (the first two points), in any order. -/
def SameEnds (e e' : Feature) : Prop := (e.points.take 2).Perm (e'.points.take 2)

theorem two_points {e : Feature} (h : 2 ≤ e.points.length) : ∃ a b r, e.points = a :: b :: r := by
  obtain ⟨k, p, m⟩ := e
  match p, h with
  | a :: b :: r, _ => exact ⟨a, b, r, rfl⟩

/-- **C82.** The text of an edge: its two ends, the smaller first. -/
theorem C82_edge_text (e : Feature) (a b : Nat) (r : List Nat) (h : e.points = a :: b :: r) :
    showEdge e = .ok ("(".toList ++ showNat (min a b) ++ ", ".toList ++ showNat (max a b) ++ ")".toList) := by
  unfold showEdge Feature.edgeKey
  have h0 : Res.idx e.points 0 = .ok a := by rw [h]; rfl
  have h1 : Res.idx e.points 1 = .ok b := by rw [h]; rfl
  simp only [h0, h1, Res.bind_ok]
  change Res.ok _ = Res.ok _
  congr 1
  have hs : sort2 a b = (min a b, max a b) := by
    unfold sort2
    split
    · rw [min_eq_right (by omega), max_eq_left (by omega)]
    · rw [min_eq_left (by omega), max_eq_right (by omega)]
  rw [hs]
  simp [sepBy]

/-- The tokens of an edge. -/
def edgeToks (e : Feature) : List Text := [showNat (min (e.points.getD 0 0) (e.points.getD 1 0)), showNat (max (e.points.getD 0 0) (e.points.getD 1 0))]

theorem showEdge_eq (e : Feature) (h : 2 ≤ e.points.length) : showEdge e = .ok (paren (edgeToks e)) := by
  obtain ⟨a, b, r, hp⟩ := two_points h
  rw [C82_edge_text e a b r hp]
  simp [paren, edgeToks, hp, sepBy]

theorem edgeToks_eq (e e' : Feature) (h : 2 ≤ e.points.length) (h' : 2 ≤ e'.points.length) : edgeToks e = edgeToks e' ↔ SameEnds e e' := by
  obtain ⟨a, b, r, hp⟩ := two_points h
  obtain ⟨a', b', r', hp'⟩ := two_points h'
  unfold edgeToks SameEnds
  simp only [hp, hp', List.getD_cons_zero, List.getD_cons_succ, List.take_succ_cons, List.take_zero]
  have hperm : [a, b].Perm [a', b'] ↔ (a = a' ∧ b = b') ∨ (a = b' ∧ b = a') := by
    constructor
    · intro h
      have ha : a ∈ [a', b'] := h.subset (by simp)
      simp only [List.mem_cons, List.not_mem_nil, or_false] at ha
      rcases ha with rfl | rfl
      · have h2 := List.Perm.cons_inv h
        rw [List.singleton_perm_singleton] at h2
        exact Or.inl ⟨rfl, h2⟩
      · have h2 := List.Perm.cons_inv (h.trans (List.Perm.swap _ _ _))
        rw [List.singleton_perm_singleton] at h2
        exact Or.inr ⟨rfl, h2⟩
    · rintro (⟨rfl, rfl⟩ | ⟨rfl, rfl⟩)
      · rfl
      · exact List.Perm.swap _ _ _
  rw [hperm]
  constructor
  · intro h
    simp only [List.cons.injEq, and_true] at h
    have h1 := showNat_inj h.1
    have h2 := showNat_inj h.2
    omega
  · rintro (⟨rfl, rfl⟩ | ⟨rfl, rfl⟩)
    · rfl
    · rw [min_comm, max_comm]

theorem map_eq_iff {α β : Type} (f : α → β) (R : α → α → Prop) {l l' : List α} (h : ∀ a ∈ l, ∀ b ∈ l', f a = f b ↔ R a b) :
    l.map f = l'.map f ↔ List.Forall₂ R l l' := by
  induction l generalizing l' with
  | nil => cases l' <;> simp
  | cons a l ih =>
    cases l' with
    | nil => simp
    | cons b l' =>
      rw [List.map_cons, List.map_cons, List.cons.injEq, List.forall₂_cons, h a (by simp) b (by simp),
        ih (fun a ha b hb => h a (by simp [ha]) b (by simp [hb]))]

/-- **C82.** A list of edges is always shown, and two lists are shown as the same text exactly if they consist of edges with the same
ends, one by one. -/
theorem C82_edges_shown (all all' : List Feature) (h : ∀ e ∈ all, 2 ≤ e.points.length) (h' : ∀ e ∈ all', 2 ≤ e.points.length) :
    ∃ t t', showEdges all = .ok t ∧ showEdges all' = .ok t' ∧ (t = t' ↔ List.Forall₂ SameEnds all all') := by
  refine ⟨_, _, showAll_eq _ _ (fun e => paren (edgeToks e)) (fun e he => showEdge_eq e (h e he)),
    showAll_eq _ _ (fun e => paren (edgeToks e)) (fun e he => showEdge_eq e (h' e he)), ?_⟩
  rw [← map_eq_iff edgeToks SameEnds (fun a ha b hb => edgeToks_eq a b (h a ha) (h' b hb))]
  have ht : ∀ e : Feature, edgeToks e ≠ [] ∧ ∀ t ∈ edgeToks e, IsToken t := by
    intro e
    refine ⟨by simp [edgeToks], ?_⟩
    intro t ht
    simp only [edgeToks, List.mem_cons, List.not_mem_nil, or_false] at ht
    rcases ht with rfl | rfl <;> exact showNat_token _
  have hm : ∀ l : List Feature, l.map (fun e => paren (edgeToks e)) = (l.map edgeToks).map paren := by
    intro l; simp
  rw [hm, hm]
  constructor
  · intro he
    refine parens_inj ?_ ?_ he
    · intro k hk
      obtain ⟨e, _, rfl⟩ := List.mem_map.1 hk
      exact ht e
    · intro k hk
      obtain ⟨e, _, rfl⟩ := List.mem_map.1 hk
      exact ht e
  · intro he; rw [he]

example : showEdges [⟨.lin3, [7, 3, 10], 1⟩, ⟨.lin2, [0, 12], 0⟩] = .ok "(3, 7), (0, 12)".toList := by decide +kernel

/-! ## Faces -/

/-- The faces have the same corners as shown: the same first four points (or three, if there are no more), in any order. -/
def SameCorners (f f' : Feature) : Prop := (f.points.take 4).Perm (f'.points.take 4)

/-- The tokens of a face. -/
def faceToks (f : Feature) : List Text :=
  ((f.points.take 4).insertionSort (· ≤ ·)).map showNat ++ if f.points.length = 3 then [['M', 'A', 'X']] else []

theorem sorted_four (l : List Nat) (h : l.Pairwise (· ≤ ·)) (l' : List Nat) (hp : l.Perm l') : l'.insertionSort (· ≤ ·) = l := by
  refine List.Perm.eq_of_pairwise' (List.pairwise_insertionSort (· ≤ ·) l') h ?_
  exact (List.perm_insertionSort (· ≤ ·) l').trans hp.symm

theorem insertionSort_max (a b c M : Nat) (ha : a ≤ M) (hb : b ≤ M) (hc : c ≤ M) :
    [a, b, c, M].insertionSort (· ≤ ·) = [a, b, c].insertionSort (· ≤ ·) ++ [M] := by
  refine sorted_four _ ?_ _ ?_
  · rw [List.pairwise_append]
    refine ⟨List.pairwise_insertionSort _ _, by simp, ?_⟩
    intro x hx y hy
    rw [List.mem_insertionSort] at hx
    simp only [List.mem_cons, List.not_mem_nil, or_false] at hx hy
    subst hy
    rcases hx with rfl | rfl | rfl <;> assumption
  · exact ((List.perm_insertionSort _ _).append_right [M]).trans (by rfl)

theorem showFace_eq (f : Feature) (h : 3 ≤ f.points.length) (hm : ∀ p ∈ f.points, p < usizeMax) : showFace f = .ok (paren (faceToks f)) := by
  obtain ⟨k, p, m⟩ := f
  match p, h, hm with
  | a :: b :: c :: r, _, hm =>
    cases r with
    | nil =>
      have hk : Feature.faceKey ⟨k, [a, b, c], m⟩ = .ok (sort4 a b c usizeMax) := rfl
      unfold showFace
      rw [hk]
      simp only [Res.bind_ok]
      rw [if_pos (by rfl)]
      change Res.ok _ = Res.ok _
      congr 1
      have h1 := sort4_toList a b c usizeMax
      rw [insertionSort_max a b c usizeMax (hm a (by simp)).le (hm b (by simp)).le (hm c (by simp)).le] at h1
      have hl : ([a, b, c].insertionSort (· ≤ ·)).length = 3 := by rw [List.length_insertionSort]; rfl
      unfold paren faceToks
      rw [if_pos (by rfl)]
      change _ = '(' :: sepBy _ (([a, b, c].insertionSort (· ≤ ·)).map showNat ++ _) ++ _
      generalize [a, b, c].insertionSort (· ≤ ·) = s at h1 hl
      match s, hl with
      | [x, y, z], _ =>
        generalize sort4 a b c usizeMax = q at h1
        obtain ⟨q1, q2, q3, q4⟩ := q
        simp only [FaceKey.toList, List.cons_append, List.nil_append, List.cons.injEq, and_true] at h1
        obtain ⟨rfl, rfl, rfl, _⟩ := h1
        simp
    | cons d r =>
      have hk : Feature.faceKey ⟨k, a :: b :: c :: d :: r, m⟩ = .ok (sort4 a b c d) := by
        unfold Feature.faceKey
        simp [Res.idx]
      unfold showFace
      rw [hk]
      simp only [Res.bind_ok]
      rw [if_neg (by simp)]
      change Res.ok _ = Res.ok _
      congr 1
      have h1 := sort4_toList a b c d
      unfold paren faceToks
      rw [if_neg (by simp)]
      change _ = '(' :: sepBy _ (([a, b, c, d].insertionSort (· ≤ ·)).map showNat ++ _) ++ _
      rw [← h1]
      simp [FaceKey.toList]

theorem map_showNat_inj {l l' : List Nat} (h : l.map showNat = l'.map showNat) : l = l' :=
  List.map_injective_iff.2 (fun _ _ => showNat_inj) h

theorem sort_eq_iff (l l' : List Nat) : l.insertionSort (· ≤ ·) = l'.insertionSort (· ≤ ·) ↔ l.Perm l' := by
  constructor
  · intro h
    exact (List.perm_insertionSort (· ≤ ·) l).symm.trans (h ▸ List.perm_insertionSort (· ≤ ·) l')
  · intro h
    refine sorted_four _ (List.pairwise_insertionSort _ _) _ ((List.perm_insertionSort _ _).trans h.symm)

theorem faceToks_eq (f f' : Feature) (h : 3 ≤ f.points.length) (h' : 3 ≤ f'.points.length) : faceToks f = faceToks f' ↔ SameCorners f f' := by
  unfold faceToks SameCorners
  rw [← sort_eq_iff]
  have hlen : ((f.points.take 4).insertionSort (· ≤ ·)).length = min 4 f.points.length := by
    rw [List.length_insertionSort, List.length_take]
  have hlen' : ((f'.points.take 4).insertionSort (· ≤ ·)).length = min 4 f'.points.length := by
    rw [List.length_insertionSort, List.length_take]
  generalize (f.points.take 4).insertionSort (· ≤ ·) = s at *
  generalize (f'.points.take 4).insertionSort (· ≤ ·) = s' at *
  constructor
  · intro he
    by_cases h3 : f.points.length = 3 <;> by_cases h3' : f'.points.length = 3
    · rw [if_pos h3, if_pos h3'] at he
      exact map_showNat_inj (List.append_cancel_right he)
    · rw [if_pos h3, if_neg h3', List.append_nil] at he
      exfalso
      have : ['M', 'A', 'X'] ∈ s'.map showNat := by rw [← he]; simp
      obtain ⟨n, _, hn⟩ := List.mem_map.1 this
      exact showNat_ne_max n hn
    · rw [if_neg h3, if_pos h3', List.append_nil] at he
      exfalso
      have : ['M', 'A', 'X'] ∈ s.map showNat := by rw [he]; simp
      obtain ⟨n, _, hn⟩ := List.mem_map.1 this
      exact showNat_ne_max n hn
    · rw [if_neg h3, if_neg h3', List.append_nil, List.append_nil] at he
      exact map_showNat_inj he
  · rintro rfl
    have : f.points.length = 3 ↔ f'.points.length = 3 := by omega
    simp only [this]

/-- **C82.** The text of a face with three points: the points in ascending order and the word `MAX`; of a face with more points: its first
four points in ascending order. -/
theorem C82_face_text (f : Feature) (h : 3 ≤ f.points.length) (hm : ∀ p ∈ f.points, p < usizeMax) :
    (∀ a b c, a ≤ b → b ≤ c → f.points.Perm [a, b, c] →
      showFace f = .ok ("(".toList ++ showNat a ++ ", ".toList ++ showNat b ++ ", ".toList ++ showNat c ++ ", MAX)".toList)) ∧
    (∀ a b c d, a ≤ b → b ≤ c → c ≤ d → (f.points.take 4).Perm [a, b, c, d] →
      showFace f = .ok ("(".toList ++ showNat a ++ ", ".toList ++ showNat b ++ ", ".toList ++ showNat c ++ ", ".toList ++ showNat d ++
        ")".toList)) := by
  rw [showFace_eq f h hm]
  constructor
  · intro a b c hab hbc hp
    have hl := hp.length_eq
    simp only [List.length_cons, List.length_nil] at hl
    have hs : (f.points.take 4).insertionSort (· ≤ ·) = [a, b, c] := by
      rw [List.take_of_length_le (by omega)]
      refine sorted_four _ ?_ _ hp.symm
      simp only [List.pairwise_cons, List.mem_cons, List.not_mem_nil, or_false]
      refine ⟨?_, ?_, ?_, List.Pairwise.nil⟩
      · rintro x (rfl | rfl) <;> omega
      · rintro x rfl; omega
      · rintro x hx; exact absurd hx id
    unfold paren faceToks
    rw [hs, if_pos hl]
    simp [sepBy]
  · intro a b c d hab hbc hcd hp
    have hl := hp.length_eq
    simp only [List.length_cons, List.length_nil, List.length_take] at hl
    have hs : (f.points.take 4).insertionSort (· ≤ ·) = [a, b, c, d] := by
      refine sorted_four _ ?_ _ hp.symm
      simp only [List.pairwise_cons, List.mem_cons, List.not_mem_nil, or_false]
      refine ⟨?_, ?_, ?_, ?_, List.Pairwise.nil⟩
      · rintro x (rfl | rfl | rfl) <;> omega
      · rintro x (rfl | rfl) <;> omega
      · rintro x rfl; omega
      · rintro x hx; exact absurd hx id
    unfold paren faceToks
    rw [hs, if_neg (by omega)]
    simp [sepBy]

/-- **C82.** A list of faces is always shown, and two lists are shown as the same text exactly if they consist of faces with the same
corners, one by one. -/
theorem C82_faces_shown (all all' : List Feature) (h : ∀ f ∈ all, 3 ≤ f.points.length ∧ ∀ p ∈ f.points, p < usizeMax)
    (h' : ∀ f ∈ all', 3 ≤ f.points.length ∧ ∀ p ∈ f.points, p < usizeMax) :
    ∃ t t', showFaces all = .ok t ∧ showFaces all' = .ok t' ∧ (t = t' ↔ List.Forall₂ SameCorners all all') := by
  refine ⟨_, _, showAll_eq _ _ (fun e => paren (faceToks e)) (fun e he => showFace_eq e (h e he).1 (h e he).2),
    showAll_eq _ _ (fun e => paren (faceToks e)) (fun e he => showFace_eq e (h' e he).1 (h' e he).2), ?_⟩
  rw [← map_eq_iff faceToks SameCorners (fun a ha b hb => faceToks_eq a b (h a ha).1 (h' b hb).1)]
  have ht : ∀ l : List Feature, (∀ f ∈ l, 3 ≤ f.points.length ∧ ∀ p ∈ f.points, p < usizeMax) →
      ∀ k ∈ l.map faceToks, k ≠ [] ∧ ∀ t ∈ k, IsToken t := by
    intro l hl k hk
    obtain ⟨e, he, rfl⟩ := List.mem_map.1 hk
    constructor
    · intro h0
      have := congrArg List.length h0
      simp only [faceToks, List.length_append, List.length_map, List.length_insertionSort, List.length_take, List.length_nil] at this
      have := (hl e he).1
      omega
    intro t ht
    simp only [faceToks, List.mem_append, List.mem_map] at ht
    rcases ht with ⟨n, _, rfl⟩ | ht
    · exact showNat_token n
    · split at ht
      · simp only [List.mem_cons, List.not_mem_nil, or_false] at ht
        subst ht
        unfold IsToken; decide
      · simp at ht
  have hm : ∀ l : List Feature, l.map (fun e => paren (faceToks e)) = (l.map faceToks).map paren := by
    intro l; simp
  rw [hm, hm]
  constructor
  · intro he
    exact parens_inj (ht all h) (ht all' h') he
  · intro he; rw [he]

example : showFaces [⟨.tri3, [7, 3, 10], 1⟩, ⟨.qua4, [5, 4, 12, 0], 0⟩] = .ok "(3, 7, 10, MAX), (0, 4, 5, 12)".toList := by decide +kernel

/-- Witness: a face with six points is shown with a middle point of an edge among its four numbers. -/
theorem C82_tri6_face : showFace ⟨.tri6, [0, 1, 2, 3, 4, 5], 0⟩ = .ok "(0, 1, 2, 3)".toList := by decide +kernel

end Gemlab.Reports
