import Verif.Model.Reports
import Verif.Props.GraphUnd
import Verif.Lib.ResList
import Mathlib.Data.Finset.Prod
import Mathlib.Algebra.Order.Field.Basic
import Mathlib.Data.Nat.Choose.Basic
import Mathlib.Tactic.Ring
import Mathlib.Tactic.FieldSimp
import Mathlib.Tactic.LinearCombination
import Mathlib.Algebra.Order.Field.Rat

/-!
# C82 — statistics and printed summaries (undirected graphs)
-/
namespace Gemlab.Reports
open Gemlab Gemlab.MeshText Gemlab.Spec Gemlab.Props.GraphUnd Gemlab.GraphUnd

/-! ## Specification -/

open Classical in
/-- The links of a graph with `n` nodes: unordered pairs of different nodes. -/
noncomputable def links (src : Source) : Finset (Nat × Nat) :=
  ((Finset.range src.n) ×ˢ (Finset.range src.n)).filter fun p => p.1 < p.2 ∧ src.Adj p.1 p.2

/-- All unordered pairs of different nodes. -/
def pairs (n : Nat) : Finset (Nat × Nat) := ((Finset.range n) ×ˢ (Finset.range n)).filter fun p => p.1 < p.2

/-! ## Proofs -/

theorem pairs_card (n : Nat) : 2 * (pairs n).card = n * (n - 1) := by
  induction n with
  | zero => rfl
  | succ n ih =>
    have h : pairs (n + 1) = pairs n ∪ (Finset.range n).image fun a => (a, n) := by
      ext ⟨a, b⟩
      simp only [pairs, Finset.mem_filter, Finset.mem_product, Finset.mem_range, Finset.mem_union, Finset.mem_image, Prod.mk.injEq]
      constructor
      · rintro ⟨⟨h1, h2⟩, h3⟩
        by_cases hb : b = n
        · right; exact ⟨a, by omega, rfl, hb.symm⟩
        · left; omega
      · rintro (⟨⟨h1, h2⟩, h3⟩ | ⟨c, hc, rfl, rfl⟩) <;> omega
    have hd : Disjoint (pairs n) ((Finset.range n).image fun a => (a, n)) := by
      rw [Finset.disjoint_left]
      rintro ⟨a, b⟩ h1 h2
      simp only [pairs, Finset.mem_filter, Finset.mem_product, Finset.mem_range, Finset.mem_image, Prod.mk.injEq] at h1 h2
      obtain ⟨c, _, _, rfl⟩ := h2
      omega
    rw [h, Finset.card_union_of_disjoint hd, Finset.card_image_of_injective _ (fun a b h => by simpa using h), Finset.card_range,
      Nat.mul_add, ih]
    cases n with
    | zero => rfl
    | succ n => simp only [Nat.add_sub_cancel]; ring

theorem links_sub (src : Source) : links src ⊆ pairs src.n := by
  intro p hp
  simp only [links, pairs, Finset.mem_filter] at hp ⊢
  exact ⟨hp.1, hp.2.1⟩

/-- **C82.** The number of nodes is that of the source; without self-loops, the number of edges is the number of linked unordered pairs
of nodes. -/
theorem C82_counts (src : Source) (hw : src.WF) (cd : Bool) (g : Graph) (hg : IsGraphOf src cd g) :
    undNnode g = src.n ∧ ((∀ a, ¬ src.Adj a a) → undNedge g = (links src).card) := by
  have F := hg.facts hw
  refine ⟨F.len, fun hs => ?_⟩
  obtain ⟨h1, h2, h3⟩ := C08_edge_list src hw cd g hg
  have hr : ∀ a b, src.Adj a b → a < src.n := by
    intro a b h
    have := (C08_has_edge_and_degree src hw cd g hg).1 a b |>.2 h
    unfold hasEdge at this
    rw [← F.len]
    by_contra hc
    rw [if_pos (Or.inl (by omega))] at this
    exact absurd this (by simp)
  have hr2 : ∀ a b, src.Adj a b → b < src.n := by
    intro a b h
    have := (C08_has_edge_and_degree src hw cd g hg).1 a b |>.2 h
    rw [(C08_has_edge_and_degree src hw cd g hg).2.1] at this
    exact hr b a ((C08_has_edge_and_degree src hw cd g hg).1 b a |>.1 this)
  unfold undNedge
  rw [h3 hs, ← List.toFinset_card_of_nodup h1]
  congr 1
  ext ⟨a, b⟩
  simp only [List.mem_toFinset, h2, links, Finset.mem_filter, Finset.mem_product, Finset.mem_range]
  constructor
  · rintro ⟨h, h'⟩; exact ⟨⟨hr _ _ h', hr2 _ _ h'⟩, h, h'⟩
  · rintro ⟨_, h⟩; exact h

example : ((fromEdges [(0, 1), (1, 2), (2, 0), (2, 3)] true true).bind fun g => .ok (undNnode g, undNedge g)) = .ok (4, 4) := by decide +kernel

/-- **C82.** The density: 0 for fewer than two nodes; otherwise, without self-loops, the fraction of the pairs of nodes that are linked:
between 0 and 1, equal to 0 exactly if there are no links and to 1 exactly if every two nodes are linked. Exact arithmetic. -/
theorem C82_density {K : Type} [Field K] [LinearOrder K] [IsStrictOrderedRing K] (src : Source) (hw : src.WF) (cd : Bool) (g : Graph)
    (hg : IsGraphOf src cd g) :
    (src.n ≤ 1 → density (K := K) g = 0) ∧
    (2 ≤ src.n → (∀ a, ¬ src.Adj a a) →
      density (K := K) g * ((pairs src.n).card : K) = ((links src).card : K) ∧ 0 ≤ density (K := K) g ∧ density (K := K) g ≤ 1 ∧
      (density (K := K) g = 0 ↔ ∀ a b, ¬ src.Adj a b) ∧
      (density (K := K) g = 1 ↔ ∀ a b, a < src.n → b < src.n → a ≠ b → src.Adj a b)) := by
  have F := hg.facts hw
  have hc := C82_counts src hw cd g hg
  constructor
  · intro h
    unfold density
    simp only [F.len]
    rw [if_pos]
    exact_mod_cast h
  · intro h hs
    have he : g.nedge = (links src).card := hc.2 hs
    have hp : 0 < (pairs src.n).card := by
      have := pairs_card src.n
      have h2 : 0 < src.n * (src.n - 1) := Nat.mul_pos (by omega) (by omega)
      omega
    have hpK : (0 : K) < ((pairs src.n).card : K) := by exact_mod_cast hp
    have hd : density (K := K) g = ((links src).card : K) / ((pairs src.n).card : K) := by
      unfold density
      simp only [F.len, he]
      rw [if_neg]
      · have hk : (2 : K) * ((pairs src.n).card : K) = (src.n : K) * ((src.n : K) - 1) := by
          have h1 := congrArg (Nat.cast (R := K)) (pairs_card src.n)
          push_cast [Nat.cast_sub (show 1 ≤ src.n by omega)] at h1
          exact h1
        rw [← hk]
        field_simp
      · rw [not_le]
        exact_mod_cast h
    have hle : (links src).card ≤ (pairs src.n).card := Finset.card_le_card (links_sub src)
    have hsym := (C08_has_edge_and_degree src hw cd g hg).2.1
    have hE := (C08_has_edge_and_degree src hw cd g hg).1
    have hsymm : ∀ a b, src.Adj a b → src.Adj b a := by
      intro a b h
      rw [← hE, hsym, hE]; exact h
    have hr : ∀ a b, src.Adj a b → a < src.n := by
      intro a b h
      have := (hE a b).2 h
      unfold hasEdge at this
      rw [← F.len]
      by_contra hc
      rw [if_pos (Or.inl (by omega))] at this
      exact absurd this (by simp)
    refine ⟨?_, ?_, ?_, ?_, ?_⟩
    · rw [hd]; field_simp
    · rw [hd]; positivity
    · rw [hd, div_le_one hpK]; exact_mod_cast hle
    · rw [hd, div_eq_zero_iff, or_iff_left (ne_of_gt hpK)]
      constructor
      · intro h0 a b hab
        have h0' : (links src).card = 0 := by exact_mod_cast h0
        rw [Finset.card_eq_zero] at h0'
        rcases lt_trichotomy a b with hlt | rfl | hgt
        · have : (a, b) ∈ links src := by
            simp only [links, Finset.mem_filter, Finset.mem_product, Finset.mem_range]
            exact ⟨⟨hr _ _ hab, hr _ _ (hsymm _ _ hab)⟩, hlt, hab⟩
          rw [h0'] at this; simp at this
        · exact hs _ hab
        · have : (b, a) ∈ links src := by
            simp only [links, Finset.mem_filter, Finset.mem_product, Finset.mem_range]
            exact ⟨⟨hr _ _ (hsymm _ _ hab), hr _ _ hab⟩, hgt, hsymm _ _ hab⟩
          rw [h0'] at this; simp at this
      · intro h0
        have : links src = ∅ := by
          rw [Finset.eq_empty_iff_forall_notMem]
          rintro ⟨a, b⟩ hm
          simp only [links, Finset.mem_filter] at hm
          exact h0 _ _ hm.2.2
        rw [this]; simp
    · rw [hd, div_eq_one_iff_eq (ne_of_gt hpK)]
      constructor
      · intro h1 a b ha hb hne
        have h1' : (links src).card = (pairs src.n).card := by exact_mod_cast h1
        have heq := Finset.eq_of_subset_of_card_le (links_sub src) h1'.ge
        have key : ∀ a b, a < src.n → b < src.n → a < b → src.Adj a b := by
          intro a b ha hb hlt
          have : (a, b) ∈ links src := by
            rw [heq]; simp only [pairs, Finset.mem_filter, Finset.mem_product, Finset.mem_range]; exact ⟨⟨ha, hb⟩, hlt⟩
          simp only [links, Finset.mem_filter] at this
          exact this.2.2
        rcases lt_or_gt_of_ne hne with h | h
        · exact key a b ha hb h
        · exact hsymm _ _ (key b a hb ha h)
      · intro h1
        have : links src = pairs src.n := by
          apply Finset.Subset.antisymm (links_sub src)
          rintro ⟨a, b⟩ hm
          simp only [pairs, links, Finset.mem_filter, Finset.mem_product, Finset.mem_range] at hm ⊢
          exact ⟨hm.1, hm.2, h1 a b hm.1.1 hm.1.2 (by omega)⟩
        rw [this]

/-- Witness: with self-loops the density may exceed one. -/
theorem C82_density_self_loops : ((fromEdges [(0, 0), (1, 1), (0, 1)] true true).bind fun g => .ok (density (K := ℚ) g)) = .ok 2 := by
  decide +kernel

example : ∃ g, IsGraphOf exEdges true g ∧ 2 ≤ exEdges.n ∧ ∀ a, ¬ exEdges.Adj a a := by
  obtain ⟨g, hg⟩ := C01_without_check exEdges exEdges_wf true
  refine ⟨g, isGraphOf_of_build exEdges_wf hg, by decide, ?_⟩
  intro a h
  simp [exEdges, Source.Adj] at h
  omega

/-! ## The printed pattern -/

theorem foldlM_set (n : Nat) (nbr : List Nat) (h : ∀ j ∈ nbr, j < n) (row : Text) (hrow : row.length = n) :
    ∃ r : Text, nbr.foldlM (fun row j => Res.setIdx row j '#') row = Res.ok r ∧ r.length = n ∧
      ∀ (j : Nat), j < n → r[j]? = if j ∈ nbr then some '#' else row[j]? := by
  induction nbr generalizing row with
  | nil => exact ⟨row, rfl, hrow, fun j _ => by simp⟩
  | cons a nbr ih =>
    have ha : a < row.length := by rw [hrow]; exact h a (by simp)
    obtain ⟨r, h1, h2, h3⟩ := ih (fun j hj => h j (by simp [hj])) (row.set a '#') (by simpa using hrow)
    refine ⟨r, ?_, h2, ?_⟩
    · rw [List.foldlM_cons]
      have : Res.setIdx row a '#' = .ok (row.set a '#') := by unfold Res.setIdx; rw [if_pos ha]
      rw [this]
      exact h1
    · intro j hj
      rw [h3 j hj]
      by_cases hja : j = a
      · subst hja
        simp [ha]
      · simp only [List.mem_cons, hja, false_or]
        rw [List.getElem?_set_ne (Ne.symm hja)]

theorem flatMap_pair_length (row : Text) : (row.flatMap fun s => [' ', s]).length = 2 * row.length := by
  induction row with
  | nil => rfl
  | cons c row ih => simp only [List.flatMap_cons, List.length_append, ih, List.length_cons, List.length_nil]; omega

theorem flatMap_pair_get (row : Text) (j : Nat) (c : Char) (h : row[j]? = some c) :
    (row.flatMap fun s => [' ', s])[2 * j]? = some ' ' ∧ (row.flatMap fun s => [' ', s])[2 * j + 1]? = some c := by
  induction row generalizing j with
  | nil => simp at h
  | cons d row ih =>
    cases j with
    | zero => simp at h; subst h; simp
    | succ j =>
      simp at h
      have := ih j h
      rw [show 2 * (j + 1) = 2 * j + 2 by ring]
      simpa [List.flatMap_cons] using this

/-- One line of the printed pattern of a graph with `n` nodes. -/
structure IsPatternRow (src : Source) (i : Nat) (r : Text) : Prop where
  width : r.length = 2 * src.n + 3
  left : r[0]? = some '│'
  right : r[2 * src.n + 2]? = some '│'
  last : r[2 * src.n + 1]? = some ' '
  blank : ∀ j < src.n, r[2 * j + 1]? = some ' '
  linked : ∀ j < src.n, src.Adj i j → r[2 * j + 2]? = some '#'
  diagonal : i < src.n → ¬ src.Adj i i → r[2 * i + 2]? = some 'D'
  apart : ∀ j < src.n, j ≠ i → ¬ src.Adj i j → r[2 * j + 2]? = some '.'

/-- **C82.** The printed pattern: a frame of width `2n+3` and one line for each node, whose `j`-th symbol is `#` if the nodes are linked,
`D` on the diagonal and `.` elsewhere. -/
theorem C82_pattern (src : Source) (hw : src.WF) (cd : Bool) (g : Graph) (hg : IsGraphOf src cd g) :
    ∃ rows : List Text, rows.length = src.n ∧ (∀ (i : Nat) r, rows[i]? = some r → IsPatternRow src i r) ∧
      printPattern g = .ok (['\n', '┌'] ++ List.replicate (2 * src.n + 1) ' ' ++ ['┐', '\n'] ++ (rows.flatMap fun r => r ++ ['\n']) ++
        ['└'] ++ List.replicate (2 * src.n + 1) ' ' ++ ['┘', '\n']) := by
  have F := hg.facts hw
  have hE := (C08_has_edge_and_degree src hw cd g hg).1
  have hrow : ∀ (i : Nat) nbr, g.adjacency[i]? = some nbr → ∃ r : Text, patternRow g.adjacency.length i nbr = .ok r ∧
      r.length = src.n ∧ ∀ j < src.n, ∃ c, r[j]? = some c ∧ (src.Adj i j → c = '#') ∧ (i = j → ¬ src.Adj i j → c = 'D') ∧
        (j ≠ i → ¬ src.Adj i j → c = '.') := by
    intro i nbr hi
    have hil : i < g.adjacency.length := (List.getElem?_eq_some_iff.1 hi).1
    obtain ⟨row, hrow1, hnd, hmem, _⟩ := (C08_has_edge_and_degree src hw cd g hg).2.2 i (by rw [← F.len]; exact hil)
    rw [hi] at hrow1
    injection hrow1 with hrow1
    subst hrow1
    have hb : ∀ j ∈ nbr, j < g.adjacency.length := by
      intro j hj
      have := (hE i j).2 ((hmem j).1 hj)
      unfold hasEdge at this
      by_contra hc
      rw [if_pos (Or.inr (by omega))] at this
      exact absurd this (by simp)
    obtain ⟨r, h1, h2, h3⟩ := foldlM_set g.adjacency.length nbr hb ((List.replicate g.adjacency.length '.').set i 'D') (by simp)
    refine ⟨r, ?_, by rw [h2, F.len], ?_⟩
    · unfold patternRow
      have : Res.setIdx (List.replicate g.adjacency.length '.') i 'D' = .ok ((List.replicate g.adjacency.length '.').set i 'D') := by
        unfold Res.setIdx; rw [if_pos (by simpa using hil)]
      rw [this]
      exact h1
    · intro j hj
      rw [← F.len] at hj
      rw [h3 j hj]
      by_cases ha : src.Adj i j
      · rw [if_pos ((hmem j).2 ha)]
        exact ⟨_, rfl, fun _ => rfl, fun _ h => absurd ha h, fun _ h => absurd ha h⟩
      · rw [if_neg (fun h => ha ((hmem j).1 h))]
        by_cases hji : i = j
        · subst hji
          refine ⟨'D', by simp [hj], fun h => absurd h ha, fun _ _ => rfl, fun h => absurd rfl h⟩
        · refine ⟨'.', by rw [List.getElem?_set_ne hji]; simp [hj], fun h => absurd h ha, fun h => absurd h hji, fun _ _ => rfl⟩
  obtain ⟨rs, hrs, hall⟩ : ∃ rs : List Text, (g.adjacency.zipIdx.mapM fun (p : List Nat × Nat) =>
      patternRow g.adjacency.length p.2 p.1) = .ok rs ∧ List.Forall₂ (fun (p : List Nat × Nat) r =>
        patternRow g.adjacency.length p.2 p.1 = .ok r) g.adjacency.zipIdx rs := by
    have : ∀ p ∈ g.adjacency.zipIdx, ∃ r, patternRow g.adjacency.length p.2 p.1 = .ok r := by
      rintro ⟨nbr, i⟩ hp
      obtain ⟨r, h, _⟩ := hrow i nbr (List.mem_zipIdx_iff_getElem?.1 hp)
      exact ⟨r, h⟩
    choose! f hf using this
    refine ⟨g.adjacency.zipIdx.map f, Res.mapM_eq_ok_of _ _ _ hf, ?_⟩
    rw [List.forall₂_map_right_iff]
    exact List.forall₂_same.2 hf
  have hlen : rs.length = src.n := by
    rw [← hall.length_eq, List.length_zipIdx, F.len]
  refine ⟨rs.map fun row => '│' :: (row.flatMap fun s => [' ', s]) ++ [' ', '│'], by simpa using hlen, ?_, ?_⟩
  · intro i r hr
    rw [List.getElem?_map] at hr
    rw [Option.map_eq_some_iff] at hr
    obtain ⟨row, hri, rfl⟩ := hr
    have hil : i < rs.length := (List.getElem?_eq_some_iff.1 hri).1
    have hz : g.adjacency.zipIdx[i]? = some (g.adjacency[i]'(by rw [F.len, ← hlen]; exact hil), i) := by
      rw [List.getElem?_zipIdx, List.getElem?_eq_getElem (by rw [F.len, ← hlen]; exact hil)]
      simp
    have h1 : patternRow g.adjacency.length i (g.adjacency[i]'(by rw [F.len, ← hlen]; exact hil)) = .ok row := by
      have h2 := List.forall₂_iff_get.1 hall
      have h3 := h2.2 i (by simpa [F.len, ← hlen] using hil) hil
      rw [List.getElem?_eq_some_iff] at hz hri
      simp only [List.get_eq_getElem] at h3
      rw [hz.2, hri.2] at h3
      exact h3
    obtain ⟨r, hr1, hr2, hr3⟩ := hrow i _ (List.getElem?_eq_getElem (by rw [F.len, ← hlen]; exact hil))
    rw [h1] at hr1
    injection hr1 with hr1
    subst hr1
    have hfl := flatMap_pair_length row
    rw [hr2] at hfl
    have hget : ∀ j < src.n, ∀ c, row[j]? = some c →
        ('│' :: (row.flatMap fun s => [' ', s]) ++ [' ', '│'])[2 * j + 2]? = some c ∧
        ('│' :: (row.flatMap fun s => [' ', s]) ++ [' ', '│'])[2 * j + 1]? = some ' ' := by
      intro j hj c hc
      obtain ⟨ha, hb⟩ := flatMap_pair_get row j c hc
      constructor
      · rw [List.cons_append, List.getElem?_cons_succ, List.getElem?_append_left (by omega)]; exact hb
      · rw [List.cons_append, List.getElem?_cons_succ, List.getElem?_append_left (by omega)]; exact ha
    refine ⟨by simp [hr2]; omega, rfl, ?_, ?_, ?_, ?_, ?_, ?_⟩
    · rw [List.cons_append, List.getElem?_cons_succ, List.getElem?_append_right (by omega)]
      rw [show 2 * src.n + 1 - (row.flatMap fun s => [' ', s]).length = 1 by omega]; rfl
    · rw [List.cons_append, List.getElem?_cons_succ, List.getElem?_append_right (by omega)]
      rw [show 2 * src.n - (row.flatMap fun s => [' ', s]).length = 0 by omega]; rfl
    · intro j hj
      obtain ⟨c, hc, _⟩ := hr3 j hj
      exact (hget j hj c hc).2
    · intro j hj ha
      obtain ⟨c, hc, h1, _⟩ := hr3 j hj
      rw [(hget j hj c hc).1, h1 ha]
    · intro hi ha
      obtain ⟨c, hc, _, h1, _⟩ := hr3 i hi
      rw [(hget i hi c hc).1, h1 rfl ha]
    · intro j hj hne ha
      obtain ⟨c, hc, _, _, h1⟩ := hr3 j hj
      rw [(hget j hj c hc).1, h1 hne ha]
  · unfold printPattern
    simp only [hrs, Res.bind_ok]
    have hbl : blanks (g.adjacency.length * 2 + 1) = List.replicate (2 * src.n + 1) ' ' := by
      unfold blanks; rw [F.len]; congr 1; omega
    rw [hbl, List.flatMap_map]
    have : (rs.flatMap patternLine) = rs.flatMap fun row => ('│' :: (row.flatMap fun s => [' ', s]) ++ [' ', '│']) ++ ['\n'] := by
      congr 1; funext row; unfold patternLine
      simp
    rw [this]
    rfl

end Gemlab.Reports
