import Verif.Proofs.UnstructuredRing3

/-! # Sides of the facets of a quarter of a ring -/
namespace Gemlab.Unstructured

/-- The next position on a closed polygon of `n` points. -/
def nxt (n j : Nat) : Nat := if j + 1 = n then 0 else j + 1

theorem nxt_mod {n j : Nat} (h : j < n) : (j + 1) % n = nxt n j := by
  unfold nxt
  by_cases hj : j + 1 = n
  · rw [if_pos hj, hj, Nat.mod_self]
  · rw [if_neg hj, Nat.mod_eq_of_lt (by omega)]

def facetLen (nr na k : Nat) : Nat := if k < 2 then 2 * nr + 2 * na else if k < 4 then 2 * (nr + 1) else 4

def cylPt (n a b m : Nat) : Nat := if m = 0 then a else if m = 1 then b else if m = 2 then n + b else n + a

/-- The point `m` of the facet `k`. -/
def facetPt (nr na k m : Nat) : Nat :=
  if k = 0 then m
  else if k = 1 then 2 * nr + 2 * na + m
  else if k = 2 then (if m ≤ nr then m else 2 * nr + 2 * na + (2 * nr + 1 - m))
  else if k = 3 then (if m ≤ nr then nr + na + (nr - m) else 2 * nr + 2 * na + (nr + na + (m - nr - 1)))
  else if k < 4 + na then cylPt (2 * nr + 2 * na) (nr + na + nr + (k - 4)) (nxt (2 * nr + 2 * na) (nr + na + nr + (k - 4))) m
  else cylPt (2 * nr + 2 * na) (nr + (k - 4 - na)) (nr + (k - 4 - na) + 1) m

theorem cyl_get (n a b m : Nat) (hm : m < 4) : [a, b, n + b, n + a][m]? = some (cylPt n a b m) := by
  interval_cases m <;> rfl

theorem facet_get (nr na k m : Nat) (hna : 1 ≤ na) (hk : k < 4 + 2 * na) (hm : m < facetLen nr na k) :
    (ringFacet nr na k).2[m]? = some (facetPt nr na k m) := by
  unfold ringFacet facetPt
  unfold facetLen at hm
  dsimp only
  by_cases h0 : k = 0
  · rw [if_pos h0, if_pos h0]
    rw [if_pos (by omega)] at hm
    exact List.getElem?_range hm
  · rw [if_neg h0, if_neg h0]
    by_cases h1 : k = 1
    · rw [if_pos h1, if_pos h1]
      rw [if_pos (by omega)] at hm
      dsimp only
      rw [List.getElem?_map, List.getElem?_range hm]
      rfl
    · rw [if_neg h1, if_neg h1]
      rw [if_neg (by omega)] at hm
      by_cases h2 : k = 2
      · rw [if_pos h2, if_pos h2]
        rw [if_pos (by omega)] at hm
        dsimp only
        by_cases hmm : m ≤ nr
        · rw [if_pos hmm, List.getElem?_append_left (by simp; omega), List.getElem?_range (by omega)]
        · rw [if_neg hmm, List.getElem?_append_right (by simp; omega), List.getElem?_map, List.length_range, List.getElem?_range (by omega)]
          simp only [Option.map_some, Option.some.injEq]
          omega
      · rw [if_neg h2, if_neg h2]
        by_cases h3 : k = 3
        · rw [if_pos h3, if_pos h3]
          rw [if_pos (by omega)] at hm
          dsimp only
          by_cases hmm : m ≤ nr
          · rw [if_pos hmm, List.getElem?_append_left (by simp; omega), List.getElem?_map, List.getElem?_range (by omega)]
            rfl
          · rw [if_neg hmm, List.getElem?_append_right (by simp; omega), List.getElem?_map, List.length_map, List.length_range, List.getElem?_range (by omega)]
            simp only [Option.map_some, Option.some.injEq]
            omega
        · rw [if_neg h3, if_neg h3]
          rw [if_neg (by omega)] at hm
          by_cases h4 : k < 4 + na
          · rw [if_pos h4, if_pos h4]
            dsimp only
            rw [nxt_mod (by omega)]
            exact cyl_get _ _ _ m hm
          · rw [if_neg h4, if_neg h4]
            exact cyl_get _ _ _ m hm

theorem facet_length (nr na k : Nat) (hna : 1 ≤ na) (hk : k < 4 + 2 * na) : (ringFacet nr na k).2.length = facetLen nr na k := by
  have h1 := congrArg (fun l => l[k]?) (ringFacetCounts_eq nr na hna)
  unfold ringF at h1
  simp only [List.getElem?_map, List.getElem?_range hk, Option.map_some] at h1
  have h2 : (ringFacetCounts nr na)[k]? = some (facetLen nr na k) := by
    unfold ringFacetCounts facetLen
    by_cases h : k < 4
    · rw [List.append_assoc, List.getElem?_append_left (by simp; omega)]
      interval_cases k <;> simp <;> omega
    · rw [if_neg (by omega), if_neg (by omega)]
      by_cases h' : k < 4 + na
      · rw [List.append_assoc, List.getElem?_append_right (by simp; omega), List.getElem?_append_left (by simp; omega), List.getElem?_replicate, if_pos (by simp; omega)]
      · rw [List.getElem?_append_right (by simp; omega), List.getElem?_replicate, if_pos (by simp; omega)]
  rw [h2] at h1
  exact (Option.some.inj h1).symm

/-! ## The sides of the complex: below (0), above (1) and vertical (2) -/

/-- End points of a side. -/
def sideA (n ty j : Nat) : Nat := if ty = 1 then n + j else j
def sideB (n ty j : Nat) : Nat := if ty = 0 then nxt n j else if ty = 1 then n + nxt n j else n + j

def SideOk (nr na ty j : Nat) : Prop :=
  (ty < 2 ∧ j < 2 * nr + 2 * na) ∨ (ty = 2 ∧ (j = 0 ∨ nr ≤ j ∧ j ≤ nr + na ∨ nr + na + nr ≤ j ∧ j < 2 * nr + 2 * na))

/-- The two places (facet, position) of a side. -/
def place1 (nr na ty j : Nat) : Nat × Nat :=
  if ty = 0 then (0, j) else if ty = 1 then (1, j)
  else if j = 0 then (2, 2 * nr + 1) else if j = nr then (2, nr) else if j = nr + na then (3, nr) else if j = nr + na + nr then (3, 2 * nr + 1)
  else if j < nr + na then (4 + na + (j - nr), 3) else (4 + (j - nr - na - nr), 3)

def place2 (nr na ty j : Nat) : Nat × Nat :=
  if ty = 0 then
    if j < nr then (2, j) else if j < nr + na then (4 + na + (j - nr), 0) else if j < nr + na + nr then (3, nr + na + nr - 1 - j)
    else (4 + (j - nr - na - nr), 0)
  else if ty = 1 then
    if j < nr then (2, 2 * nr - j) else if j < nr + na then (4 + na + (j - nr), 2) else if j < nr + na + nr then (3, nr + 1 + (j - nr - na))
    else (4 + (j - nr - na - nr), 2)
  else if j = 0 then (4 + (na - 1), 1) else if j = nr then (4 + na, 3) else if j ≤ nr + na then (4 + na + (j - 1 - nr), 1)
  else if j = nr + na + nr then (4, 3) else (4 + (j - 1 - nr - na - nr), 1)

set_option maxHeartbeats 4000000 in
theorem place_side (nr na ty j : Nat) (hnr : 1 ≤ nr) (hna : 1 ≤ na) (h : SideOk nr na ty j) (k m : Nat) (hp : (k, m) = place1 nr na ty j ∨ (k, m) = place2 nr na ty j) :
    k < 4 + 2 * na ∧ m < facetLen nr na k ∧ 
      ((facetPt nr na k m = sideA (2 * nr + 2 * na) ty j ∧ facetPt nr na k (nxt (facetLen nr na k) m) = sideB (2 * nr + 2 * na) ty j) ∨
       (facetPt nr na k m = sideB (2 * nr + 2 * na) ty j ∧ facetPt nr na k (nxt (facetLen nr na k) m) = sideA (2 * nr + 2 * na) ty j)) := by
  unfold place1 place2 SideOk at *
  unfold facetLen facetPt sideA sideB nxt cylPt
  rcases hp with hp | hp <;> split_ifs at hp <;> (simp only [Prod.mk.injEq] at hp; obtain ⟨rfl, rfl⟩ := hp) <;>
    (refine ⟨by omega, ?_, ?_⟩ <;> (try simp (disch := omega) only [if_pos, if_neg]) <;> (try split_ifs) <;> (try omega))

set_option maxHeartbeats 4000000 in
theorem side_of_place (nr na k m : Nat) (hnr : 1 ≤ nr) (hna : 1 ≤ na) (hk : k < 4 + 2 * na) (hm : m < facetLen nr na k) :
    ∃ ty j, SideOk nr na ty j ∧ ((k, m) = place1 nr na ty j ∨ (k, m) = place2 nr na ty j) := by
  have use1 : ∀ ty j, SideOk nr na ty j → place1 nr na ty j = (k, m) → ∃ ty j, SideOk nr na ty j ∧ ((k, m) = place1 nr na ty j ∨ (k, m) = place2 nr na ty j) :=
    fun ty j h1 h2 => ⟨ty, j, h1, Or.inl h2.symm⟩
  have use2 : ∀ ty j, SideOk nr na ty j → place2 nr na ty j = (k, m) → ∃ ty j, SideOk nr na ty j ∧ ((k, m) = place1 nr na ty j ∨ (k, m) = place2 nr na ty j) :=
    fun ty j h1 h2 => ⟨ty, j, h1, Or.inr h2.symm⟩
  unfold facetLen at hm
  unfold SideOk place1 at use1
  unfold SideOk place2 at use2
  by_cases h0 : k = 0
  · subst h0
    rw [if_pos (by omega)] at hm
    exact use1 0 m (by omega) (by simp)
  by_cases h1 : k = 1
  · subst h1
    rw [if_pos (by omega)] at hm
    exact use1 1 m (by omega) (by simp)
  rw [if_neg (by omega)] at hm
  by_cases h2 : k = 2
  · subst h2
    rw [if_pos (by omega)] at hm
    by_cases m1 : m < nr
    · exact use2 0 m (by omega) (by split_ifs <;> first | rfl | (simp only [Prod.mk.injEq, true_and, and_true]; omega) | (exfalso; omega))
    by_cases m2 : m = nr
    · exact use1 2 nr (by omega) (by split_ifs <;> first | rfl | (simp only [Prod.mk.injEq, true_and, and_true]; omega) | (exfalso; omega))
    by_cases m3 : m = 2 * nr + 1
    · exact use1 2 0 (by omega) (by split_ifs <;> first | rfl | (simp only [Prod.mk.injEq, true_and, and_true]; omega) | (exfalso; omega))
    · exact use2 1 (2 * nr - m) (by omega) (by split_ifs <;> first | rfl | (simp only [Prod.mk.injEq, true_and, and_true]; omega) | (exfalso; omega))
  by_cases h3 : k = 3
  · subst h3
    rw [if_pos (by omega)] at hm
    by_cases m1 : m < nr
    · exact use2 0 (nr + na + nr - 1 - m) (by omega) (by split_ifs <;> first | rfl | (simp only [Prod.mk.injEq, true_and, and_true]; omega) | (exfalso; omega))
    by_cases m2 : m = nr
    · exact use1 2 (nr + na) (by omega) (by split_ifs <;> first | rfl | (simp only [Prod.mk.injEq, true_and, and_true]; omega) | (exfalso; omega))
    by_cases m3 : m = 2 * nr + 1
    · exact use1 2 (nr + na + nr) (by omega) (by split_ifs <;> first | rfl | (simp only [Prod.mk.injEq, true_and, and_true]; omega) | (exfalso; omega))
    · exact use2 1 (na + (m - 1)) (by omega) (by split_ifs <;> first | rfl | (simp only [Prod.mk.injEq, true_and, and_true]; omega) | (exfalso; omega))
  rw [if_neg (by omega)] at hm
  by_cases h4 : k < 4 + na
  · interval_cases m
    · exact use2 0 (nr + na + nr + (k - 4)) (by omega) (by split_ifs <;> first | rfl | (simp only [Prod.mk.injEq, true_and, and_true]; omega) | (exfalso; omega))
    · by_cases hl : k = 4 + (na - 1)
      · exact use2 2 0 (by omega) (by split_ifs <;> first | rfl | (simp only [Prod.mk.injEq, true_and, and_true]; omega) | (exfalso; omega))
      · exact use2 2 (nr + na + nr + (k - 4) + 1) (by omega) (by split_ifs <;> first | rfl | (simp only [Prod.mk.injEq, true_and, and_true]; omega) | (exfalso; omega))
    · exact use2 1 (nr + na + nr + (k - 4)) (by omega) (by split_ifs <;> first | rfl | (simp only [Prod.mk.injEq, true_and, and_true]; omega) | (exfalso; omega))
    · by_cases hl : k = 4
      · exact use2 2 (nr + na + nr) (by omega) (by split_ifs <;> first | rfl | (simp only [Prod.mk.injEq, true_and, and_true]; omega) | (exfalso; omega))
      · exact use1 2 (nr + na + nr + (k - 4)) (by omega) (by split_ifs <;> first | rfl | (simp only [Prod.mk.injEq, true_and, and_true]; omega) | (exfalso; omega))
  · interval_cases m
    · exact use2 0 (nr + (k - 4 - na)) (by omega) (by split_ifs <;> first | rfl | (simp only [Prod.mk.injEq, true_and, and_true]; omega) | (exfalso; omega))
    · exact use2 2 (nr + (k - 4 - na) + 1) (by omega) (by split_ifs <;> first | rfl | (simp only [Prod.mk.injEq, true_and, and_true]; omega) | (exfalso; omega))
    · exact use2 1 (nr + (k - 4 - na)) (by omega) (by split_ifs <;> first | rfl | (simp only [Prod.mk.injEq, true_and, and_true]; omega) | (exfalso; omega))
    · by_cases hl : k = 4 + na
      · exact use2 2 nr (by omega) (by split_ifs <;> first | rfl | (simp only [Prod.mk.injEq, true_and, and_true]; omega) | (exfalso; omega))
      · exact use1 2 (nr + (k - 4 - na)) (by omega) (by split_ifs <;> first | rfl | (simp only [Prod.mk.injEq, true_and, and_true]; omega) | (exfalso; omega))

theorem places_ne (nr na ty j : Nat) (hnr : 1 ≤ nr) (h : SideOk nr na ty j) : (place1 nr na ty j).1 ≠ (place2 nr na ty j).1 := by
  unfold SideOk at h
  unfold place1 place2
  split_ifs <;> simp <;> omega

/-- A side is determined by its end points. -/
theorem side_inj (nr na ty j ty' j' : Nat) (hnr : 1 ≤ nr) (hna : 1 ≤ na) (h : SideOk nr na ty j) (h' : SideOk nr na ty' j')
    (he : (sideA (2 * nr + 2 * na) ty j = sideA (2 * nr + 2 * na) ty' j' ∧ sideB (2 * nr + 2 * na) ty j = sideB (2 * nr + 2 * na) ty' j') ∨
      (sideA (2 * nr + 2 * na) ty j = sideB (2 * nr + 2 * na) ty' j' ∧ sideB (2 * nr + 2 * na) ty j = sideA (2 * nr + 2 * na) ty' j')) : ty = ty' ∧ j = j' := by
  have hn : 4 ≤ 2 * nr + 2 * na := by omega
  unfold SideOk at h h'
  have hj : j < 2 * nr + 2 * na := by omega
  have hj' : j' < 2 * nr + 2 * na := by omega
  generalize 2 * nr + 2 * na = n at *
  have hty : ty < 3 := by omega
  have hty' : ty' < 3 := by omega
  clear h h'
  unfold sideA sideB nxt at he
  interval_cases ty <;> interval_cases ty' <;> simp only [if_pos, if_neg, OfNat.ofNat_ne_zero, OfNat.ofNat_ne_one, zero_ne_one, one_ne_zero, OfNat.zero_ne_ofNat, OfNat.one_ne_ofNat, if_true, if_false, true_and, false_and] at he ⊢ <;> (try split_ifs at he) <;> omega

end Gemlab.Unstructured
