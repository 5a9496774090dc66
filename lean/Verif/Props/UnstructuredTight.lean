import Verif.Proofs.UnstructuredTight

/-!
# C71: the facets of the quarter ring enclose the volume

The list of facets which `quarter_ring_3d` passes to the volume generator (`ringFacet`, see
`C71_quarter_ring_3d`) is watertight: each side of a facet (two consecutive points, the last one
being followed by the first one) is the side of exactly one other facet.
-/
namespace Gemlab.Unstructured

/-- The end points of the side `m` of a closed polygon. -/
def SideEnds (l : List Nat) (m a b : Nat) : Prop := l[m]? = some a ∧ l[(m + 1) % l.length]? = some b

/-- Two sides have the same end points, in the same or in the opposite direction. -/
def SameSide (l : List Nat) (m : Nat) (l' : List Nat) (m' : Nat) : Prop :=
  ∃ a b : Nat, SideEnds l m a b ∧ (SideEnds l' m' a b ∨ SideEnds l' m' b a)

theorem facet_side (nr na k m : Nat) (hna : 1 ≤ na) (hk : k < 4 + 2 * na) (hm : m < facetLen nr na k) (a b : Nat) :
    SideEnds (ringFacet nr na k).2 m a b ↔ a = facetPt nr na k m ∧ b = facetPt nr na k (nxt (facetLen nr na k) m) := by
  have h2 : nxt (facetLen nr na k) m < facetLen nr na k := by
    unfold nxt
    split_ifs <;> omega
  unfold SideEnds
  rw [facet_length nr na k hna hk, nxt_mod hm, facet_get nr na k m hna hk hm, facet_get nr na k _ hna hk h2]
  simp only [Option.some.injEq]
  exact ⟨fun h => ⟨h.1.symm, h.2.symm⟩, fun h => ⟨h.1.symm, h.2.symm⟩⟩

theorem sameSide_iff (nr na k m k' m' : Nat) (hna : 1 ≤ na) (hk : k < 4 + 2 * na) (hm : m < facetLen nr na k) (hk' : k' < 4 + 2 * na) (hm' : m' < facetLen nr na k') :
    SameSide (ringFacet nr na k).2 m (ringFacet nr na k').2 m' ↔
      (facetPt nr na k m = facetPt nr na k' m' ∧ facetPt nr na k (nxt (facetLen nr na k) m) = facetPt nr na k' (nxt (facetLen nr na k') m')) ∨
      (facetPt nr na k m = facetPt nr na k' (nxt (facetLen nr na k') m') ∧ facetPt nr na k (nxt (facetLen nr na k) m) = facetPt nr na k' m') := by
  unfold SameSide
  simp only [facet_side nr na k m hna hk hm, facet_side nr na k' m' hna hk' hm']
  constructor
  · rintro ⟨a, b, ⟨rfl, rfl⟩, h | h⟩
    · exact Or.inl h
    · exact Or.inr ⟨h.2, h.1⟩
  · rintro (h | h)
    · exact ⟨_, _, ⟨rfl, rfl⟩, Or.inl h⟩
    · exact ⟨_, _, ⟨rfl, rfl⟩, Or.inr ⟨h.2, h.1⟩⟩

/-- Each side of a facet of the quarter ring belongs to exactly one other facet. -/
theorem C71_watertight (nr na : Nat) (hnr : 1 ≤ nr) (hna : 1 ≤ na) (k m : Nat) (hk : k < 4 + 2 * na) (hm : m < (ringFacet nr na k).2.length) :
    ∃ k' m', k' < 4 + 2 * na ∧ m' < (ringFacet nr na k').2.length ∧ k' ≠ k ∧
      SameSide (ringFacet nr na k).2 m (ringFacet nr na k').2 m' ∧
      ∀ k'' m'', k'' < 4 + 2 * na → m'' < (ringFacet nr na k'').2.length →
        SameSide (ringFacet nr na k).2 m (ringFacet nr na k'').2 m'' → (k'' = k ∧ m'' = m) ∨ (k'' = k' ∧ m'' = m') := by
  rw [facet_length nr na k hna hk] at hm
  obtain ⟨ty, j, hok, hp⟩ := side_of_place nr na k m hnr hna hk hm
  have hne := places_ne nr na ty j hnr hok
  obtain ⟨-, -, hs⟩ := place_side nr na ty j hnr hna hok k m hp
  obtain ⟨k', m', hp', hkk⟩ : ∃ k' m', ((k', m') = place1 nr na ty j ∨ (k', m') = place2 nr na ty j) ∧ k' ≠ k ∧
      ∀ k'' m'', ((k'', m'') = place1 nr na ty j ∨ (k'', m'') = place2 nr na ty j) → (k'' = k ∧ m'' = m) ∨ (k'' = k' ∧ m'' = m') := by
    rcases hp with hp | hp
    · refine ⟨(place2 nr na ty j).1, (place2 nr na ty j).2, Or.inr rfl, ?_, ?_⟩
      · intro h
        rw [← hp] at hne
        exact hne h.symm
      · rintro k'' m'' (h | h)
        · rw [← hp] at h
          exact Or.inl (by simpa using h)
        · rw [← h]
          exact Or.inr ⟨rfl, rfl⟩
    · refine ⟨(place1 nr na ty j).1, (place1 nr na ty j).2, Or.inl rfl, ?_, ?_⟩
      · intro h
        rw [← hp] at hne
        exact hne h
      · rintro k'' m'' (h | h)
        · rw [← h]
          exact Or.inr ⟨rfl, rfl⟩
        · rw [← hp] at h
          exact Or.inl (by simpa using h)
  obtain ⟨hk', hm', hs'⟩ := place_side nr na ty j hnr hna hok k' m' hp'
  refine ⟨k', m', hk', by rw [facet_length nr na k' hna hk']; exact hm', hkk.1, ?_, ?_⟩
  · rw [sameSide_iff nr na k m k' m' hna hk hm hk' hm']
    rcases hs with ⟨h1, h2⟩ | ⟨h1, h2⟩ <;> rcases hs' with ⟨h3, h4⟩ | ⟨h3, h4⟩ <;> rw [h1, h2, h3, h4] <;> simp
  · intro k'' m'' hk'' hm'' h
    rw [facet_length nr na k'' hna hk''] at hm''
    rw [sameSide_iff nr na k m k'' m'' hna hk hm hk'' hm''] at h
    obtain ⟨ty', j', hok', hp''⟩ := side_of_place nr na k'' m'' hnr hna hk'' hm''
    obtain ⟨-, -, hs''⟩ := place_side nr na ty' j' hnr hna hok' k'' m'' hp''
    have he : ty = ty' ∧ j = j' := by
      refine side_inj nr na ty j ty' j' hnr hna hok hok' ?_
      rcases hs with ⟨h1, h2⟩ | ⟨h1, h2⟩ <;> rcases hs'' with ⟨h3, h4⟩ | ⟨h3, h4⟩ <;> rw [h1, h2, h3, h4] at h <;> tauto
    obtain ⟨rfl, rfl⟩ := he
    exact hkk.2 k'' m'' hp''

end Gemlab.Unstructured
