import Verif.Proofs.Block2
import Verif.Props.GridSearch
import Verif.Props.Overlap

/-! # Blocks: distinct nodes are far apart; coordinates do not depend on the cell -/
namespace Gemlab.Block
noncomputable section
open Classical
open Gemlab.Mesh Gemlab.Shapes Gemlab.Spec

theorem getD_map_range {f : Nat → ℝ} {n a : Nat} (h : a < n) : ((List.range n).map f).getD a 0 = f a := by
  rw [List.getD_eq_getElem?_getD, List.getElem?_map, List.getElem?_range h]; rfl

/-- What the theorems about subdivisions assume. -/
structure Ctx (b : Block) (target : GeoKind) : Prop where
  dims : b.ndim = 2 ∨ b.ndim = 3
  target : TargetOk b target
  dir : ∀ a < b.ndim, Dir b a (ndivAt b a)

variable {b : Block} {target : GeoKind}

theorem Ctx.qh (hc : Ctx b target) : IsQuaHex target := hc.target.isQuaHex
theorem Ctx.ndim (hc : Ctx b target) : target.ndim = b.ndim := hc.target.ndim hc.dims

theorem length_nodePos (i j k m : Nat) : (nodePos b target i j k m).length = b.ndim := by simp [nodePos]

theorem getD_nodePos {i j k m a : Nat} (ha : a < b.ndim) : (nodePos b target i j k m).getD a 0 = pos b a (pick i j k a) (rr target m a) := by
  unfold nodePos
  rw [getD_map_range ha]
  rfl

theorem InGrid.pick {i j k : Nat} (h : InGrid b i j k) {a : Nat} (ha : a < b.ndim) (hd : b.ndim = 2 ∨ b.ndim = 3) : pick i j k a < ndivAt b a := by
  obtain ⟨h0, h1, h2⟩ := h
  unfold Block.pick
  have : a = 0 ∨ a = 1 ∨ a = 2 := by omega
  rcases this with rfl | rfl | rfl <;> assumption

theorem Ctx.rok (hc : Ctx b target) {m a : Nat} (hm : m < target.nnode) (ha : a < b.ndim) : Rok (rr target m a) :=
  rr_cases hc.qh hm (hc.ndim ▸ ha)

theorem ext_getD {l l' : List ℝ} (h : l.length = l'.length) (he : ∀ a < l.length, l.getD a 0 = l'.getD a 0) : l = l' := by
  apply List.ext_getElem h
  intro a h1 h2
  have := he a h1
  rw [List.getD_eq_getElem?_getD, List.getD_eq_getElem?_getD, List.getElem?_eq_getElem h1, List.getElem?_eq_getElem h2] at this
  exact this

/-- Two nodes are at the same place exactly when they are so in every direction. -/
theorem nodePos_eq_iff (hc : Ctx b target) {i j k m i' j' k' m' : Nat} (hg : InGrid b i j k) (hg' : InGrid b i' j' k') (hm : m < target.nnode)
    (hm' : m' < target.nnode) : nodePos b target i j k m = nodePos b target i' j' k' m' ↔
      ∀ a < b.ndim, Same (pick i j k a) (rr target m a) (pick i' j' k' a) (rr target m' a) := by
  constructor
  · intro h a ha
    have e : (nodePos b target i j k m).getD a 0 = (nodePos b target i' j' k' m').getD a 0 := by rw [h]
    rw [getD_nodePos ha, getD_nodePos ha] at e
    exact same_of_pos_eq (hc.dir a ha) (hg.pick ha hc.dims) (hg'.pick ha hc.dims) (hc.rok hm ha) (hc.rok hm' ha)
      (rr_gap hc.qh hm hm' (hc.ndim ▸ ha)) e
  · intro h
    apply ext_getD (by rw [length_nodePos, length_nodePos])
    intro a ha
    rw [length_nodePos] at ha
    rw [getD_nodePos ha, getD_nodePos ha]
    exact pos_eq_of_same (h a ha)

/-- Different nodes are farther apart than the tolerance of the search grid. -/
theorem eq_of_near (hc : Ctx b target) {x q : List ℝ} (hx : IsNode b target x) (hq : IsNode b target q)
    (h : euclid x q ≤ Real.sqrt b.ndim * (1 / 10000)) : x = q := by
  obtain ⟨i, j, k, m, hg, hm, rfl⟩ := hx
  obtain ⟨i', j', k', m', hg', hm', rfl⟩ := hq
  rw [nodePos_eq_iff hc hg hg' hm hm']
  intro a ha
  have h1 := (abs_le_euclid (a := nodePos b target i j k m) (b := nodePos b target i' j' k' m') (i := a) (by rw [length_nodePos]; exact ha)).trans h
  rw [getD_nodePos ha, getD_nodePos ha] at h1
  have hs : Real.sqrt b.ndim < 1.75 := by
    rw [Real.sqrt_lt' (by norm_num)]
    rcases hc.dims with h | h <;> rw [h] <;> norm_num
  rcases pos_cases (hc.dir a ha) (hg.pick ha hc.dims) (hg'.pick ha hc.dims) (hc.rok hm ha) (hc.rok hm' ha)
      (rr_gap hc.qh hm hm' (hc.ndim ▸ ha)) with g | g
  · exact g
  · exfalso
    norm_num at hs h1 g
    linarith

theorem IsNode.bounds (hc : Ctx b target) {x : List ℝ} (hx : IsNode b target x) : x.length = b.ndim ∧ ∀ a < b.ndim, -1 ≤ x.getD a 0 ∧ x.getD a 0 ≤ 1 := by
  obtain ⟨i, j, k, m, hg, hm, rfl⟩ := hx
  refine ⟨length_nodePos .., fun a ha => ?_⟩
  rw [getD_nodePos ha]
  have := hc.rok hm ha
  exact pos_bounds (hc.dir a ha) (hg.pick ha hc.dims) this.nonneg this.le_one

/-- On a side of the block, or far from it. -/
theorem onSide_or_far (hc : Ctx b target) {x : List ℝ} (hx : IsNode b target x) {a : Nat} (ha : a < b.ndim) :
    (x.getD a 0 = -1 ∨ 1.75 / 10 ^ 4 < |-1 - x.getD a 0|) ∧ (x.getD a 0 = 1 ∨ 1.75 / 10 ^ 4 < |1 - x.getD a 0|) := by
  obtain ⟨i, j, k, m, hg, hm, rfl⟩ := hx
  rw [getD_nodePos ha]
  constructor
  · rcases pos_low (hc.dir a ha) (hg.pick ha hc.dims) (hc.rok hm ha) with ⟨-, -, h⟩ | h
    · exact .inl h
    · right; rw [lt_abs]; right; linarith
  · rcases pos_high (hc.dir a ha) (hg.pick ha hc.dims) (hc.rok hm ha) with ⟨-, -, h⟩ | h
    · exact .inl h
    · right; rw [lt_abs]; left; linarith

/-! ## Free directions -/

theorem mem_freeDirs {m a : Nat} : a ∈ freeDirs target m ↔ a < target.ndim ∧ rr target m a ≠ 0 ∧ rr target m a ≠ 1 := by
  unfold freeDirs
  rw [List.mem_filter, List.mem_range, decide_eq_true_iff]
  unfold rr refCoord
  have e1 : (1 + (refCoordQ target m a : ℝ)) / 2 = 0 ↔ refCoordQ target m a = -1 := by
    constructor
    · intro h
      have : (refCoordQ target m a : ℝ) = ((-1 : ℚ) : ℝ) := by push_cast; linarith
      exact_mod_cast this
    · intro h; rw [h]; norm_num
  have e2 : (1 + (refCoordQ target m a : ℝ)) / 2 = 1 ↔ refCoordQ target m a = 1 := by
    constructor
    · intro h
      have : (refCoordQ target m a : ℝ) = ((1 : ℚ) : ℝ) := by push_cast; linarith
      exact_mod_cast this
    · intro h; rw [h]; norm_num
  rw [Ne, Ne, Ne, Ne, e1, e2]

theorem freeDirs_sorted (m : Nat) : (freeDirs target m).Pairwise (· < ·) := by
  unfold freeDirs
  exact List.Pairwise.filter _ List.pairwise_lt_range

theorem eq_of_sorted {l l' : List Nat} (h : l.Pairwise (· < ·)) (h' : l'.Pairwise (· < ·)) (he : ∀ a, a ∈ l ↔ a ∈ l') : l = l' := by
  exact List.Perm.eq_of_pairwise' h h' ((List.perm_ext_iff_of_nodup (h.imp (fun h => Nat.ne_of_lt h)) (h'.imp (fun h => Nat.ne_of_lt h))).2 he)

theorem freeDirs_eq (hc : Ctx b target) {i j k m i' j' k' m' : Nat}
    (h : ∀ a < b.ndim, Same (pick i j k a) (rr target m a) (pick i' j' k' a) (rr target m' a)) : freeDirs target m = freeDirs target m' := by
  apply eq_of_sorted (freeDirs_sorted m) (freeDirs_sorted m')
  intro a
  rw [mem_freeDirs, mem_freeDirs]
  apply and_congr_right
  intro ha
  rcases h a (hc.ndim ▸ ha) with ⟨-, h⟩ | ⟨-, h1, h2⟩ | ⟨-, h1, h2⟩
  · rw [h]
  · rw [h1, h2]; simp
  · rw [h1, h2]; simp

theorem endPos_eq {i j k m i' j' k' m' d : Nat} (hd : pick i j k d = pick i' j' k' d)
    (h : ∀ a < b.ndim, Same (pick i j k a) (rr target m a) (pick i' j' k' a) (rr target m' a)) (v : ℝ) :
    endPos b target i j k m d v = endPos b target i' j' k' m' d v := by
  unfold endPos
  apply List.map_congr_left
  intro a ha
  rw [List.mem_range] at ha
  by_cases had : a = d
  · subst had
    rw [if_pos rfl, if_pos rfl, hd]
  · rw [if_neg had, if_neg had]
    exact pos_eq_of_same (h a ha)

theorem same_free {i i' : Nat} {r r' : ℝ} (h : Same i r i' r') (h0 : r ≠ 0) (h1 : r ≠ 1) : i = i' ∧ r = r' := by
  rcases h with h | ⟨-, h, -⟩ | ⟨-, -, h⟩
  · exact h
  · exact absurd h h1
  · exact absurd h h0

theorem edgeCoords_eq (hc : Ctx b target) {i j k m i' j' k' m' : Nat}
    (h : ∀ a < b.ndim, Same (pick i j k a) (rr target m a) (pick i' j' k' a) (rr target m' a))
    (he : nodePos b target i j k m = nodePos b target i' j' k' m') : edgeCoords b target i j k m = edgeCoords b target i' j' k' m' := by
  unfold edgeCoords
  rw [← freeDirs_eq hc h]
  match hf : freeDirs target m with
  | [] => dsimp only; rw [he]
  | d :: l =>
    dsimp only
    have hd : d ∈ freeDirs target m := by rw [hf]; simp
    rw [mem_freeDirs, hc.ndim] at hd
    obtain ⟨e1, e2⟩ := same_free (h d hd.1) hd.2.1 hd.2.2
    have e3 : (1 + refCoord target m d) / 2 = ((1 + refCoord target m' d) / 2 : ℝ) := e2
    rw [endPos_eq e1 h 0, endPos_eq e1 h 1, he, e3]

theorem free_all (target : GeoKind) (hk : IsQuaHex target) : ∀ m < target.nnode, 1 < (freeDirs target m).length →
    target.ndim = 2 ∧ freeDirs target m = [0, 1] := by
  cases target <;> first | exact absurd hk (by unfold IsQuaHex; decide) | decide +kernel

theorem ref_inj (target : GeoKind) (hk : IsQuaHex target) : ∀ m < target.nnode, ∀ m' < target.nnode,
    (∀ a < target.ndim, refCoordQ target m a = refCoordQ target m' a) → m = m' := by
  cases target <;> first | exact absurd hk (by unfold IsQuaHex; decide) | decide +kernel

theorem rr_inj (hk : IsQuaHex target) {m m' : Nat} (hm : m < target.nnode) (hm' : m' < target.nnode)
    (h : ∀ a < target.ndim, rr target m a = rr target m' a) : m = m' := by
  apply ref_inj target hk m hm m' hm'
  intro a ha
  have := h a ha
  unfold rr refCoord at this
  have h2 : (refCoordQ target m a : ℝ) = (refCoordQ target m' a : ℝ) := by linarith
  exact_mod_cast h2

/-- The final coordinates only depend on the position. -/
theorem finalCoords_eq (hc : Ctx b target) {i j k m i' j' k' m' : Nat} (hg : InGrid b i j k) (hg' : InGrid b i' j' k') (hm : m < target.nnode)
    (hm' : m' < target.nnode) (he : nodePos b target i j k m = nodePos b target i' j' k' m') :
    finalCoords b target i j k m = finalCoords b target i' j' k' m' := by
  have h := (nodePos_eq_iff hc hg hg' hm hm').1 he
  unfold finalCoords
  rw [← freeDirs_eq hc h, ← he, edgeCoords_eq hc h he]
  split
  · split
    · rfl
    · rename_i hl
      obtain ⟨hnd, hf⟩ := free_all target hc.qh m hm (by omega)
      have hb : b.ndim = 2 := by rw [← hc.ndim]; exact hnd
      have hfree : ∀ a < target.ndim, pick i j k a = pick i' j' k' a ∧ rr target m a = rr target m' a := by
        intro a ha
        have : a ∈ freeDirs target m := by rw [hf]; have : a = 0 ∨ a = 1 := by omega
                                           rcases this with rfl | rfl <;> simp
        rw [mem_freeDirs] at this
        exact same_free (h a (by omega)) this.2.1 this.2.2
      have e1 : m = m' := rr_inj hc.qh hm hm' (fun a ha => (hfree a ha).2)
      have e2 : i = i' := (hfree 0 (by omega)).1
      have e3 : j = j' := (hfree 1 (by omega)).1
      have e4 : k = k' := by
        have h1 := hg.2.2
        have h2 := hg'.2.2
        unfold ndivAt at h1 h2
        rw [if_neg (by omega)] at h1 h2
        omega
      rw [e1, e2, e3, e4]
  · rfl

/-- The final coordinates as a function of the position. -/
def coordsAt (b : Block) (target : GeoKind) (ξ : List ℝ) : List ℝ :=
  if h : IsNode b target ξ then finalCoords b target h.choose h.choose_spec.choose h.choose_spec.choose_spec.choose h.choose_spec.choose_spec.choose_spec.choose
  else []

theorem coordsAt_nodePos (hc : Ctx b target) {i j k m : Nat} (hg : InGrid b i j k) (hm : m < target.nnode) :
    coordsAt b target (nodePos b target i j k m) = finalCoords b target i j k m := by
  have h : IsNode b target (nodePos b target i j k m) := ⟨i, j, k, m, hg, hm, rfl⟩
  unfold coordsAt
  rw [dif_pos h]
  obtain ⟨h1, h2, h3⟩ := h.choose_spec.choose_spec.choose_spec.choose_spec
  exact finalCoords_eq hc h1 hg h2 hm h3.symm

end
end Gemlab.Block
