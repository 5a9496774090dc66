import Verif.Proofs.DisksRun
import Verif.Proofs.Recovery

/-! # The blocks of disks and plates fit together -/
namespace Gemlab.Structured
noncomputable section
open Classical
open Gemlab.Mesh Gemlab.Shapes Gemlab.Block Gemlab.Spec

variable {inv : MatInverse} {target : GeoKind} {P Q : Piece} {ndim : Nat} {A B : Mesh ℝ}

/-! ### Nodes on a side -/

/-- To every node on side `s` there is a node on side `t` at the same place along the side. -/
def Swappable (k : GeoKind) (s t : Nat) : Prop :=
  ∀ m < k.nnode, refCoordQ k m (sideDir k.ndim s) = sideValQ k.ndim s → ∃ m' < k.nnode, refCoordQ k m' (sideDir k.ndim t) = sideValQ k.ndim t ∧
    refCoordQ k m' (1 - sideDir k.ndim t) = refCoordQ k m (1 - sideDir k.ndim s) ∧ refCoordQ k m' 2 = refCoordQ k m 2

instance (k : GeoKind) (s t : Nat) : Decidable (Swappable k s t) := by unfold Swappable; infer_instance

theorem swap_node (k : GeoKind) (hk : IsQuaHex k) : ∀ s < 4, ∀ t < 4, Swappable k s t := by
  cases k <;> first | exact absurd hk (by unfold IsQuaHex; decide) | decide +kernel

theorem pos_getD {i j k m a : Nat} (hB : Box P.divs i j k) (ha : a < ndim) (h3 : ndim ≤ 3) :
    (P.pos ndim target i j k m).getD a 0 = (pick i j k a + (1 + refCoord target m a) / 2) / P.divs a := by
  have hlt := pick_lt hB (show a < 3 by omega)
  unfold Piece.pos tickPos
  rw [getD_map_range ha]
  dsimp only
  unfold evenTicks
  have : (P.divs a : ℝ) ≠ 0 := by exact_mod_cast (by omega : P.divs a ≠ 0)
  field_simp
  push_cast
  ring

theorem getD_two {p : List ℝ} {a : Nat} (h : a < p.length) : (p.map fun x => 2 * x - 1).getD a 0 = 2 * p.getD a 0 - 1 := by
  rw [List.getD_eq_getElem _ 0 (by simpa using h), List.getD_eq_getElem _ 0 h, List.getElem_map]

theorem pos_length {i j k m : Nat} : (P.pos ndim target i j k m).length = ndim := by simp [Piece.pos, tickPos]

theorem pos_inBox {i j k m : Nat} (hB : Box P.divs i j k) (h3 : ndim ≤ 3) : InBox ndim ((P.pos ndim target i j k m).map fun x => 2 * x - 1) := by
  intro a ha
  have hlt := pick_lt hB (show a < 3 by omega)
  rw [getD_two (by rw [pos_length]; exact ha), pos_getD hB ha h3]
  have hd : (0 : ℝ) < P.divs a := by exact_mod_cast (by omega : 0 < P.divs a)
  have hr := abs_le.1 (Gemlab.Recov.refCoord_abs target m a)
  have h1 : (pick i j k a : ℝ) + 1 ≤ P.divs a := by exact_mod_cast hlt
  have h0 : (0 : ℝ) ≤ pick i j k a := by positivity
  have e1 : 0 ≤ (pick i j k a + (1 + refCoord target m a) / 2) / (P.divs a : ℝ) := div_nonneg (by linarith [hr.1]) hd.le
  have e2 : (pick i j k a + (1 + refCoord target m a) / 2) / (P.divs a : ℝ) ≤ 1 := (div_le_one hd).2 (by linarith [hr.2])
  constructor <;> linarith

/-- The node is on the side exactly if it is on the side of a cell at the border. -/
theorem at_side {s i j k m : Nat} (hB : Box P.divs i j k) (h3 : ndim ≤ 3) (hd : sideDir ndim s < ndim) : AtSide ndim s (P.pos ndim target i j k m) ↔
    refCoordQ target m (sideDir ndim s) = sideValQ ndim s ∧ pick i j k (sideDir ndim s) = if sideValQ ndim s = 1 then P.divs (sideDir ndim s) - 1 else 0 := by
  have hlt := pick_lt hB (show sideDir ndim s < 3 by omega)
  unfold AtSide OnSide
  rw [getD_two (by rw [pos_length]; exact hd), pos_getD hB hd h3]
  generalize hx : pick i j k (sideDir ndim s) = x at *
  generalize hn : P.divs (sideDir ndim s) = n at *
  have hn' : (0 : ℝ) < n := by exact_mod_cast (by omega : 0 < n)
  have h1 : (x : ℝ) + 1 ≤ n := by exact_mod_cast hlt
  have h0 : (0 : ℝ) ≤ x := by positivity
  have hr := abs_le.1 (Gemlab.Recov.refCoord_abs target m (sideDir ndim s))
  have hv : (sideValQ ndim s = 1 ∧ sideVal ndim s = 1) ∨ (sideValQ ndim s = -1 ∧ sideVal ndim s = -1) := by
    unfold sideValQ sideVal; split <;> split <;> simp
  have hq : ∀ c : ℚ, refCoordQ target m (sideDir ndim s) = c ↔ (refCoord target m (sideDir ndim s) : ℝ) = c := by
    intro c; unfold refCoord; exact_mod_cast Iff.rfl
  rcases hv with ⟨e1, e2⟩ | ⟨e1, e2⟩ <;> rw [e1, e2, hq]
  · rw [if_pos rfl]
    generalize (refCoord target m (sideDir ndim s) : ℝ) = ρ at *
    have key : 2 * ((x + (1 + ρ) / 2) / (n : ℝ)) - 1 = 1 ↔ x + (1 + ρ) / 2 = (n : ℝ) := by
      rw [← div_eq_one_iff_eq hn'.ne']; constructor <;> intro h <;> linarith
    rw [key]
    constructor
    · intro h
      have a1 : (ρ : ℝ) = 1 := by linarith [hr.2]
      refine ⟨by push_cast; exact a1, ?_⟩
      have : (x : ℝ) + 1 = n := by linarith
      have : x + 1 = n := by exact_mod_cast this
      omega
    · rintro ⟨h, h'⟩
      have : x + 1 = n := by omega
      have : (x : ℝ) + 1 = n := by exact_mod_cast this
      push_cast at h
      linarith
  · rw [if_neg (by norm_num)]
    generalize (refCoord target m (sideDir ndim s) : ℝ) = ρ at *
    have key : 2 * ((x + (1 + ρ) / 2) / (n : ℝ)) - 1 = -1 ↔ x + (1 + ρ) / 2 = (0 : ℝ) := by
      rw [show (2 * ((x + (1 + ρ) / 2) / (n : ℝ)) - 1 = -1) ↔ (x + (1 + ρ) / 2) / (n : ℝ) = 0 from ⟨fun h => by linarith, fun h => by linarith⟩,
        div_eq_zero_iff]
      simp [hn'.ne']
    rw [key]
    constructor
    · intro h
      have a1 : (ρ : ℝ) = -1 := by linarith [hr.1]
      refine ⟨by push_cast; exact a1, ?_⟩
      have : (x : ℝ) = 0 := by linarith
      exact_mod_cast this
    · rintro ⟨h, h'⟩
      push_cast at h
      rw [h']
      push_cast
      linarith

/-! ### Places on a side -/

theorem place_off (hP : Good ndim P) {s : Nat} (hs : s < 2 * ndim) (hd : sideDir ndim s < 2) (ha : ∀ q ∈ P.arcs, q.1 ≠ s) {p : List ℝ}
    (hbox : InBox ndim (p.map fun x => 2 * x - 1)) (hon : AtSide ndim s p) : P.place ndim p = isoMap P.nodes.length ndim P.at_ (p.map fun x => 2 * x - 1) := by
  unfold Piece.place
  dsimp only
  split
  · rename_i q hq
    have hm := List.mem_of_find?_eq_some hq
    have h3 : OnSide ndim q.1 (p.map fun x => 2 * x - 1) := by simpa using List.find?_some hq
    have hne : sideDir ndim s ≠ sideDir ndim q.1 := fun h => ha q hm (side_unique hP.dims (hP.arcs _ hm).1 hs h3 hon h.symm)
    exact project_id (hP.ends q hm _ hbox h3 s hs hd hne hon) (hP.arcs _ hm).2.1
  · rfl

theorem place_on (hP : Good ndim P) {q : Nat × ℝ} (hq : q ∈ P.arcs) {p : List ℝ} (hon : AtSide ndim q.1 p) :
    P.place ndim p = (around q.2).project (isoMap P.nodes.length ndim P.at_ (p.map fun x => 2 * x - 1)) := by
  unfold Piece.place
  dsimp only
  rw [arc_find hP hq hon]

theorem place_seam (hP : Good ndim P) (hQ : Good ndim Q) {s t : Nat} (hs : s < 2 * ndim) (hds : sideDir ndim s < 2) (ht : t < 2 * ndim) (hdt : sideDir ndim t < 2)
    (harc : ∀ R, (s, R) ∈ P.arcs ↔ (t, R) ∈ Q.arcs) {p p' : List ℝ} (hbox : InBox ndim (p.map fun x => 2 * x - 1)) (hon : AtSide ndim s p)
    (hbox' : InBox ndim (p'.map fun x => 2 * x - 1)) (hon' : AtSide ndim t p')
    (heq : isoMap P.nodes.length ndim P.at_ (p.map fun x => 2 * x - 1) = isoMap Q.nodes.length ndim Q.at_ (p'.map fun x => 2 * x - 1)) : P.place ndim p = Q.place ndim p' := by
  by_cases h : ∃ R, (s, R) ∈ P.arcs
  · obtain ⟨R, hR⟩ := h
    rw [place_on hP hR hon, place_on hQ ((harc R).1 hR) hon', heq]
  · rw [place_off hP hs hds (fun q hq e => h ⟨q.2, e ▸ hq⟩) hbox hon, place_off hQ ht hdt (fun q hq e => h ⟨q.2, (harc q.2).2 (e ▸ hq)⟩) hbox' hon', heq]

/-- The positions `p` on side `s` and `p'` on side `t` are at the same place along the side. -/
def Opposite (ndim s t : Nat) (p p' : List ℝ) : Prop :=
  p.getD (1 - sideDir ndim s) 0 = p'.getD (1 - sideDir ndim t) 0 ∧ p.getD 2 0 = p'.getD 2 0

theorem side_subset (hP : Good ndim P) (hQ : Good ndim Q) (cP : Counted ndim P) (cQ : Counted ndim Q) (hT : target.classOf = if ndim = 2 then .qua else .hex)
    (hA : IsPieceMesh inv ndim P target A) (hB : IsPieceMesh inv ndim Q target B) {s t : Nat} (hs : s < 4) (ht : t < 4) (hds : sideDir ndim s < 2) (hdt : sideDir ndim t < 2)
    (hdiv : P.divs (1 - sideDir ndim s) = Q.divs (1 - sideDir ndim t)) (hdiv2 : P.divs 2 = Q.divs 2)
    (hgeo : ∀ p p' : List ℝ, p.length = ndim → p'.length = ndim → InBox ndim (p.map fun x => 2 * x - 1) → InBox ndim (p'.map fun x => 2 * x - 1) → AtSide ndim s p →
      AtSide ndim t p' → Opposite ndim s t p p' → P.place ndim p = Q.place ndim p') : sidePlaces ndim P target s A ⊆ sidePlaces ndim Q target t B := by
  rintro x ⟨i, j, k, m, hbox, hm, hon, rfl⟩
  have hd := hP.dims
  have h3 : ndim ≤ 3 := by omega
  have hn2 : target.ndim = ndim := by rcases hd with e | e <;> subst e <;> cases target <;> first | rfl | exact absurd hT (by decide)
  have hQH : IsQuaHex target := by unfold IsQuaHex; rcases hd with e | e <;> subst e <;> simp at hT <;> simp [hT]
  obtain ⟨r1, r2⟩ := (at_side hbox h3 (by omega)).1 hon
  have hsw := swap_node target hQH s hs t ht m hm
  rw [hn2] at hsw
  obtain ⟨m', hm', w1, w2, w3⟩ := hsw r1
  let c : Nat → Nat := fun a => if a = sideDir ndim t then (if sideValQ ndim t = 1 then Q.divs (sideDir ndim t) - 1 else 0) else if a = 2 then k else pick i j k (1 - sideDir ndim s)
  have hpos : ∀ a < 3, 1 ≤ Q.divs a := by
    intro a ha
    by_cases h : a < ndim
    · exact (divsOf_counted cQ a h).1
    · exact le_of_eq (show 1 = Q.ndiv.getD a 1 by rw [List.getD_eq_default _ _ (by rw [cQ.1]; omega)])
  have hc : ∀ a < 3, c a < Q.divs a := by
    intro a ha
    have := hpos a ha
    simp only [c]
    split
    · rename_i h; subst h; split <;> omega
    · split
      · rename_i h; subst h; rw [← hdiv2]; exact hbox.2.2
      · have e : a = 1 - sideDir ndim t := by omega
        subst e
        rw [← hdiv]
        exact pick_lt hbox (by omega)
  have hbox' : Box Q.divs (c 0) (c 1) (c 2) := ⟨hc 0 (by omega), hc 1 (by omega), hc 2 (by omega)⟩
  have hpick : ∀ a < 3, pick (c 0) (c 1) (c 2) a = c a := by
    intro a ha
    unfold pick
    rcases (by omega : a = 0 ∨ a = 1 ∨ a = 2) with e | e | e <;> subst e <;> simp
  have hon' : AtSide ndim t (Q.pos ndim target (c 0) (c 1) (c 2) m') := by
    refine (at_side hbox' h3 (by omega)).2 ⟨w1, ?_⟩
    rw [hpick _ (by omega)]
    simp [c]
  refine ⟨c 0, c 1, c 2, m', hbox', hm', hon', ?_⟩
  obtain ⟨pl, pA, eA⟩ := piece_patch hP cP hT hA
  obtain ⟨pl', pB, eB⟩ := piece_patch hQ cQ hT hB
  rw [(pA.coords i j k m hbox hm).2, (pB.coords _ _ _ m' hbox' hm').2]
  have h1 := eA i j k m hbox hm (.inr (.inr ⟨s, by omega, hds, hon⟩))
  have h2 := eB _ _ _ m' hbox' hm' (.inr (.inr ⟨t, by omega, hdt, hon'⟩))
  refine h2.trans (Eq.trans (Eq.symm ?_) h1.symm)
  refine hgeo _ _ pos_length pos_length (pos_inBox hbox h3) (pos_inBox hbox' h3) hon hon' ⟨?_, ?_⟩
  · rw [pos_getD hbox (by omega) h3, pos_getD hbox' (by omega) h3, hpick _ (by omega), hdiv]
    have e1 : c (1 - sideDir ndim t) = pick i j k (1 - sideDir ndim s) := by
      simp only [c]
      rw [if_neg (by omega), if_neg (by omega)]
    have e2 : (refCoord target m' (1 - sideDir ndim t) : ℝ) = refCoord target m (1 - sideDir ndim s) := by unfold refCoord; rw [w2]
    rw [e1, e2]
  · rcases hd with e | e
    · subst e
      rw [List.getD_eq_default _ _ (by rw [pos_length]), List.getD_eq_default _ _ (by rw [pos_length])]
    · subst e
      rw [pos_getD hbox (by omega) h3, pos_getD hbox' (by omega) h3, hpick _ (by omega), hdiv2]
      have e1 : c 2 = pick i j k 2 := by
        simp only [c]
        rw [if_neg (by omega), if_pos trivial]
        rfl
      have e2 : (refCoord target m' 2 : ℝ) = refCoord target m 2 := by unfold refCoord; rw [w3]
      rw [e1, e2]

/-! ### Common sides -/

/-- Side `s` of `P` is side `t` of `Q`. -/
structure Common (P Q : Piece) (s t : Nat) : Prop where
  left : s < 4
  right : t < 4
  len : P.nodes.length = Q.nodes.length
  lo_eq : ∀ j < 2, P.at_ (lo s) j = Q.at_ (lo t) j
  hi_eq : ∀ j < 2, P.at_ (hi s) j = Q.at_ (hi t) j
  mid : P.nodes.length = 8 → ∀ j < 2, P.at_ (4 + s) j = Q.at_ (4 + t) j
  div : P.divs (1 - sideDir 2 s) = Q.divs (1 - sideDir 2 t)
  arcs : ∀ R, (s, R) ∈ P.arcs ↔ (t, R) ∈ Q.arcs

theorem Common.symm {s t : Nat} (h : Common P Q s t) : Common Q P t s where
  left := h.right
  right := h.left
  len := h.len.symm
  lo_eq := fun j hj => (h.lo_eq j hj).symm
  hi_eq := fun j hj => (h.hi_eq j hj).symm
  mid := fun e j hj => (h.mid (h.len.trans e) j hj).symm
  div := h.div.symm
  arcs := fun R => (h.arcs R).symm

theorem Opposite.symm {s t : Nat} {p p' : List ℝ} (h : Opposite ndim s t p p') : Opposite ndim t s p' p := ⟨h.1.symm, h.2.symm⟩

theorem sideDir_le {s : Nat} : sideDir 2 s < 2 := by rcases @sideDir_two s with h | h <;> omega

theorem iso_length {n d : Nat} {at_ : Nat → Nat → ℝ} {ξ : List ℝ} : (isoMap n d at_ ξ).length = d := by simp [isoMap]

theorem common_iso {s t : Nat} (h : Common P Q s t) (hP : Checked P) {ξ ξ' : List ℝ} (hon : OnSide 2 s ξ) (hon' : OnSide 2 t ξ')
    (hal : ξ.getD (1 - sideDir 2 s) 0 = ξ'.getD (1 - sideDir 2 t) 0) {j : Nat} (hj : j < 2) :
    (isoMap P.nodes.length 2 P.at_ ξ).getD j 0 = (isoMap Q.nodes.length 2 Q.at_ ξ').getD j 0 := by
  rw [← h.len]
  rcases hP.shape with e | e
  · rw [e, side4 h.left _ hon hj, side4 h.right _ hon' hj, h.lo_eq j hj, h.hi_eq j hj, hal]
  · rw [e, side8 h.left _ hon hj, side8 h.right _ hon' hj, h.lo_eq j hj, h.hi_eq j hj, h.mid e j hj, hal]

theorem common_place {s t : Nat} (h : Common P Q s t) (hP : Checked P) (hQ : Checked Q) {p p' : List ℝ} (hl : p.length = 2) (hl' : p'.length = 2)
    (hbox : InBox 2 (p.map fun x => 2 * x - 1)) (hbox' : InBox 2 (p'.map fun x => 2 * x - 1)) (hon : AtSide 2 s p) (hon' : AtSide 2 t p')
    (hop : Opposite 2 s t p p') : P.place 2 p = Q.place 2 p' := by
  refine place_seam hP.good hQ.good (by have := h.left; omega) sideDir_le (by have := h.right; omega) sideDir_le h.arcs hbox hon hbox' hon' ?_
  refine ext_getD (iso_length.trans iso_length.symm) (fun j hj => ?_)
  rw [iso_length] at hj
  refine common_iso h hP hon hon' ?_ hj
  rw [getD_two (by omega), getD_two (by omega), hop.1]

theorem prism_arcs (hP : Checked P) {z : ℝ} {nz s : Nat} (hs : s < 4) (R : ℝ) : (faceAbove s, R) ∈ (prism z nz P).arcs ↔ (s, R) ∈ P.arcs := by
  unfold prism
  dsimp only
  rw [List.mem_map]
  constructor
  · rintro ⟨q, hq, e⟩
    obtain ⟨e1, e2⟩ := Prod.mk.inj e
    have := faceAbove_inj (hP.arcs q hq).1 hs e1
    rw [← this, ← e2]
    exact hq
  · intro h
    exact ⟨_, h, rfl⟩

theorem common_above {s t : Nat} (h : Common P Q s t) (hP : Checked P) (hQ : Checked Q) {z : ℝ} (hz : 0 < z) {nz nz' : Nat} {p p' : List ℝ} (hl : p.length = 3) (hl' : p'.length = 3)
    (hbox : InBox 3 (p.map fun x => 2 * x - 1)) (hbox' : InBox 3 (p'.map fun x => 2 * x - 1)) (hon : AtSide 3 (faceAbove s) p) (hon' : AtSide 3 (faceAbove t) p')
    (hop : Opposite 3 (faceAbove s) (faceAbove t) p p') : (prism z nz P).place 3 p = (prism z nz' Q).place 3 p' := by
  obtain ⟨f1, f2, -⟩ := faceAbove_spec h.left
  obtain ⟨g1, g2, -⟩ := faceAbove_spec h.right
  have hd := @sideDir_le s
  have hd' := @sideDir_le t
  refine place_seam (prism_good hP hz nz) (prism_good hQ hz nz') (by omega) (by omega) (by omega) (by omega) ?_ hbox hon hbox' hon' ?_
  · intro R
    rw [prism_arcs hP h.left, prism_arcs hQ h.right, h.arcs]
  refine ext_getD (iso_length.trans iso_length.symm) (fun j hj => ?_)
  rw [iso_length] at hj
  obtain ⟨i1, i2⟩ := prism_iso hP z nz (p.map fun x => 2 * x - 1)
  obtain ⟨k1, k2⟩ := prism_iso hQ z nz' (p'.map fun x => 2 * x - 1)
  by_cases hj2 : j < 2
  · rw [i1 j hj2, k1 j hj2]
    refine common_iso h hP ((onSide_above h.left _).1 hon) ((onSide_above h.right _).1 hon') ?_ hj2
    have := hop.1
    rw [f2, g2] at this
    rw [getD_two (by omega), getD_two (by omega), this]
  · have : j = 2 := by omega
    subst this
    rw [i2, k2, getD_two (by omega), getD_two (by omega), hop.2]

theorem common_sides {s t : Nat} (h : Common P Q s t) (hP : Checked P) (hQ : Checked Q) (cP : Counted 2 P) (cQ : Counted 2 Q) (hT : target.classOf = .qua)
    (hA : IsPieceMesh inv 2 P target A) (hB : IsPieceMesh inv 2 Q target B) : sidePlaces 2 P target s A = sidePlaces 2 Q target t B := by
  have e1 : P.divs 2 = 1 := List.getD_eq_default _ _ (by rw [cP.1])
  have e2 : Q.divs 2 = 1 := List.getD_eq_default _ _ (by rw [cQ.1])
  refine Set.Subset.antisymm ?_ ?_
  · exact side_subset hP.good hQ.good cP cQ (by simpa using hT) hA hB h.left h.right sideDir_le sideDir_le h.div (by rw [e1, e2])
      fun p p' l l' b b' o o' op => common_place h hP hQ l l' b b' o o' op
  · exact side_subset hQ.good hP.good cQ cP (by simpa using hT) hB hA h.right h.left sideDir_le sideDir_le h.div.symm (by rw [e1, e2])
      fun p p' l l' b b' o o' op => (common_place h hP hQ l' l b' b o' o op.symm).symm

theorem divs_prism {z : ℝ} {nz a : Nat} (cP : P.ndiv.length = 2) (ha : a < 2) : (prism z nz P).divs a = P.divs a := by
  unfold Piece.divs prism
  dsimp only
  rw [List.getD_append _ _ _ _ (by omega)]

theorem divs_prism_z {z : ℝ} {nz : Nat} (cP : P.ndiv.length = 2) : (prism z nz P).divs 2 = nz := by
  unfold Piece.divs prism
  dsimp only
  rw [List.getD_append_right _ _ _ _ (by omega), cP]
  rfl

theorem counted_prism {z : ℝ} {nz : Nat} (cP : Counted 2 P) (h1 : 1 ≤ nz) (h2 : CountOk nz) : Counted 3 (prism z nz P) := by
  refine ⟨by simp [prism, cP.1], ?_⟩
  intro n hn
  simp only [prism, List.mem_append, List.mem_singleton] at hn
  rcases hn with h | rfl
  · exact cP.2 n h
  · exact ⟨h1, h2⟩

theorem common_faces {s t : Nat} (h : Common P Q s t) (hP : Checked P) (hQ : Checked Q) (cP : Counted 2 P) (cQ : Counted 2 Q) {z : ℝ} (hz : 0 < z) {nz : Nat} (h1 : 1 ≤ nz)
    (h2 : CountOk nz) (hT : target.classOf = .hex) (hA : IsPieceMesh inv 3 (prism z nz P) target A) (hB : IsPieceMesh inv 3 (prism z nz Q) target B) :
    sidePlaces 3 (prism z nz P) target (faceAbove s) A = sidePlaces 3 (prism z nz Q) target (faceAbove t) B := by
  obtain ⟨f1, f2, -⟩ := faceAbove_spec h.left
  obtain ⟨g1, g2, -⟩ := faceAbove_spec h.right
  have hd := @sideDir_le s
  have hd' := @sideDir_le t
  have hdiv : (prism z nz P).divs (1 - sideDir 3 (faceAbove s)) = (prism z nz Q).divs (1 - sideDir 3 (faceAbove t)) := by
    rw [divs_prism cP.1 (by omega), divs_prism cQ.1 (by omega), f2, g2, h.div]
  refine Set.Subset.antisymm ?_ ?_
  · exact side_subset (prism_good hP hz nz) (prism_good hQ hz nz) (counted_prism cP h1 h2) (counted_prism cQ h1 h2) (by simpa using hT) hA hB f1 g1 (by omega) (by omega)
      hdiv (by rw [divs_prism_z cP.1, divs_prism_z cQ.1]) fun p p' l l' b b' o o' op => common_above h hP hQ hz l l' b b' o o' op
  · exact side_subset (prism_good hQ hz nz) (prism_good hP hz nz) (counted_prism cQ h1 h2) (counted_prism cP h1 h2) (by simpa using hT) hB hA g1 f1 (by omega) (by omega)
      hdiv.symm (by rw [divs_prism_z cP.1, divs_prism_z cQ.1]) fun p p' l l' b b' o o' op => (common_above h hP hQ hz l' l b' b o' o op.symm).symm

end
end Gemlab.Structured
