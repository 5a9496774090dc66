import Verif.Props.DisksFit
import Verif.Props.Rectangle

/-! # A quarter disk of three cells -/
namespace Gemlab.Structured
noncomputable section
open Classical
open Gemlab.Mesh Gemlab.Shapes Gemlab.Block Gemlab.Spec

variable {inv : MatInverse} {P : Piece} {A : Mesh ℝ}

theorem far_of {x y : List ℝ} (hx : x.length = 2) {a : Nat} (ha : a < 2) (h : 1 / 20 < |x.getD a 0 - y.getD a 0|) : SameOrFar 2 x y := by
  refine .inr ?_
  have h2 : Real.sqrt (2 : ℕ) * (1 / 10000) < 1 / 20 := by
    have : Real.sqrt ((2 : ℕ) : ℝ) ≤ 2 := Real.sqrt_le_iff.2 ⟨by norm_num, by norm_num⟩
    calc _ ≤ 2 * (1 / 10000 : ℝ) := mul_le_mul_of_nonneg_right this (by norm_num)
      _ < _ := by norm_num
  refine h2.trans (h.trans_le ?_)
  unfold euclid
  rw [hx]
  refine Real.le_sqrt_of_sq_le ?_
  rw [sq_abs]
  exact Finset.single_le_sum (f := fun i => (x.getD i 0 - y.getD i 0) ^ 2) (fun i _ => sq_nonneg _) (Finset.mem_range.2 ha)

/-- Places of the corners of the only cell. -/
theorem corner_pos (hd : P.ndiv = [1, 1]) : ∀ m < 4, P.pos 2 .qua4 0 0 0 m = [if m = 0 ∨ m = 3 then 0 else 1, if m = 0 ∨ m = 1 then 0 else 1] := by
  intro m hm
  have h0 : ∀ m < 4, ∀ a < 2, (refCoordQ .qua4 m a = -1 ∨ refCoordQ .qua4 m a = 1) ∧ (refCoordQ .qua4 m a = -1 ↔ (if a = 0 then m = 0 ∨ m = 3 else m = 0 ∨ m = 1)) := by decide +kernel
  unfold Piece.pos tickPos Piece.divs evenTicks
  rw [hd]
  simp only [List.range_succ, List.range_zero, List.nil_append, List.map_cons, List.map_nil, List.cons_append, pick]
  unfold refCoord
  congr 1
  · obtain ⟨h1, h2⟩ := h0 m hm 0 (by norm_num)
    rw [if_pos rfl] at h2
    rcases h1 with h | h
    · rw [h, if_pos (h2.1 h)]; norm_num
    · have hn : ¬ (m = 0 ∨ m = 3) := fun k => by rw [h2.2 k] at h; norm_num at h
      rw [h, if_neg hn]; norm_num
  · congr 1
    obtain ⟨h1, h2⟩ := h0 m hm 1 (by norm_num)
    rw [if_neg (by norm_num)] at h2
    rcases h1 with h | h
    · rw [h, if_pos (h2.1 h)]; norm_num
    · have hn : ¬ (m = 0 ∨ m = 1) := fun k => by rw [h2.2 k] at h; norm_num at h
      rw [h, if_neg hn]; norm_num

theorem corner_place (hP : Checked P) (hl : P.nodes.length = 4) (hd : P.ndiv = [1, 1]) {m : Nat} (hm : m < 4) : P.place 2 (P.pos 2 .qua4 0 0 0 m) = P.nodes.getD m [] := by
  have hlen : (P.nodes.getD m []).length = 2 := by
    rw [List.getD_eq_getElem _ _ (by omega)]
    exact hP.plane _ (List.getElem_mem _)
  have hiso : isoMap P.nodes.length 2 P.at_ ((P.pos 2 .qua4 0 0 0 m).map fun x => 2 * x - 1) = P.nodes.getD m [] := by
    refine ext_getD (iso_length.trans hlen.symm) (fun j hj => ?_)
    rw [iso_length] at hj
    rw [hl, iso4 _ _ _ hj, corner_pos hd m hm]
    show _ = P.at_ m j
    rcases (by omega : m = 0 ∨ m = 1 ∨ m = 2 ∨ m = 3) with rfl | rfl | rfl | rfl <;> norm_num
  rw [← hiso]
  have hbox : InBox 2 ((P.pos 2 .qua4 0 0 0 m).map fun x => 2 * x - 1) := by
    rw [corner_pos hd m hm]
    intro a ha
    rcases (by omega : a = 0 ∨ a = 1) with rfl | rfl <;> rcases (by omega : m = 0 ∨ m = 1 ∨ m = 2 ∨ m = 3) with rfl | rfl | rfl | rfl <;> norm_num
  have hon : ∀ s < 4, (s = 0 ∧ (m = 0 ∨ m = 1)) ∨ (s = 1 ∧ (m = 1 ∨ m = 2)) ∨ (s = 2 ∧ (m = 2 ∨ m = 3)) ∨ (s = 3 ∧ (m = 0 ∨ m = 3)) → AtSide 2 s (P.pos 2 .qua4 0 0 0 m) := by
    intro s hs h
    rw [corner_pos hd m hm]
    unfold AtSide OnSide
    rcases h with ⟨rfl, rfl | rfl⟩ | ⟨rfl, rfl | rfl⟩ | ⟨rfl, rfl | rfl⟩ | ⟨rfl, rfl | rfl⟩ <;> norm_num [sideDir, sideVal]
  -- the corner is on two sides, one of which is not an arc
  let s1 : Nat := if m = 0 ∨ m = 1 then 0 else 2
  let s2 : Nat := if m = 0 ∨ m = 3 then 3 else 1
  have d1 : sideDir 2 s1 = 1 := by simp only [s1]; split <;> rfl
  have d2 : sideDir 2 s2 = 0 := by simp only [s2]; split <;> rfl
  have hs1 : s1 < 4 := by simp only [s1]; split <;> norm_num
  have hs2 : s2 < 4 := by simp only [s2]; split <;> norm_num
  have o1 := hon s1 hs1 (by simp only [s1]; rcases (by omega : m = 0 ∨ m = 1 ∨ m = 2 ∨ m = 3) with rfl | rfl | rfl | rfl <;> simp)
  have o2 := hon s2 hs2 (by simp only [s2]; rcases (by omega : m = 0 ∨ m = 1 ∨ m = 2 ∨ m = 3) with rfl | rfl | rfl | rfl <;> simp)
  by_cases h : ∃ q ∈ P.arcs, q.1 = s1
  · obtain ⟨q, hq, e⟩ := h
    refine place_off hP.good (s := s2) (by omega) (by omega) (fun q' hq' e' => ?_) hbox o2
    have := (hP.opposite q hq q' hq').1
    rw [e, e', d1, d2] at this
    omega
  · exact place_off hP.good (s := s1) (by omega) (by omega) (fun q hq e => h ⟨q, hq, e⟩) hbox o1

/-- The mesh of a block that is not divided. -/
theorem single (hP : Checked P) (hl : P.nodes.length = 4) (hd : P.ndiv = [1, 1]) (hn : P.nodes.Nodup) (hA : IsPieceMesh inv 2 P .qua4 A) :
    geomCells A = [(1, .qua4, P.nodes)] ∧ Proper A ∧ A.ndim = 2 ∧ ∀ pt ∈ A.points, pt.coords ∈ P.nodes := by
  have hcount : Counted 2 P := counted_two hd le_rfl (by unfold CountOk; omega) le_rfl (by unfold CountOk; omega)
  obtain ⟨pl, h1, h2⟩ := piece_patch hP.good hcount rfl hA
  have hdiv : ∀ a, P.divs a = 1 := by
    intro a; unfold Piece.divs; rw [hd]
    rcases a with _ | _ | a <;> simp
  have hbox : ∀ i j k, Box P.divs i j k ↔ i = 0 ∧ j = 0 ∧ k = 0 := by
    intro i j k; unfold Box; rw [hdiv, hdiv, hdiv]; omega
  have b0 := (hbox 0 0 0).2 ⟨rfl, rfl, rfl⟩
  have hnum : rowMajor P.divs 0 0 0 = 0 := by simp [rowMajor]
  have hco : ∀ m < 4, ptOf A 0 m < A.points.length ∧ coordsOf A (ptOf A 0 m) = P.nodes.getD m [] := by
    intro m hm
    obtain ⟨c1, c2⟩ := h1.coords 0 0 0 m b0 hm
    rw [hnum] at c1 c2
    refine ⟨c1, c2.trans ?_⟩
    exact (h2 0 0 0 m b0 hm (.inl (by decide))).trans (corner_place hP hl hd hm)
  obtain ⟨c, hc, -, hmk, hk, hcl⟩ := h1.cell 0 0 0 b0
  rw [hnum] at hc
  have hcl : c.points.length = 4 := hcl
  have hlen : A.cells.length = 1 := by
    have h0 := (List.getElem?_eq_some_iff.1 hc).1
    by_contra hne
    obtain ⟨i, j, k, hb, e⟩ := h1.onto 1 (by omega)
    obtain ⟨rfl, rfl, rfl⟩ := (hbox _ _ _).1 hb
    rw [hnum] at e
    omega
  have hcells : A.cells = [c] := by
    obtain ⟨c', e⟩ := List.length_eq_one_iff.1 hlen
    rw [e] at hc
    cases hc
    exact e
  have hpts : c.points.map (coordsOf A) = P.nodes := by
    refine List.ext_getElem (by simp [hcl, hl]) (fun m hm hm' => ?_)
    have hm4 : m < 4 := by omega
    have := (hco m hm4).2
    have e : ptOf A 0 m = c.points[m]'(by omega) := by
      unfold ptOf
      rw [hcells]
      show (c.points).getD m 0 = _
      rw [List.getD_eq_getElem _ 0 (by omega)]
    rw [e, List.getD_eq_getElem _ _ (by omega)] at this
    rw [List.getElem_map, this]
  refine ⟨?_, ?_, h1.space, ?_⟩
  · unfold geomCells
    rw [hcells]
    show [(c.marker, c.kind, c.points.map (coordsOf A))] = _
    rw [hmk, hk, hpts]
  · refine proper_of_patch h1 (.inl rfl) ?_ hA.2.1 hA.2.2
    intro i j k m i' j' k' m' hb hb' hm hm' e
    have e1 := (h1.coords i j k m hb hm).2
    have e2 := (h1.coords i' j' k' m' hb' hm').2
    obtain ⟨rfl, rfl, rfl⟩ := (hbox _ _ _).1 hb
    obtain ⟨rfl, rfl, rfl⟩ := (hbox _ _ _).1 hb'
    have hm : m < 4 := hm
    have hm' : m' < 4 := hm'
    rw [hnum, (hco m hm).2] at e1
    rw [hnum, (hco m' hm').2] at e2
    have : P.nodes.getD m [] = P.nodes.getD m' [] := e1.trans (e.trans e2.symm)
    rw [List.getD_eq_getElem _ _ (by omega), List.getD_eq_getElem _ _ (by omega)] at this
    rw [(hn.getElem_inj_iff).1 this]
  · intro pt hpt
    obtain ⟨p, hp, e⟩ := List.mem_iff_getElem.1 hpt
    obtain ⟨-, -, -, i, j, k, m, hb, hm, hpm⟩ := h1.points p pt (by rw [List.getElem?_eq_getElem hp, e])
    obtain ⟨rfl, rfl, rfl⟩ := (hbox _ _ _).1 hb
    rw [hnum] at hpm
    have hm : m < 4 := hm
    have := (hco m hm).2
    rw [hpm] at this
    have hcp : coordsOf A p = pt.coords := by simp [coordsOf, hp, e]
    rw [← hcp, this, List.getD_eq_getElem _ _ (by omega)]
    exact List.getElem_mem _

/-- A corner that belongs to one cell only is a corner of the boundary. -/
theorem lonely_corner {L : List (Int × GeoKind × List (List ℝ))} {c0 : Nat} {mk : Int} {X : List (List ℝ)} (h0 : L[c0]? = some (mk, .qua4, X)) (hX : X.length = 4) (hn : X.Nodup)
    {a : Nat} (ha : a < 4) (h : ∀ (c : Nat) (mk' : Int) (k : GeoKind) (Y : List (List ℝ)), L[c]? = some (mk', k, Y) → X.getD a [] ∈ Y → c = c0) :
    BoundaryCorner 2 L (X.getD a []) := by
  unfold BoundaryCorner
  rw [if_pos rfl]
  have htab : ∀ a < 4, ∃ b < 4, ∃ e0 < 4, ((edgeNode .qua4 e0 0 = a ∧ edgeNode .qua4 e0 1 = b) ∨ (edgeNode .qua4 e0 0 = b ∧ edgeNode .qua4 e0 1 = a)) ∧
      ∀ e < 4, (edgeNode .qua4 e 0 < 4 ∧ edgeNode .qua4 e 1 < 4) ∧ (((edgeNode .qua4 e 0 = a ∧ edgeNode .qua4 e 1 = b) ∨ (edgeNode .qua4 e 0 = b ∧ edgeNode .qua4 e 1 = a)) → e = e0) := by
    decide +kernel
  obtain ⟨b, hb, e0, he0, t1, t2⟩ := htab a ha
  have hget : ∀ i < 4, X[i]? = some (X.getD i []) := by
    intro i hi
    rw [List.getElem?_eq_getElem (by omega), List.getD_eq_getElem _ _ (by omega)]
  have hidx : ∀ i < 4, ∀ j < 4, X[i]? = some (X.getD j []) → i = j := by
    intro i hi j hj e
    rw [hget i hi] at e
    have e := Option.some.inj e
    rw [List.getD_eq_getElem _ _ (by omega), List.getD_eq_getElem _ _ (by omega)] at e
    exact (hn.getElem_inj_iff).1 e
  refine ⟨X.getD b [], c0, e0, ⟨mk, .qua4, X, h0, rfl, he0, ?_⟩, ?_⟩
  · rcases t1 with ⟨u, v⟩ | ⟨u, v⟩
    · exact .inl ⟨by rw [u]; exact hget a ha, by rw [v]; exact hget b hb⟩
    · exact .inr ⟨by rw [u]; exact hget b hb, by rw [v]; exact hget a ha⟩
  · rintro c e ⟨mk', k, Y, hc, -, he, hor⟩
    have hcc : c = c0 := by
      refine h c mk' k Y hc ?_
      rcases hor with ⟨u, -⟩ | ⟨-, u⟩ <;> exact List.mem_of_getElem? u
    subst hcc
    rw [h0] at hc
    cases hc
    have he : e < 4 := he
    obtain ⟨⟨l1, l2⟩, t3⟩ := t2 e he
    refine ⟨rfl, t3 ?_⟩
    rcases hor with ⟨u, v⟩ | ⟨u, v⟩
    · exact .inl ⟨hidx _ l1 _ ha u, hidx _ l2 _ hb v⟩
    · exact .inr ⟨hidx _ l1 _ hb u, hidx _ l2 _ ha v⟩

/-- The corners of the three blocks of the disk of radius 1. -/
def corners1 (p : ℝ) : List (List ℝ) := [[0, 0], [1 / 2, 0], [p, p], [0, 1 / 2]]
def corners2 (p n : ℝ) : List (List ℝ) := [[1 / 2, 0], [1, 0], [n, n], [p, p]]
def corners3 (p n : ℝ) : List (List ℝ) := [[0, 1 / 2], [p, p], [n, n], [0, 1]]

def pp : ℝ := 1.15 * (1 / 2) * qq

theorem pp_lo : 2 / 5 < pp := by unfold pp; linarith [qq_lo]
theorem pp_hi : pp < 41 / 100 := by unfold pp; linarith [qq_hi]

theorem corners1_eq (na nb : Nat) : ((diskA 1 na nb).getD 0 ⟨[], [], []⟩).nodes = corners1 pp := by
  simp only [diskA, corners1, pp, angular_zero, angular_one, angular_half, List.getD_cons_zero]
theorem corners2_eq (na nb : Nat) : ((diskA 1 na nb).getD 1 ⟨[], [], []⟩).nodes = corners2 pp qq := by
  simp only [diskA, corners2, pp, angular_zero, angular_one, angular_half, List.getD_cons_zero, List.getD_cons_succ, one_mul]
theorem corners3_eq (na nb : Nat) : ((diskA 1 na nb).getD 2 ⟨[], [], []⟩).nodes = corners3 pp qq := by
  simp only [diskA, corners3, pp, angular_zero, angular_one, angular_half, List.getD_cons_zero, List.getD_cons_succ, one_mul]

theorem nodup1 {p : ℝ} (h1 : 2 / 5 < p) : (corners1 p).Nodup := by
  simp [corners1]
  refine ⟨?_, ?_, ?_⟩ <;> intros <;> linarith

theorem nodup2 {p n : ℝ} (h1 : 2 / 5 < p) (h2 : p < 41 / 100) (h3 : 7 / 10 < n) : (corners2 p n).Nodup := by
  simp [corners2]
  refine ⟨⟨?_, ?_⟩, ⟨?_, ?_⟩, ?_⟩ <;> intros <;> linarith

theorem nodup3 {p n : ℝ} (h1 : 2 / 5 < p) (h2 : p < 41 / 100) (h3 : 7 / 10 < n) : (corners3 p n).Nodup := by
  simp [corners3]
  refine ⟨⟨?_, ?_⟩, ⟨?_, ?_⟩, ?_⟩ <;> intros <;> linarith

theorem enclosed1 {p : ℝ} (h1 : 2 / 5 < p) (h2 : p < 41 / 100) : Enclosed 2 [((1 : Int), GeoKind.qua4, corners1 p)] := by
  have hn := nodup1 h1
  have hc : ∀ a < 4, BoundaryCorner 2 [((1 : Int), GeoKind.qua4, corners1 p)] ((corners1 p).getD a []) := by
    intro a ha
    refine lonely_corner (c0 := 0) rfl rfl hn ha ?_
    intro c mk k Y hc _
    match c with
    | 0 => rfl
    | c + 1 => simp at hc
  intro d hd
  rcases (by omega : d = 0 ∨ d = 1) with rfl | rfl
  · refine ⟨[0, 0], [1 / 2, 0], hc 0 (by norm_num), hc 1 (by norm_num), by norm_num, ?_⟩
    intro g hg v hv
    simp only [List.mem_singleton] at hg
    subst hg
    simp only [corners1, List.mem_cons, List.not_mem_nil, or_false] at hv
    rcases hv with rfl | rfl | rfl | rfl <;> simp <;> constructor <;> linarith
  · refine ⟨[0, 0], [0, 1 / 2], hc 0 (by norm_num), hc 3 (by norm_num), by norm_num, ?_⟩
    intro g hg v hv
    simp only [List.mem_singleton] at hg
    subst hg
    simp only [corners1, List.mem_cons, List.not_mem_nil, or_false] at hv
    rcases hv with rfl | rfl | rfl | rfl <;> simp <;> constructor <;> linarith

theorem enclosed2 {p n : ℝ} (h1 : 2 / 5 < p) (h2 : p < 41 / 100) (h3 : 7 / 10 < n) (h4 : n < 71 / 100) :
    Enclosed 2 [((1 : Int), GeoKind.qua4, corners1 p), ((1 : Int), GeoKind.qua4, corners2 p n)] := by
  have c0 : BoundaryCorner 2 [((1 : Int), GeoKind.qua4, corners1 p), ((1 : Int), GeoKind.qua4, corners2 p n)] [0, 0] := by
    refine lonely_corner (c0 := 0) (X := corners1 p) rfl rfl (nodup1 h1) (a := 0) (by norm_num) ?_
    intro c mk k Y hc hY
    match c with
    | 0 => rfl
    | 1 =>
      cases hc
      simp [corners1, corners2] at hY
      rcases hY with h | h <;> linarith
    | c + 2 => simp at hc
  have c1 : BoundaryCorner 2 [((1 : Int), GeoKind.qua4, corners1 p), ((1 : Int), GeoKind.qua4, corners2 p n)] [1, 0] := by
    refine lonely_corner (c0 := 1) (X := corners2 p n) rfl rfl (nodup2 h1 h2 h3) (a := 1) (by norm_num) ?_
    intro c mk k Y hc hY
    match c with
    | 0 =>
      cases hc
      simp [corners1, corners2] at hY
      linarith
    | 1 => rfl
    | c + 2 => simp at hc
  have c2 : BoundaryCorner 2 [((1 : Int), GeoKind.qua4, corners1 p), ((1 : Int), GeoKind.qua4, corners2 p n)] [n, n] := by
    refine lonely_corner (c0 := 1) (X := corners2 p n) rfl rfl (nodup2 h1 h2 h3) (a := 2) (by norm_num) ?_
    intro c mk k Y hc hY
    match c with
    | 0 =>
      cases hc
      simp [corners1, corners2] at hY
      rcases hY with h | h | h | h <;> linarith
    | 1 => rfl
    | c + 2 => simp at hc
  have hv : ∀ g ∈ [((1 : Int), GeoKind.qua4, corners1 p), ((1 : Int), GeoKind.qua4, corners2 p n)], ∀ v ∈ g.2.2,
      (0 ≤ v.getD 0 0 ∧ v.getD 0 0 ≤ 1) ∧ (0 ≤ v.getD 1 0 ∧ v.getD 1 0 ≤ n) := by
    intro g hg v hv
    simp only [List.mem_cons, List.not_mem_nil, or_false] at hg
    rcases hg with rfl | rfl <;> simp only [corners1, corners2, List.mem_cons, List.not_mem_nil, or_false] at hv <;>
      rcases hv with rfl | rfl | rfl | rfl <;> refine ⟨⟨?_, ?_⟩, ?_, ?_⟩ <;> norm_num <;> linarith
  intro d hd
  rcases (by omega : d = 0 ∨ d = 1) with rfl | rfl
  · exact ⟨[0, 0], [1, 0], c0, c1, by norm_num, fun g hg v h => (hv g hg v h).1⟩
  · exact ⟨[0, 0], [n, n], c0, c2, by simp; linarith, fun g hg v h => (hv g hg v h).2⟩

theorem corner_list {p n : ℝ} {x : List ℝ} (h : x ∈ corners1 p ∨ x ∈ corners2 p n ∨ x ∈ corners3 p n) :
    x = [0, 0] ∨ x = [1 / 2, 0] ∨ x = [p, p] ∨ x = [0, 1 / 2] ∨ x = [1, 0] ∨ x = [n, n] ∨ x = [0, 1] := by
  simp only [corners1, corners2, corners3, List.mem_cons, List.not_mem_nil, or_false] at h
  tauto

theorem corners_far {p n : ℝ} (h1 : 2 / 5 < p) (h2 : p < 41 / 100) (h3 : 7 / 10 < n) (h4 : n < 71 / 100) {x y : List ℝ}
    (hx : x = [0, 0] ∨ x = [1 / 2, 0] ∨ x = [p, p] ∨ x = [0, 1 / 2] ∨ x = [1, 0] ∨ x = [n, n] ∨ x = [0, 1])
    (hy : y = [0, 0] ∨ y = [1 / 2, 0] ∨ y = [p, p] ∨ y = [0, 1 / 2] ∨ y = [1, 0] ∨ y = [n, n] ∨ y = [0, 1]) : SameOrFar 2 x y := by
  have key : ∀ a b c d : ℝ, (1 / 20 < a - c ∨ 1 / 20 < c - a ∨ 1 / 20 < b - d ∨ 1 / 20 < d - b) → SameOrFar 2 [a, b] [c, d] := by
    rintro a b c d (h | h | h | h)
    · exact far_of rfl (a := 0) (by norm_num) (lt_of_lt_of_le h (le_abs_self _))
    · exact far_of rfl (a := 0) (by norm_num) (lt_of_lt_of_le h (by show c - a ≤ |a - c|; rw [abs_sub_comm]; exact le_abs_self _))
    · exact far_of rfl (a := 1) (by norm_num) (lt_of_lt_of_le h (le_abs_self _))
    · exact far_of rfl (a := 1) (by norm_num) (lt_of_lt_of_le h (by show d - b ≤ |b - d|; rw [abs_sub_comm]; exact le_abs_self _))
  rcases hx with rfl | rfl | rfl | rfl | rfl | rfl | rfl <;> rcases hy with rfl | rfl | rfl | rfl | rfl | rfl | rfl <;>
    first
    | exact .inl rfl
    | exact key _ _ _ _ (.inl (by linarith))
    | exact key _ _ _ _ (.inr (.inl (by linarith)))
    | exact key _ _ _ _ (.inr (.inr (.inl (by linarith))))
    | exact key _ _ _ _ (.inr (.inr (.inr (by linarith))))

theorem corners_limits {x : List ℝ} (hx : x = [0, 0] ∨ x = [1 / 2, 0] ∨ x = [pp, pp] ∨ x = [0, 1 / 2] ∨ x = [1, 0] ∨ x = [qq, qq] ∨ x = [0, 1]) :
    ∀ v ∈ x, -f64Max ≤ v ∧ v ≤ f64Max := by
  have h := three_le_f64Max
  have := pp_lo
  have := pp_hi
  have := qq_lo
  have := qq_hi
  intro v hv
  rcases hx with rfl | rfl | rfl | rfl | rfl | rfl | rfl <;> simp only [List.mem_cons, List.not_mem_nil, or_false, or_self] at hv <;>
    (try rcases hv with rfl | rfl) <;> (try subst hv) <;> constructor <;> linarith

/-- The hypotheses are met: the quarter disk of radius 1 with one cell in each of the three blocks. -/
example : ∃ (o : GenOrders) (M : Mesh ℝ), o.Valid ∧ quarterDisk2dA exactInverse o 1 1 1 .qua4 false = .ok M ∧
    geomCells M = [(1, .qua4, corners1 pp), (1, .qua4, corners2 pp qq), (1, .qua4, corners3 pp qq)] ∧ M.points.length = 7 := by
  obtain ⟨o, ho⟩ := exists_orders
  have hr : (2 : ℝ) / 10 ^ 8 ≤ 1 := by norm_num
  have one : CountOk 1 := by unfold CountOk; omega
  obtain ⟨ms, hlen, hms, hok⟩ := (C68_quarter_disk_2d_a exactInverse_spec exactInverse_noPanic exactInverse_total ho (target := .qua4) hr one one).2 ⟨le_rfl, le_rfl, rfl⟩
  have hlen : ms.length = 3 := hlen
  match ms, hlen, hms, hok with
  | [A, B, C], _, hms, hok =>
    have hc := diskA_checked hr 1 1
    have p1 := pp_lo
    have p2 := pp_hi
    have q1 := qq_lo
    have q2 := qq_hi
    obtain ⟨gA, pA, dA, cA⟩ := single (hc _ (List.getElem_mem (l := diskA 1 1 1) (n := 0) (by decide))) rfl rfl (by rw [show (diskA 1 1 1)[0].nodes = _ from corners1_eq 1 1]; exact nodup1 p1)
      (hms 0 _ A rfl rfl)
    obtain ⟨gB, pB, dB, cB⟩ := single (hc _ (List.getElem_mem (l := diskA 1 1 1) (n := 1) (by decide))) rfl rfl (by rw [show (diskA 1 1 1)[1].nodes = _ from corners2_eq 1 1]; exact nodup2 p1 p2 q1)
      (hms 1 _ B rfl rfl)
    obtain ⟨gC, pC, dC, cC⟩ := single (hc _ (List.getElem_mem (l := diskA 1 1 1) (n := 2) (by decide))) rfl rfl (by rw [show (diskA 1 1 1)[2].nodes = _ from corners3_eq 1 1]; exact nodup3 p1 p2 q1)
      (hms 2 _ C rfl rfl)
    rw [show (diskA 1 1 1)[0].nodes = _ from corners1_eq 1 1] at gA cA
    rw [show (diskA 1 1 1)[1].nodes = _ from corners2_eq 1 1] at gB cB
    rw [show (diskA 1 1 1)[2].nodes = _ from corners3_eq 1 1] at gC cC
    have hall : allCells [A, B, C] = [(1, .qua4, corners1 pp), (1, .qua4, corners2 pp qq), (1, .qua4, corners3 pp qq)] := by
      simp [allCells, gA, gB, gC]
    have hcan : CanAssemble 2 [A, B, C] := by
      refine ⟨by simp, ?_, ?_, ?_, by intro h; omega, ?_⟩
      · intro X hX
        simp only [List.mem_cons, List.not_mem_nil, or_false] at hX
        rcases hX with rfl | rfl | rfl
        · exact ⟨pA, dA⟩
        · exact ⟨pB, dB⟩
        · exact ⟨pC, dC⟩
      · intro X hX pt hpt
        simp only [List.mem_cons, List.not_mem_nil, or_false] at hX
        rcases hX with rfl | rfl | rfl
        · exact corners_limits (corner_list (.inl (cA pt hpt)))
        · exact corners_limits (corner_list (.inr (.inl (cB pt hpt))))
        · exact corners_limits (corner_list (.inr (.inr (cC pt hpt))))
      · have hin : ∀ g ∈ allCells [A, B, C], ∀ x ∈ g.2.2, x ∈ corners1 pp ∨ x ∈ corners2 pp qq ∨ x ∈ corners3 pp qq := by
          intro g hg x hx
          rw [hall] at hg
          simp only [List.mem_cons, List.not_mem_nil, or_false] at hg
          rcases hg with rfl | rfl | rfl
          · exact .inl hx
          · exact .inr (.inl hx)
          · exact .inr (.inr hx)
        intro g hg x hx g' hg' y hy
        exact corners_far p1 p2 q1 q2 (corner_list (hin g hg x hx)) (corner_list (hin g' hg' y hy))
      · intro k hk hk'
        have hk' : k < 3 := hk'
        rcases (by omega : k = 1 ∨ k = 2) with rfl | rfl
        · have : allCells ([A, B, C].take 1) = [(1, .qua4, corners1 pp)] := by simp [allCells, gA]
          rw [this]; exact enclosed1 p1 p2
        · have : allCells ([A, B, C].take 2) = [(1, .qua4, corners1 pp), (1, .qua4, corners2 pp qq)] := by simp [allCells, gA, gB]
          rw [this]; exact enclosed2 p1 p2 q1 q2
    obtain ⟨M, e, hA, -⟩ := hok hcan
    refine ⟨o, M, ho, e, hA.cells.trans hall, ?_⟩
    -- seven different places
    have hcells := hA.cells.trans hall
    have hpl : (List.range M.points.length).map (coordsOf M) |>.Nodup := by
      refine List.Nodup.map_on ?_ List.nodup_range
      intro x hx y hy hxy
      exact hA.proper.distinct x (List.mem_range.1 hx) y (List.mem_range.1 hy) hxy
    have hset : ∀ x, x ∈ (List.range M.points.length).map (coordsOf M) ↔ x ∈ [[0, 0], [1 / 2, 0], [pp, pp], [0, 1 / 2], [1, 0], [qq, qq], [0, 1]] := by
      intro x
      have key : x ∈ (List.range M.points.length).map (coordsOf M) ↔ ∃ g ∈ geomCells M, x ∈ g.2.2 := by
        constructor
        · intro h
          obtain ⟨i, hi, rfl⟩ := List.mem_map.1 h
          exact geom_coords hA.proper (List.mem_range.1 hi)
        · rintro ⟨g, hg, hx⟩
          obtain ⟨c, hc, rfl⟩ := List.mem_map.1 hg
          obtain ⟨p, hp, rfl⟩ := List.mem_map.1 hx
          exact List.mem_map.2 ⟨p, List.mem_range.2 (hA.proper.valid.inRange c hc p hp), rfl⟩
      rw [key, hcells]
      simp only [List.mem_cons, List.not_mem_nil, or_false, exists_eq_or_imp, exists_eq_left]
      constructor
      · intro h
        exact corner_list (by simpa only [corners1, corners2, corners3, List.mem_cons, List.not_mem_nil, or_false] using h)
      · rintro (h | h | h | h | h | h | h) <;> subst h <;> simp [corners1, corners2, corners3]
    have h7 : ([[0, 0], [1 / 2, 0], [pp, pp], [0, 1 / 2], [1, 0], [qq, qq], [0, 1]] : List (List ℝ)).Nodup := by
      simp
      refine ⟨⟨?_, ?_⟩, ⟨?_, ?_⟩, ⟨?_, ?_, ?_, ?_⟩, ?_, ?_, ?_⟩ <;> intros <;> linarith
    have := ((List.perm_ext_iff_of_nodup hpl h7).2 hset).length_eq
    simpa using this

end
end Gemlab.Structured
