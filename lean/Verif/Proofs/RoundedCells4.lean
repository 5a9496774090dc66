import Verif.Proofs.RoundedCells3

/-! The search with rounding. -/
namespace Gemlab.Rounded.Cells
noncomputable section
open Classical
open Gemlab.Mesh
open Gemlab.GridCells (IsBox coord Simplicial InHull Barycentric InHull.between forall2_get forall2_get' corner_ok inTriangle_iff inTetrahedron_iff)

variable {fl : ℝ → ℝ} {u M : ℝ} {m : Mesh ℝ}

theorem rounding_id : Rounding id 0 := ⟨monotone_id, fun _ => rfl, fun x => by simp, by norm_num⟩

/-- The exact coordinates of a point of a triangle are barycentric. -/
theorem hull3 (hd : m.ndim = 2) {c : Cell} {p q r : Nat} (hpts : c.points = [p, q, r]) {x : List ℝ} (hne : area2 (triOf m p q r) ≠ 0)
    (h : ∀ i, 0 ≤ depth (triOf m p q r) i (at' x 0, at' x 1)) : InHull m c x := by
  obtain ⟨N, hN⟩ : ∃ N, ∀ k, In N (triOf m p q r k) := by
    refine ⟨∑ k, (|(triOf m p q r k).1| + |(triOf m p q r k).2|), fun k => ?_⟩
    have := Finset.single_le_sum (f := fun k => |(triOf m p q r k).1| + |(triOf m p q r k).2|) (fun k _ => by positivity) (Finset.mem_univ k)
    constructor
    · exact le_trans (by linarith [abs_nonneg (triOf m p q r k).2]) this
    · exact le_trans (by linarith [abs_nonneg (triOf m p q r k).1]) this
  have hf : found id (triOf m p q r) (at' x 0, at' x 1) = true := by
    refine C91_inside rounding_id (M := max N (max |at' x 0| |at' x 1|)) (fun k => ⟨(hN k).1.trans (le_max_left _ _), (hN k).2.trans (le_max_left _ _)⟩) (by simpa using hne) ⟨?_, ?_⟩ (fun i => by simpa using h i)
    · exact (le_max_left _ _).trans (le_max_right _ _)
    · exact (le_max_right _ _).trans (le_max_right _ _)
  have key := Gemlab.C34_triangle_coords (coord m p 0, coord m p 1) (coord m q 0, coord m q 1) (coord m r 0, coord m r 1) (at' x 0, at' x 1) hne
  change inTriangle (Gemlab.triangleCoords (coord m p 0, coord m p 1) (coord m q 0, coord m q 1) (coord m r 0, coord m r 1) (at' x 0, at' x 1)) = true at hf
  generalize Gemlab.triangleCoords (coord m p 0, coord m p 1) (coord m q 0, coord m q 1) (coord m r 0, coord m r 1) (at' x 0, at' x 1) = z at key hf
  rw [inTriangle_iff] at hf
  have k := (key z).mp rfl
  simp only [Prod.smul_mk, Prod.mk_add_mk, Prod.mk.injEq, smul_eq_mul] at k
  refine ⟨[z.1, z.2.1, z.2.2], ⟨by rw [hpts]; rfl, by simp; linarith [k.1], ?_⟩, ?_⟩
  · intro i hi
    rw [hpts]
    simp only [List.zipWith_cons_cons, List.zipWith_nil_left, List.sum_cons, List.sum_nil]
    have : i = 0 ∨ i = 1 := by omega
    rcases this with rfl | rfl <;> linarith [k.2.1, k.2.2]
  · intro v hv
    simp only [List.mem_cons, List.not_mem_nil, or_false] at hv
    rcases hv with rfl | rfl | rfl
    exacts [hf.1, hf.2.1, hf.2.2]

theorem hull4 (hd : m.ndim = 3) {c : Cell} {p q r s : Nat} (hpts : c.points = [p, q, r, s]) {x : List ℝ} (hne : vol6 (tetOf m p q r s) ≠ 0)
    (h : ∀ i, 0 ≤ depth4 (tetOf m p q r s) i (at' x 0, at' x 1, at' x 2)) : InHull m c x := by
  obtain ⟨N, hN⟩ : ∃ N, ∀ k, In3 N (tetOf m p q r s k) := by
    refine ⟨∑ k, (|(tetOf m p q r s k).1| + |(tetOf m p q r s k).2.1| + |(tetOf m p q r s k).2.2|), fun k => ?_⟩
    have := Finset.single_le_sum (f := fun k => |(tetOf m p q r s k).1| + |(tetOf m p q r s k).2.1| + |(tetOf m p q r s k).2.2|) (fun k _ => by positivity)
      (Finset.mem_univ k)
    have a1 := abs_nonneg (tetOf m p q r s k).1
    have a2 := abs_nonneg (tetOf m p q r s k).2.1
    have a3 := abs_nonneg (tetOf m p q r s k).2.2
    exact ⟨le_trans (by linarith) this, le_trans (by linarith) this, le_trans (by linarith) this⟩
  have hf : found4 id (tetOf m p q r s) (at' x 0, at' x 1, at' x 2) = true := by
    refine C92_inside rounding_id (M := max N (max |at' x 0| (max |at' x 1| (max |at' x 2| 1)))) ?_
      (fun k => ⟨(hN k).1.trans (le_max_left _ _), (hN k).2.1.trans (le_max_left _ _), (hN k).2.2.trans (le_max_left _ _)⟩) (by simpa using hne) ⟨?_, ?_, ?_⟩
      (fun i => by simpa using h i)
    · simp
    · simp
    · simp
    · simp
  have key := Gemlab.C34_tetrahedron_coords (coord m p 0, coord m p 1, coord m p 2) (coord m q 0, coord m q 1, coord m q 2)
          (coord m r 0, coord m r 1, coord m r 2) (coord m s 0, coord m s 1, coord m s 2) (at' x 0, at' x 1, at' x 2) hne
  change inTetrahedron (Gemlab.tetrahedronCoords (coord m p 0, coord m p 1, coord m p 2) (coord m q 0, coord m q 1, coord m q 2)
          (coord m r 0, coord m r 1, coord m r 2) (coord m s 0, coord m s 1, coord m s 2) (at' x 0, at' x 1, at' x 2)) = true at hf
  generalize Gemlab.tetrahedronCoords (coord m p 0, coord m p 1, coord m p 2) (coord m q 0, coord m q 1, coord m q 2)
          (coord m r 0, coord m r 1, coord m r 2) (coord m s 0, coord m s 1, coord m s 2) (at' x 0, at' x 1, at' x 2) = z at key hf
  rw [inTetrahedron_iff] at hf
  have k := (key z).mp rfl
  simp only [Prod.smul_mk, Prod.mk_add_mk, Prod.mk.injEq, smul_eq_mul] at k
  refine ⟨[z.1, z.2.1, z.2.2.1, z.2.2.2], ⟨by rw [hpts]; rfl, by simp; linarith [k.1], ?_⟩, ?_⟩
  · intro i hi
    rw [hpts]
    simp only [List.zipWith_cons_cons, List.zipWith_nil_left, List.sum_cons, List.sum_nil]
    have : i = 0 ∨ i = 1 ∨ i = 2 := by omega
    rcases this with rfl | rfl | rfl <;> linarith [k.2.1, k.2.2.1, k.2.2.2]
  · intro v hv
    simp only [List.mem_cons, List.not_mem_nil, or_false] at hv
    rcases hv with rfl | rfl | rfl | rfl
    exacts [hf.1, hf.2.1, hf.2.2.1, hf.2.2.2]

/-- The point is in the bounding box. -/
def InBox (m : Mesh ℝ) (b : List ℝ × List ℝ) (x : List ℝ) : Prop := ∀ i < m.ndim, at' b.1 i ≤ at' x i ∧ at' x i ≤ at' b.2 i

/-- The answer of `in_cell` without the test of the bounding box. -/
def Computed (fl : ℝ → ℝ) (m : Mesh ℝ) (c : Cell) (x : List ℝ) : Prop :=
  match m.ndim, c.points with
  | 2, [p, q, r] => found fl (triOf m p q r) (at' x 0, at' x 1) = true
  | 3, [p, q, r, s] => found4 fl (tetOf m p q r s) (at' x 0, at' x 1, at' x 2) = true
  | _, _ => False

theorem inCell_spec (h : ValidMesh m) (hs : Simplicial m) {g : GridCells} (hgm : g.mesh = m)
    {k : Nat} {c : Cell} (hc : m.cells[k]? = some c) {b : List ℝ × List ℝ} (hb : g.boxes[k]? = some b)
    {zeta x : List ℝ} (hz : zeta.length = 4) (hx : x.length = m.ndim) :
    ∃ z, inCell fl g zeta x k = .ok (decide (InBox m b x ∧ Computed fl m c x), z) ∧ z.length = 4 := by
  have hcm := List.mem_of_getElem? hc
  have hnn := h.nnode c hcm
  unfold inCell
  rw [Res.idx_eq_ok.mpr hb, Res.bind_ok, hgm]
  by_cases hout : ∃ i < m.ndim, at' x i < at' b.1 i ∨ at' x i > at' b.2 i
  · rw [if_pos hout]
    refine ⟨zeta, ?_, hz⟩
    have : ¬InBox m b x := by
      obtain ⟨i, hi, ho⟩ := hout
      intro hin
      have := hin i hi
      rcases ho with ho | ho <;> linarith [this.1, this.2]
    simp [this]
  · rw [if_neg hout, Res.idx_eq_ok.mpr hc, Res.bind_ok]
    have hin : InBox m b x := by
      intro i hi
      push Not at hout
      exact hout i hi
    dsimp only
    rcases hs with ⟨hd, hk⟩ | ⟨hd, hk⟩
    · have hkc := hk c hcm
      rw [if_pos hkc]
      rw [hkc] at hnn
      change c.points.length = 3 at hnn
      match hpts : c.points, hnn with
      | [p, q, r], _ =>
      obtain ⟨xa, ea, la, ha⟩ := corner_ok h hcm (k := 0) (p := p) (by rw [hpts]; rfl)
      obtain ⟨xb, eb, lb, hb'⟩ := corner_ok h hcm (k := 1) (p := q) (by rw [hpts]; rfl)
      obtain ⟨xc, ec, lc, hc'⟩ := corner_ok h hcm (k := 2) (p := r) (by rw [hpts]; rfl)
      rw [hpts] at ea eb ec
      rw [ea, Res.bind_ok, eb, Res.bind_ok, ec, Res.bind_ok, if_neg (by omega)]
      rw [ha, ha, hb', hb', hc', hc']
      have e : inTriangle (Rounded.triangleCoords fl (coord m p 0, coord m p 1) (coord m q 0, coord m q 1) (coord m r 0, coord m r 1) (at' x 0, at' x 1)) = decide (InBox m b x ∧ Computed fl m c x) := by
        rw [Bool.eq_iff_iff, decide_eq_true_iff]
        unfold Computed
        rw [hd, hpts]
        exact ⟨fun h => ⟨hin, h⟩, fun h => h.2⟩
      rw [e]
      exact ⟨_, rfl, rfl⟩
    · have hkc := hk c hcm
      rw [if_neg (by rw [hkc]; decide), if_pos hkc]
      rw [hkc] at hnn
      change c.points.length = 4 at hnn
      match hpts : c.points, hnn with
      | [p, q, r, s], _ =>
      obtain ⟨xa, ea, la, ha⟩ := corner_ok h hcm (k := 0) (p := p) (by rw [hpts]; rfl)
      obtain ⟨xb, eb, lb, hb'⟩ := corner_ok h hcm (k := 1) (p := q) (by rw [hpts]; rfl)
      obtain ⟨xc, ec, lc, hc'⟩ := corner_ok h hcm (k := 2) (p := r) (by rw [hpts]; rfl)
      obtain ⟨xd, ed, ld, hd'⟩ := corner_ok h hcm (k := 3) (p := s) (by rw [hpts]; rfl)
      rw [hpts] at ea eb ec ed
      rw [ea, Res.bind_ok, eb, Res.bind_ok, ec, Res.bind_ok, ed, Res.bind_ok, if_neg (by omega)]
      rw [ha, ha, ha, hb', hb', hb', hc', hc', hc', hd', hd', hd']
      have e : inTetrahedron (Rounded.tetrahedronCoords fl (coord m p 0, coord m p 1, coord m p 2) (coord m q 0, coord m q 1, coord m q 2)
          (coord m r 0, coord m r 1, coord m r 2) (coord m s 0, coord m s 1, coord m s 2) (at' x 0, at' x 1, at' x 2)) = decide (InBox m b x ∧ Computed fl m c x) := by
        rw [Bool.eq_iff_iff, decide_eq_true_iff]
        unfold Computed
        rw [hd, hpts]
        exact ⟨fun h => ⟨hin, h⟩, fun h => h.2⟩
      rw [e]
      exact ⟨_, rfl, rfl⟩

/-- The answer of a loop over cells. -/
def Answer (fl : ℝ → ℝ) (m : Mesh ℝ) (g : GridCells) (ids : List Nat) (x : List ℝ) (r : Option Nat × List ℝ) : Prop :=
  r.2.length = 4 ∧ match r.1 with
  | some id => id ∈ ids ∧ ∃ c b, m.cells[id]? = some c ∧ g.boxes[id]? = some b ∧ InBox m b x ∧ Computed fl m c x
  | none => ∀ id ∈ ids, ∀ c b, m.cells[id]? = some c → g.boxes[id]? = some b → ¬(InBox m b x ∧ Computed fl m c x)

theorem searchIn_spec (h : ValidMesh m) (hs : Simplicial m) {g : GridCells} (hgm : g.mesh = m)
    (hgb : List.Forall₂ (fun c b => IsBox m c.points b) m.cells g.boxes) {x : List ℝ}
    (hx : x.length = m.ndim) (ids : List Nat) (hids : ∀ k ∈ ids, k < m.cells.length) (zeta : List ℝ) (hz : zeta.length = 4) :
    ∃ r, searchIn fl g x ids zeta = .ok r ∧ Answer fl m g ids x r := by
  induction ids generalizing zeta with
  | nil => exact ⟨(none, zeta), rfl, hz, by simp⟩
  | cons k ids ih =>
    have hk := hids k (by simp)
    have hc : m.cells[k]? = some m.cells[k] := List.getElem?_eq_getElem hk
    obtain ⟨b, hb, _⟩ := forall2_get' hgb hc
    obtain ⟨z, hzc, hzl⟩ := inCell_spec (fl := fl) h hs hgm hc hb hz hx
    unfold searchIn
    rw [hzc, Res.bind_ok]
    dsimp only
    by_cases hh : InBox m b x ∧ Computed fl m m.cells[k] x
    · rw [if_pos (by simpa using hh)]
      refine ⟨(some k, z), rfl, hzl, by simp, _, b, hc, hb, hh⟩
    · rw [if_neg (by simpa using hh)]
      obtain ⟨r, hr, ha⟩ := ih (fun k hk => hids k (by simp [hk])) z hzl
      refine ⟨r, hr, ha.1, ?_⟩
      have ha2 := ha.2
      split at ha2
      · rename_i id he; exact ⟨by simp [ha2.1], ha2.2⟩
      · rename_i he
        intro id hid c b' hcid hbid
        rcases List.mem_cons.mp hid with rfl | hid
        · rw [hc] at hcid; simp only [Option.some.injEq] at hcid; subst hcid
          rw [hb] at hbid; simp only [Option.some.injEq] at hbid; subst hbid; exact hh
        · exact ha2 id hid c b' hcid hbid

end
end Gemlab.Rounded.Cells
