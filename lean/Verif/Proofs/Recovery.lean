import Verif.Proofs.Pinv
import Verif.Proofs.RecoveryRank2
import Verif.Proofs.Shapes
import Mathlib.Tactic.Linarith
import Mathlib.Tactic.NormNum
/-! Interpolation matrices: rank, and the extrapolation of affine fields. -/
namespace Gemlab.Recov
noncomputable section
open Gemlab.Shapes Gemlab.GaussSpec Gemlab.RankMod Gemlab.Spec Matrix

/-- Body of the loop of `get_interp_matrix`. -/
def interpStep (g : Gauss) (s : (Nat → Nat → ℝ) × Scratchpad) (p : Nat) : (Nat → Nat → ℝ) × Scratchpad :=
  (fun p' j => if p' = p ∧ j < s.2.kind.nnode then calcInterp s.2.kind (g.coords p) j else s.1 p' j, s.2.calcInterp (g.coords p))

theorem getInterpMatrix_kind (pad : Scratchpad) (g : Gauss) :
    (getInterpMatrix pad g).2.kind = pad.kind ∧ ∀ p < g.npoint, ∀ j < pad.kind.nnode, (getInterpMatrix pad g).1 p j = calcInterp pad.kind (g.coords p) j := by
  have e : getInterpMatrix pad g = (List.range g.npoint).foldl (interpStep g) (fun _ _ => 0, pad) := rfl
  rw [e]
  generalize g.npoint = n
  induction n with
  | zero => simp
  | succ n ih =>
    rw [List.range_succ, List.foldl_append, List.foldl_cons, List.foldl_nil]
    obtain ⟨h1, h2⟩ := ih
    generalize List.foldl (interpStep g) (fun _ _ => 0, pad) (List.range n) = s at h1 h2 ⊢
    refine ⟨h1, ?_⟩
    intro p hp j hj
    unfold interpStep
    dsimp only
    by_cases h : p = n
    · subst h
      rw [h1, if_pos ⟨rfl, hj⟩]
    · rw [if_neg (by tauto)]
      exact h2 p (by omega) j hj

theorem interpAt (pad : Scratchpad) (g : Gauss) {p j : Nat} (hp : p < g.npoint) (hj : j < pad.kind.nnode) :
    (getInterpMatrix pad g).1 p j = calcInterp pad.kind (g.coords p) j := (getInterpMatrix_kind pad g).2 p hp j hj

theorem pq_cast (k : GeoKind) (r : GaussRow) (j : Nat) (hj : j < k.nnode) :
    ((((interp k).map fun e => PE.evalQ (GaussRow.get r) e).getD j 0 : ℚ) : ℝ) = calcInterp k (fun i => ((GaussRow.get r i : ℚ) : ℝ)) j := by
  have hl : j < (interp k).length := by rw [interp_length]; exact hj
  rw [getD_of_lt _ _ (by simpa using hl), List.getElem_map, ← PE.eval_cast, calcInterp, getD_of_lt _ _ hl]

theorem coords_eq (g : GaussTable) (p : Nat) : g.toGauss.coords p = fun i => ((GaussRow.get (g.data.getD p (0, 0, 0, 0)) i : ℚ) : ℝ) := rfl

/-- Rules of the class: the number of points is in the table. -/
theorem newSized_mem {cls : GeoClass} {n : Nat} {g : GaussTable} (h : GaussTable.newSized cls n = .ok g) : n ∈ (rules cls).map Prod.fst ∧ g.data.length = n := by
  unfold GaussTable.newSized at h
  split at h <;> simp only [Res.bind_ok, Res.bind_err, Res.ok.injEq, reduceCtorEq] at h <;> subst h <;>
    exact ⟨by simp [rules], rfl⟩

theorem injective_cols {k : GeoKind} {n : Nat} {g : GaussTable} (hg : GaussTable.newSized k.classOf n = .ok g) (hn : k.nnode ≤ n)
    (pad : Scratchpad) (hk : pad.kind = k) (u : Fin k.nnode → ℝ) (hu : toM n k.nnode (getInterpMatrix pad g.toGauss).1 *ᵥ u = 0) : u = 0 := by
  obtain ⟨hm, hl⟩ := newSized_mem hg
  have h := chkRank_ok k
  simp only [chkRank, List.all_eq_true] at h
  have h := h n hm
  rw [hg] at h
  simp only [if_pos hn] at h
  refine injective_of_check h ?_ u ?_
  · intro row hr
    simp only [pq, List.mem_map] at hr
    obtain ⟨r, _, rfl⟩ := hr
    rw [List.length_map, interp_length]
  · intro row hr
    simp only [pq, List.mem_map] at hr
    obtain ⟨r, hr, rfl⟩ := hr
    obtain ⟨p, hp, rfl⟩ := List.mem_iff_getElem.1 hr
    have := congrFun hu ⟨p, hl ▸ hp⟩
    simp only [Matrix.mulVec, dotProduct, toM, Matrix.of_apply, Pi.zero_apply] at this
    rw [← this]
    apply Finset.sum_congr rfl
    intro c _
    rw [pq_cast k _ _ c.2, interpAt pad g.toGauss (show p < g.toGauss.npoint from hp) (hk ▸ c.2), coords_eq, getD_of_lt _ _ hp, hk]

theorem injective_rows {k : GeoKind} {n : Nat} {g : GaussTable} (hg : GaussTable.newSized k.classOf n = .ok g) (hn : n < k.nnode)
    (hd : deficient k n = false) (pad : Scratchpad) (hk : pad.kind = k) (u : Fin n → ℝ) (hu : u ᵥ* toM n k.nnode (getInterpMatrix pad g.toGauss).1 = 0) : u = 0 := by
  obtain ⟨hm, hl⟩ := newSized_mem hg
  have h := chkRank_ok k
  simp only [chkRank, List.all_eq_true] at h
  have h := h n hm
  rw [hg] at h
  simp only [if_neg (show ¬ k.nnode ≤ n by omega), hd, Bool.false_or] at h
  refine injective_of_check h ?_ u ?_
  · intro row hr
    simp only [pqT, List.mem_map] at hr
    obtain ⟨r, _, rfl⟩ := hr
    rw [List.length_map, pq, List.length_map, hl]
  · intro row hr
    simp only [pqT, List.mem_map, List.mem_range] at hr
    obtain ⟨j, hj, rfl⟩ := hr
    have := congrFun hu ⟨j, hj⟩
    simp only [Matrix.vecMul, dotProduct, toM, Matrix.of_apply, Pi.zero_apply] at this
    rw [← this]
    apply Finset.sum_congr rfl
    intro c _
    have hc : (c : Nat) < g.data.length := by rw [hl]; exact c.2
    have e : ((pq k g.data).map fun row => row.getD j 0).getD c 0 = ((interp k).map fun e => PE.evalQ (GaussRow.get g.data[(c : Nat)]) e).getD j 0 := by
      rw [getD_of_lt _ _ (by simpa [pq] using hc), List.getElem_map]
      simp [pq]
    rw [e, pq_cast k _ _ hj, interpAt pad g.toGauss (show (c : Nat) < g.toGauss.npoint from hc) (hk ▸ hj), coords_eq, getD_of_lt _ _ hc, hk, mul_comm]

/-- Projections do not increase the length of vectors. -/
theorem projection_le {n : Type} [Fintype n] [DecidableEq n] (Q : Matrix n n ℝ) (hs : Qᵀ = Q) (hi : Q * Q = Q) (y : n → ℝ) :
    (y - Q *ᵥ y) ⬝ᵥ (y - Q *ᵥ y) ≤ y ⬝ᵥ y := by
  have h1 : (Q *ᵥ y) ⬝ᵥ (Q *ᵥ y) = y ⬝ᵥ (Q *ᵥ y) := by
    conv_rhs => rw [← hi, ← Matrix.mulVec_mulVec, Matrix.dotProduct_mulVec]
    congr 1
    rw [← Matrix.mulVec_transpose, hs]
  have h2 : 0 ≤ (Q *ᵥ y) ⬝ᵥ (Q *ᵥ y) := Finset.sum_nonneg fun i _ => mul_self_nonneg _
  rw [sub_dotProduct, dotProduct_sub, dotProduct_sub, dotProduct_comm (Q *ᵥ y) y]
  linarith

/-- Coordinates completed with 1. -/
def hat (d : Nat) (ξ : Nat → ℝ) (l : Nat) : ℝ := if l < d then ξ l else 1

theorem hat_interp (k : GeoKind) (ξ : Nat → ℝ) (l : Nat) : ∑ m ∈ Finset.range k.nnode, calcInterp k ξ m * hat k.ndim (refCoord k m) l = hat k.ndim ξ l := by
  unfold hat
  split
  · rename_i h
    rw [← linearCoord k ξ l h]
    apply Finset.sum_congr rfl
    intros; ring
  · simp only [mul_one]; exact pou k ξ

theorem refCoord_abs (k : GeoKind) (m i : Nat) : |(refCoord k m i : ℝ)| ≤ 1 := by
  have h : ∀ m < k.nnode, ∀ i < k.ndim, |refCoordQ k m i| ≤ 1 := by cases k <;> decide +kernel
  have hlen : k.referenceCoords.length = k.nnode ∧ ∀ r ∈ k.referenceCoords, r.length = k.ndim := by cases k <;> decide +kernel
  have hq : |refCoordQ k m i| ≤ 1 := by
    by_cases h1 : m < k.nnode
    · by_cases h2 : i < k.ndim
      · exact h m h1 i h2
      · have hm : m < k.referenceCoords.length := by omega
        rw [refCoordQ, getD_of_lt _ _ hm]
        have := hlen.2 _ (List.getElem_mem hm)
        rw [List.getD_eq_getElem?_getD, List.getElem?_eq_none (by omega)]
        norm_num
    · rw [refCoordQ, List.getD_eq_getElem?_getD (l := k.referenceCoords), List.getElem?_eq_none (by omega)]
      simp
  rw [refCoord]
  exact_mod_cast hq

theorem nnode_le (k : GeoKind) : k.nnode ≤ 36 := by cases k <;> decide
theorem ndim_le (k : GeoKind) : k.ndim ≤ 3 := by cases k <;> decide

theorem resid {k : GeoKind} {n : Nat} {g : GaussTable} (hg : GaussTable.newSized k.classOf n = .ok g) (hn : n ≠ 1) :
    ∃ b, getTrPinvHxi k.classOf n = .ok b ∧ ∀ i ≤ k.ndim, ∀ l ≤ k.ndim,
      |∑ j ∈ Finset.range n, bbtAt b j i * hat k.ndim (g.toGauss.coords j) l - (if i = l then 1 else 0)| ≤ 2 / 10 ^ 15 := by
  obtain ⟨hm, hl⟩ := newSized_mem hg
  have h := chkResid_ok k
  simp only [chkResid, List.all_eq_true] at h
  have h := h n hm
  rw [hg] at h
  cases hb : getTrPinvHxi k.classOf n with
  | ok b =>
    rw [hb] at h
    simp only [Bool.or_eq_true, beq_iff_eq, hn, false_or, Bool.and_eq_true, List.all_eq_true, List.mem_range, decide_eq_true_eq] at h
    refine ⟨b, rfl, fun i hi l hl' => ?_⟩
    have := h.2 i (by omega) l (by omega)
    have h2 : ((|((List.range n).map fun j => GaussRow.get (b.getD j (0, 0, 0, 0)) i * hatAt k.ndim (g.data.getD j (0, 0, 0, 0)) l).sum - (if i = l then 1 else 0)| : ℚ) : ℝ) ≤ ((2 / 10 ^ 15 : ℚ) : ℝ) := by
      exact_mod_cast this
    have e : ((((List.range n).map fun j => GaussRow.get (b.getD j (0, 0, 0, 0)) i * hatAt k.ndim (g.data.getD j (0, 0, 0, 0)) l).sum : ℚ) : ℝ) =
        ∑ j ∈ Finset.range n, bbtAt b j i * hat k.ndim (g.toGauss.coords j) l := by
      rw [Shapes.list_range_sum]
      push_cast
      apply Finset.sum_congr rfl
      intro j _
      rw [hatAt, hat, coords_eq]
      split <;> simp [bbtAt]
    rw [Rat.cast_abs, Rat.cast_sub, e] at h2
    refine le_trans (le_of_eq ?_) (le_trans h2 (by norm_num))
    congr 2
    split <;> simp
  | err e => rw [hb] at h; simp [hn] at h
  | panic => rw [hb] at h; simp [hn] at h

end
end Gemlab.Recov
