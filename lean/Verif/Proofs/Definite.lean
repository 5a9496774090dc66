import Verif.Proofs.DefiniteTables2
import Verif.Proofs.Recovery
import Verif.Proofs.PolyCurve
import Verif.Spec.Integ
import Mathlib.Analysis.Calculus.MeanValue
import Mathlib.Tactic.LinearCombination

/-!
# Fields with zero gradient or zero strain at the integration points
-/
namespace Gemlab.Definite
noncomputable section
open Gemlab.Shapes Gemlab.RankMod Gemlab.GaussSpec Gemlab.Recov Gemlab.Spec.Integ Matrix

theorem deriv_in (k : GeoKind) (ξ : Nat → ℝ) {m i : Nat} (hm : m < k.nnode) (hi : i < k.ndim) :
    calcDeriv k ξ m i = ∑ n ∈ Finset.range k.nnode, calcDeriv k (refCoord k n) m i * calcInterp k ξ n := by
  have h := chkIn_ok k
  simp only [chkIn, List.all_eq_true, List.mem_range] at h
  have h := PE.eval_eq_of_same (h m hm i hi) ξ
  rw [eval_range_sum] at h
  unfold calcDeriv calcInterp
  rw [h]
  apply Finset.sum_congr rfl
  intro n _
  change ((PE.evalQ _ _ : ℚ) : ℝ) * _ = _
  rw [← PE.eval_cast]
  rfl

theorem new_sized (k : GeoKind) (hk : k ≠ .qua17) : ∃ n, GaussTable.newSized k.classOf n = .ok (GaussTable.new k) ∧ k.nnode ≤ n := by
  cases k
  case qua17 => exact absurd rfl hk
  case lin2 => exact ⟨2, rfl, by decide⟩
  case lin3 => exact ⟨3, rfl, by decide⟩
  case lin4 => exact ⟨4, rfl, by decide⟩
  case lin5 => exact ⟨5, rfl, by decide⟩
  case tri3 => exact ⟨3, rfl, by decide⟩
  case tri6 => exact ⟨7, rfl, by decide⟩
  case tri10 => exact ⟨12, rfl, by decide⟩
  case tri15 => exact ⟨16, rfl, by decide⟩
  case qua4 => exact ⟨4, rfl, by decide⟩
  case qua8 => exact ⟨9, rfl, by decide⟩
  case qua9 => exact ⟨9, rfl, by decide⟩
  case qua12 => exact ⟨16, rfl, by decide⟩
  case qua16 => exact ⟨16, rfl, by decide⟩
  case tet4 => exact ⟨4, rfl, by decide⟩
  case tet10 => exact ⟨14, rfl, by decide⟩
  case tet20 => exact ⟨24, rfl, by decide⟩
  case hex8 => exact ⟨8, rfl, by decide⟩
  case hex20 => exact ⟨27, rfl, by decide⟩
  case hex32 => exact ⟨64, rfl, by decide⟩

/-- An interpolated field that vanishes at the points of the default rule vanishes. -/
theorem vanish (pad : Scratchpad) (hk : pad.kind ≠ .qua17) (w : Nat → ℝ)
    (h : ∀ p < (GaussTable.new pad.kind).toGauss.npoint, ∑ n ∈ Finset.range pad.kind.nnode, w n * calcInterp pad.kind ((GaussTable.new pad.kind).toGauss.coords p) n = 0) :
    ∀ n < pad.kind.nnode, w n = 0 := by
  obtain ⟨N, hN, hle⟩ := new_sized pad.kind hk
  have hnp : (GaussTable.new pad.kind).toGauss.npoint = N := (newSized_mem hN).2
  have := injective_cols hN hle pad rfl (fun n => w n) (by
    funext p
    simp only [Matrix.mulVec, dotProduct, toM, Matrix.of_apply, Pi.zero_apply]
    have hp : (p : Nat) < (GaussTable.new pad.kind).toGauss.npoint := by rw [hnp]; exact p.2
    rw [← h p hp, Finset.sum_range]
    exact Finset.sum_congr rfl fun n _ => by rw [interpAt pad _ hp n.2, mul_comm])
  intro n hn
  exact congrFun this ⟨n, hn⟩

/-- A combination of derivatives that vanishes at the points of the default rule vanishes everywhere. -/
theorem deriv_vanish (pad : Scratchpad) (hk : pad.kind ≠ .qua17) (a : Nat → Nat → ℝ)
    (h : ∀ p < (GaussTable.new pad.kind).toGauss.npoint, ∑ m ∈ Finset.range pad.kind.nnode, ∑ j ∈ Finset.range pad.kind.ndim,
      a m j * calcDeriv pad.kind ((GaussTable.new pad.kind).toGauss.coords p) m j = 0) (ξ : Nat → ℝ) :
    ∑ m ∈ Finset.range pad.kind.nnode, ∑ j ∈ Finset.range pad.kind.ndim, a m j * calcDeriv pad.kind ξ m j = 0 := by
  have key (ξ : Nat → ℝ) : ∑ m ∈ Finset.range pad.kind.nnode, ∑ j ∈ Finset.range pad.kind.ndim, a m j * calcDeriv pad.kind ξ m j =
      ∑ n ∈ Finset.range pad.kind.nnode, (∑ m ∈ Finset.range pad.kind.nnode, ∑ j ∈ Finset.range pad.kind.ndim, a m j * calcDeriv pad.kind (refCoord pad.kind n) m j) * calcInterp pad.kind ξ n := by
    simp only [Finset.sum_mul]
    symm
    rw [Finset.sum_comm]
    refine Finset.sum_congr rfl fun m hm => ?_
    rw [Finset.sum_comm]
    refine Finset.sum_congr rfl fun j hj => ?_
    symm
    rw [deriv_in _ _ (Finset.mem_range.1 hm) (Finset.mem_range.1 hj), Finset.mul_sum]
    exact Finset.sum_congr rfl fun n _ => by ring
  have hz := vanish pad hk _ (fun p hp => (key _).symm.trans (h p hp))
  rw [key]
  exact Finset.sum_eq_zero fun n hn => by rw [hz n (Finset.mem_range.1 hn), zero_mul]

/-- The straight line between two points. -/
theorem line_deriv (ξ η : Nat → ℝ) (t : ℝ) (i : Nat) : HasDerivAt (fun s : ℝ => ξ i + s * (η i - ξ i)) (η i - ξ i) t := by
  simpa using ((hasDerivAt_id t).mul_const (η i - ξ i)).const_add (ξ i)

theorem eq_of_deriv_zero {f : ℝ → ℝ} (h : ∀ t, HasDerivAt f 0 t) : f 0 = f 1 :=
  is_const_of_deriv_eq_zero (fun t => (h t).differentiableAt) (fun t => (h t).deriv) 0 1

/-- A field with zero gradient is constant. -/
theorem const_of_grad (k : GeoKind) (v : Nat → ℝ) (h : ∀ ξ : Nat → ℝ, ∀ i < k.ndim, ∑ m ∈ Finset.range k.nnode, v m * calcDeriv k ξ m i = 0) :
    ∀ n < k.nnode, v n = v 0 := by
  intro n hn
  have h0 : 0 < k.nnode := by omega
  have hd := eq_of_deriv_zero (f := fun t => calcCoords k (fun m _ => v m) (fun i => refCoord k 0 i + t * (refCoord k n i - refCoord k 0 i)) 0) (fun t => by
    have := calcCoords_curve k (fun m _ => v m) (γ := fun t i => refCoord k 0 i + t * (refCoord k n i - refCoord k 0 i)) (t := t)
      (fun i _ => line_deriv _ _ _ i) 0
    convert this using 1
    exact (Finset.sum_eq_zero fun j hj => by rw [h _ j (Finset.mem_range.1 hj), zero_mul]).symm)
  have node (q : Nat) (hq : q < k.nnode) (ξ : Nat → ℝ) (e : ξ = refCoord k q) : calcCoords k (fun m _ => v m) ξ 0 = v q := by
    unfold calcCoords
    rw [e, Finset.sum_eq_single q]
    · rw [kron k q q hq hq, if_pos rfl, mul_one]
    · intro m hm hne; rw [kron k m q (Finset.mem_range.1 hm) hq, if_neg hne, mul_zero]
    · intro hc; exact absurd (Finset.mem_range.2 hq) hc
  rw [node 0 h0 _ (by funext i; ring), node n hn _ (by funext i; ring)] at hd
  exact hd.symm

/-- A field with zero gradient at the points of the default rule is constant. -/
theorem grad_const (pad : Scratchpad) (v : Nat → ℝ)
    (h : ∀ p < (GaussTable.new pad.kind).toGauss.npoint, ∀ i < pad.kind.ndim,
      ∑ m ∈ Finset.range pad.kind.nnode, v m * calcDeriv pad.kind ((GaussTable.new pad.kind).toGauss.coords p) m i = 0) :
    ∀ n < pad.kind.nnode, v n = v 0 := by
  by_cases hk : pad.kind = .qua17
  · rw [hk] at h ⊢
    have hz : (fun n : Fin 16 => v (n + 1) - v 0) = 0 := by
      refine injective_of_check qua17_rank ?_ _ ?_
      · intro row hr
        simp only [gradRows, List.mem_flatMap, List.mem_map] at hr
        obtain ⟨r, _, i, _, rfl⟩ := hr
        simp [GeoKind.nnode]
      · intro row hr
        simp only [gradRows, List.mem_flatMap, List.mem_map] at hr
        obtain ⟨r, hr, i, hi, rfl⟩ := hr
        obtain ⟨p, hp, rfl⟩ := List.mem_iff_getElem.1 hr
        have hi := List.mem_range.1 hi
        have h1 := h p hp i hi
        have h2 := derivSum .qua17 ((GaussTable.new .qua17).toGauss.coords p) i hi
        rw [show GeoKind.qua17.nnode = 16 + 1 from rfl, Finset.sum_range_succ'] at h1 h2
        have e (n : Fin 16) : ((((List.range (GeoKind.qua17.nnode - 1)).map fun m => PE.evalQ (GaussRow.get (GaussTable.new .qua17).data[p])
            (((deriv .qua17).getD (m + 1) []).getD i 0)).getD n 0 : ℚ) : ℝ) = calcDeriv .qua17 ((GaussTable.new .qua17).toGauss.coords p) (n + 1) i := by
          have hl : (n : Nat) < ((List.range (GeoKind.qua17.nnode - 1)).map fun m => PE.evalQ (GaussRow.get (GaussTable.new .qua17).data[p])
            (((deriv .qua17).getD (m + 1) []).getD i 0)).length := by simpa [GeoKind.nnode] using n.2
          rw [getD_of_lt _ _ hl, List.getElem_map, List.getElem_range, ← PE.eval_cast, coords_eq, getD_of_lt _ _ hp]
          rfl
        simp only [e]
        rw [← Fin.sum_univ_eq_sum_range (fun n => v (n + 1) * calcDeriv .qua17 ((GaussTable.new .qua17).toGauss.coords p) (n + 1) i) 16] at h1
        rw [← Fin.sum_univ_eq_sum_range (fun n => calcDeriv .qua17 ((GaussTable.new .qua17).toGauss.coords p) (n + 1) i) 16] at h2
        have : ∑ c : Fin 16, calcDeriv .qua17 ((GaussTable.new .qua17).toGauss.coords p) (c + 1) i * (v (c + 1) - v 0) =
            ∑ c : Fin 16, v (c + 1) * calcDeriv .qua17 ((GaussTable.new .qua17).toGauss.coords p) (c + 1) i -
            v 0 * ∑ c : Fin 16, calcDeriv .qua17 ((GaussTable.new .qua17).toGauss.coords p) (c + 1) i := by
          rw [Finset.mul_sum, ← Finset.sum_sub_distrib]
          exact Finset.sum_congr rfl fun c _ => by ring
        rw [this]
        linear_combination h1 - v 0 * h2
    intro n hn
    cases n with
    | zero => rfl
    | succ n => exact sub_eq_zero.1 (congrFun hz ⟨n, by simp only [GeoKind.nnode] at hn; omega⟩)
  · refine const_of_grad _ _ fun ξ i hi => ?_
    have key (ξ : Nat → ℝ) : ∑ m ∈ Finset.range pad.kind.nnode, ∑ j ∈ Finset.range pad.kind.ndim, (if j = i then v m else 0) * calcDeriv pad.kind ξ m j =
        ∑ m ∈ Finset.range pad.kind.nnode, v m * calcDeriv pad.kind ξ m i := by
      refine Finset.sum_congr rfl fun m _ => ?_
      rw [Finset.sum_eq_single i]
      · rw [if_pos rfl]
      · intro j _ hne; rw [if_neg hne, zero_mul]
      · intro hc; exact absurd (Finset.mem_range.2 hi) hc
    have := deriv_vanish pad hk (fun m j => if j = i then v m else 0) (fun p hp => (key _).trans (h p hp i hi)) ξ
    rwa [key] at this

end
end Gemlab.Definite
