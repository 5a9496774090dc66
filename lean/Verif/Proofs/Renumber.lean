import Verif.Proofs.RenumberTables
import Verif.Spec.RigidMotion
import Verif.Proofs.PolyCurve
import Verif.Props.Divergence

set_option linter.unusedSimpArgs false
namespace Gemlab.Renumber
open Gemlab Gemlab.Shapes Gemlab.Spec.Renumber Gemlab.Spec.Integ
noncomputable section

/-! ## Integration points -/

theorem newSized_exact {c : GeoClass} {n : Nat} {t : GaussTable} (h : GaussTable.newSized c n = .ok t) (he : ExactTable c n) : t.data ∈ exactTables c := by
  unfold GaussTable.newSized at h
  cases c <;> simp only [ExactTable] at he
  all_goals
    split at h <;> first
      | contradiction
      | (simp only [bind, Res.bind, Res.ok.injEq] at h; subst h; simp [exactTables]; done)
      | (simp [bind, Res.bind] at h; done)
      | (exfalso; omega)

theorem dimOf_eq (k : GeoKind) : dimOf k.classOf = k.ndim := by cases k <;> rfl

theorem map_cast (A : RefMap) (x : Nat → ℚ) (i : Nat) : ((A.map x i : ℚ) : ℝ) = A.map (fun j => ((x j : ℚ) : ℝ)) i := by
  unfold RefMap.map
  push_cast
  rfl

theorem points_exist (k : GeoKind) {n : Nat} {t : GaussTable} (h : GaussTable.newSized k.classOf n = .ok t) (he : ExactTable k.classOf n) {A : RefMap}
    (hA : A ∈ rotations k.classOf) : ∃ π, MovesPoints k.ndim t.toGauss A π := by
  have hc := chkPoints_ok k.classOf
  simp only [List.all_eq_true] at hc
  have hc := hc A hA t.data (newSized_exact h he)
  rw [dimOf_eq] at hc
  simp only [chkPoints, Bool.and_eq_true, decide_eq_true_eq, List.all_eq_true] at hc
  obtain ⟨hn, hl⟩ := hc
  have hlen : (permOf k.ndim A t.data).length = t.data.length := by simp [permOf]
  have hidx : ∀ p (hp : p < t.data.length), (permOf k.ndim A t.data)[p]'(by omega) = t.data.findIdx (imageRow k.ndim A t.data[p]) := by
    intro p hp
    simp [permOf]
  have hlt : ∀ p < t.data.length, (permOf k.ndim A t.data).getD p 0 < t.data.length := by
    intro p hp
    rw [List.getD_eq_getElem _ _ (by omega)]
    exact hl _ (List.getElem_mem _)
  have himg : ∀ p (hp : p < t.data.length), imageRow k.ndim A t.data[p] (t.data[(permOf k.ndim A t.data).getD p 0]'(hlt p hp)) = true := by
    intro p hp
    have e : (permOf k.ndim A t.data).getD p 0 = t.data.findIdx (imageRow k.ndim A t.data[p]) := by
      rw [List.getD_eq_getElem _ _ (by omega), hidx p hp]
    have h2 := hlt p hp
    simp only [e] at h2 ⊢
    exact List.findIdx_getElem (w := h2)
  have hw : ∀ p (hp : p < t.data.length), t.toGauss.data ((permOf k.ndim A t.data).getD p 0) 3 = t.toGauss.data p 3 ∧
      ∀ i < k.ndim, t.toGauss.data ((permOf k.ndim A t.data).getD p 0) i = A.map (t.toGauss.data p) i := by
    intro p hp
    have h1 := himg p hp
    simp only [imageRow, Bool.and_eq_true, decide_eq_true_eq, List.all_eq_true, List.mem_range] at h1
    simp only [GaussTable.toGauss]
    rw [List.getD_eq_getElem t.data _ (hlt p hp), List.getD_eq_getElem t.data _ hp]
    refine ⟨by rw [h1.1], fun i hi => ?_⟩
    rw [h1.2 i hi, map_cast]
  refine ⟨fun p => (permOf k.ndim A t.data).getD p 0, hlt, ?_, fun p hp => (hw p hp).1, fun p hp i hi => (hw p hp).2 i hi⟩
  intro p hp q hq e
  have hp' : p < (permOf k.ndim A t.data).length := by rw [hlen]; exact hp
  have hq' : q < (permOf k.ndim A t.data).length := by rw [hlen]; exact hq
  rw [List.getD_eq_getElem _ _ hp', List.getD_eq_getElem _ _ hq'] at e
  exact (List.Nodup.getElem_inj_iff hn).1 e

def chkNodes (k : GeoKind) : Bool := (rotations k.classOf).all fun A => (List.range k.nnode).all fun m => (List.range k.nnode).any fun n =>
  (List.range k.ndim).all fun i => decide (refCoordQ k n i = A.map (refCoordQ k m) i)

theorem chkNodes_ok (k : GeoKind) : chkNodes k = true := by cases k <;> decide +kernel

theorem nodes_exist (k : GeoKind) {A : RefMap} (hA : A ∈ rotations k.classOf) : ∃ σ, MovesNodes k A σ := by
  have hc := chkNodes_ok k
  simp only [chkNodes, List.all_eq_true, List.any_eq_true, List.mem_range, decide_eq_true_eq] at hc
  have hc := hc A hA
  choose! σ h using hc
  exact ⟨σ, hA, fun m hm => (h m hm).1, fun m hm => (h m hm).2⟩

/-! ## Shape functions -/

variable {k : GeoKind} {A : RefMap} {σ π : Nat → Nat}

theorem interp_turn {K : Type} [Field K] [CharZero K] (h : MovesNodes k A σ) {m : Nat} (hm : m < k.nnode) (ξ : Nat → K) :
    calcInterp k (A.map ξ) (σ m) = calcInterp k ξ m := by
  have hc := chkTurn_ok k
  simp only [chkTurn, List.all_eq_true, List.mem_range] at hc
  have hc := hc A h.rot m hm (σ m) (h.lt m hm)
  simp only [decide_eq_true_eq] at hc
  rw [if_pos (h.nodes m hm)] at hc
  have := PE.eval_eq_of_same hc ξ
  rw [PE.eval_subst] at this
  exact this

theorem node_inj (h : MovesNodes k A σ) {m n : Nat} (hm : m < k.nnode) (hn : n < k.nnode) (e : σ m = σ n) : m = n := by
  have h1 := interp_turn (K := ℚ) h hm (refCoord k m)
  have h2 := interp_turn (K := ℚ) h hn (refCoord k m)
  rw [e, h2, kron k m m hm hm, kron k n m hn hm] at h1
  by_contra hne
  simp [Ne.symm hne] at h1

theorem sum_nodes (h : MovesNodes k A σ) (f : Nat → ℝ) : ∑ m ∈ Finset.range k.nnode, f (σ m) = ∑ m ∈ Finset.range k.nnode, f m := by
  have inj : Set.InjOn σ (Finset.range k.nnode : Set Nat) := fun a ha b hb e => node_inj h (by simpa using ha) (by simpa using hb) e
  refine Finset.sum_nbij σ (fun m hm => Finset.mem_range.2 (h.lt m (Finset.mem_range.1 hm))) inj ?_ (fun m _ => rfl)
  exact Finset.surjOn_of_injOn_of_card_le σ (fun m hm => by simpa using h.lt m (by simpa using hm)) inj le_rfl

theorem map_line (A : RefMap) (ξ : Nat → ℝ) (j : Nat) (hj : j < 3) (i : Nat) :
    HasDerivAt (fun s : ℝ => A.map (fun l => ξ l + s * if l = j then 1 else 0) i) (A.entry i j : ℝ) 0 := by
  have : (fun s : ℝ => A.map (fun l => ξ l + s * if l = j then 1 else 0) i) = fun s => A.map ξ i + s * (A.entry i j : ℝ) := by
    funext s
    unfold RefMap.map
    have : j = 0 ∨ j = 1 ∨ j = 2 := by omega
    rcases this with rfl | rfl | rfl <;> norm_num <;> ring
  rw [this]
  simpa using ((hasDerivAt_id (0 : ℝ)).mul_const (A.entry i j : ℝ)).const_add (A.map ξ i)

theorem ndim_le (k : GeoKind) : k.ndim ≤ 3 := by cases k <;> decide

theorem deriv_turn (h : MovesNodes k A σ) {m : Nat} (hm : m < k.nnode) (ξ : Nat → ℝ) {j : Nat} (hj : j < k.ndim) :
    calcDeriv k ξ m j = ∑ i ∈ Finset.range k.ndim, (A.entry i j : ℝ) * calcDeriv k (A.map ξ) (σ m) i := by
  have hj3 : j < 3 := lt_of_lt_of_le hj (ndim_le k)
  have h1 := calcInterp_curve k (γ := fun s l => ξ l + s * if l = j then 1 else 0) (γ' := fun l => if l = j then 1 else 0) (t := 0)
    (fun i _ => by simpa using ((hasDerivAt_id (0 : ℝ)).mul_const (if i = j then (1 : ℝ) else 0)).const_add (ξ i)) hm
  have h2 := calcInterp_curve k (γ := fun s => A.map (fun l => ξ l + s * if l = j then 1 else 0)) (γ' := fun i => (A.entry i j : ℝ)) (t := 0)
    (fun i _ => map_line A ξ j hj3 i) (h.lt m hm)
  simp only [interp_turn h hm] at h2
  have e := h1.unique h2
  have e0 : (fun l => ξ l + (0 : ℝ) * if l = j then 1 else 0) = ξ := by funext l; ring
  rw [e0] at e
  rw [← e, Finset.sum_eq_single j]
  · rw [if_pos rfl, one_mul]
  · intro i _ hne; rw [if_neg hne, zero_mul]
  · intro hc; exact absurd (Finset.mem_range.2 hj) hc

/-! ## Jacobian -/

variable {pad pad' : Scratchpad}

theorem jac_turn (h : MovesNodes pad.kind A σ) (hp : Renumbered σ pad pad') (ξ : Nat → ℝ) {i j : Nat} (hi : i < pad.spaceNdim) (hj : j < pad.kind.ndim) :
    jac pad' ξ i j = ∑ l ∈ Finset.range pad.kind.ndim, jac pad (A.map ξ) i l * (A.entry l j : ℝ) := by
  unfold jac
  rw [hp.kind]
  have e : ∀ m ∈ Finset.range pad.kind.nnode, pad'.X m i * calcDeriv pad.kind ξ m j =
      ∑ l ∈ Finset.range pad.kind.ndim, pad.X (σ m) i * calcDeriv pad.kind (A.map ξ) (σ m) l * (A.entry l j : ℝ) := by
    intro m hm
    have hm := Finset.mem_range.1 hm
    rw [hp.coords m hm i hi, deriv_turn h hm ξ hj, Finset.mul_sum]
    exact Finset.sum_congr rfl fun l _ => by ring
  rw [Finset.sum_congr rfl e, Finset.sum_comm]
  refine Finset.sum_congr rfl fun l _ => ?_
  rw [sum_nodes h (fun m => pad.X m i * calcDeriv pad.kind (A.map ξ) m l * (A.entry l j : ℝ)), Finset.sum_mul]

/-- The rotations have determinant one, except for the turn of a line. -/
theorem det_turn (h : A ∈ rotations k.classOf) (h1 : k.ndim ≠ 1) : detN k.ndim (fun i j => (A.entry i j : ℝ)) = 1 := by
  have key : (k.ndim = 2 ∧ detN 2 (fun i j => (A.entry i j : ℝ)) = 1) ∨ (k.ndim = 3 ∧ detN 3 (fun i j => (A.entry i j : ℝ)) = 1) := by
    have c : (k.ndim = 1 ∧ k.classOf = .lin) ∨ (k.ndim = 2 ∧ (k.classOf = .tri ∨ k.classOf = .qua)) ∨ (k.ndim = 3 ∧ (k.classOf = .tet ∨ k.classOf = .hex)) := by
      cases k <;> decide
    rcases c with ⟨c, _⟩ | ⟨c, e⟩ | ⟨c, e⟩
    · exact absurd c h1
    · refine Or.inl ⟨c, ?_⟩
      unfold detN
      rw [Matrix.det_fin_two]
      rcases e with e | e <;> rw [e] at h <;> simp only [rotations, List.mem_cons, List.not_mem_nil, or_false] at h <;> subst h <;> simp [RefMap.entry]
    · refine Or.inr ⟨c, ?_⟩
      unfold detN
      rw [Matrix.det_fin_three]
      rcases e with e | e <;> rw [e] at h <;> simp only [rotations, List.mem_cons, List.not_mem_nil, or_false] at h <;> rcases h with rfl | rfl <;> simp [RefMap.entry]
  rcases key with ⟨c, e⟩ | ⟨c, e⟩ <;> rw [c] <;> exact e

theorem entry_lin (h : A ∈ rotations k.classOf) (h1 : k.ndim = 1) : A.entry 0 0 = -1 := by
  cases k <;> simp only [GeoKind.ndim, GeoKind.classOf, rotations, List.mem_cons, List.not_mem_nil, or_false] at h h1
  all_goals first
    | omega
    | (subst h; rfl)

theorem detJ_turn (h : MovesNodes pad.kind A σ) (hp : Renumbered σ pad pad') (hk : pad.kind.ndim = pad.spaceNdim) (h1 : pad.kind.ndim ≠ 1) (ξ : Nat → ℝ) :
    detJ pad' ξ = detJ pad (A.map ξ) := by
  have hd := det_turn h.rot h1
  unfold detJ detN at *
  rw [hp.ndim]
  rw [hk] at hd
  have e : (Matrix.of fun i j : Fin pad.spaceNdim => jac pad' ξ i j) =
      (Matrix.of fun i j : Fin pad.spaceNdim => jac pad (A.map ξ) i j) * Matrix.of fun i j : Fin pad.spaceNdim => (A.entry i j : ℝ) := by
    ext i j
    rw [Matrix.mul_apply, Matrix.of_apply, jac_turn h hp ξ i.2 (by rw [hk]; exact j.2), hk, Finset.sum_range]
    rfl
  rw [e, Matrix.det_mul, hd, mul_one]

theorem grad_turn (h : MovesNodes pad.kind A σ) (hp : Renumbered σ pad pad') (hk : pad.kind.ndim = pad.spaceNdim) {ξ : Nat → ℝ} {B : Nat → Nat → ℝ}
    (hB : IsGradient pad (A.map ξ) B) : IsGradient pad' ξ (fun m => B (σ m)) := by
  intro m hm j hj
  rw [hp.kind] at hm ⊢
  rw [hp.ndim] at hj ⊢
  rw [deriv_turn h hm ξ (by omega)]
  have e : ∀ i ∈ Finset.range pad.spaceNdim, B (σ m) i * jac pad' ξ i j =
      ∑ l ∈ Finset.range pad.kind.ndim, (A.entry l j : ℝ) * (B (σ m) i * jac pad (A.map ξ) i l) := by
    intro i hi
    rw [jac_turn h hp ξ (Finset.mem_range.1 hi) (by omega), Finset.mul_sum]
    exact Finset.sum_congr rfl fun l _ => by ring
  rw [Finset.sum_congr rfl e, Finset.sum_comm]
  refine Finset.sum_congr rfl fun l hl => ?_
  rw [← Finset.mul_sum, hB (σ m) (h.lt m hm) l (by rw [← hk]; exact Finset.mem_range.1 hl)]

theorem measure_turn (h : MovesNodes pad.kind A σ) (hp : Renumbered σ pad pad') (h2 : 2 ≤ pad.spaceNdim) (ξ : Nat → ℝ) :
    jacMeasure pad' ξ = jacMeasure pad (A.map ξ) := by
  unfold jacMeasure
  rw [hp.kind, hp.ndim]
  split
  · exact detJ_turn h hp ‹_› (by omega) ξ
  split
  · rename_i h1
    congr 1
    refine Finset.sum_congr rfl fun i hi => ?_
    rw [jac_turn h hp ξ (Finset.mem_range.1 hi) (by omega), h1, Finset.sum_range_one, entry_lin h.rot h1]
    push_cast
    ring
  · rfl

end
end Gemlab.Renumber
