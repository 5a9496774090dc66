import Verif.Proofs.Definite2
import Verif.Spec.Definite
import Verif.Props.Integ3
import Mathlib.LinearAlgebra.Matrix.ToLin
import Mathlib.LinearAlgebra.FiniteDimensional.Lemmas

/-!
# C96: energies and null spaces of the element matrices
-/
namespace Gemlab.Props.Integ
noncomputable section
open Gemlab.Integ Gemlab.Shapes Gemlab.RankMod Gemlab.GaussSpec Gemlab.Recov Gemlab.Spec.Integ Gemlab.Spec.Definite Gemlab.Definite

variable {inv : MatInverse}

theorem form_eq {args : CommonArgs} {k k' : Mat} {n : Nat} {μ : (Nat → ℝ) → ℝ} {f : Nat → Nat → Nat → ℝ}
    (h : IsBlockSum2 k k' args.clear args.ii0 args.jj0 n n fun a b => quadrature args μ fun p => f p a b) (v : Nat → ℝ) :
    form n (fun a b => added2 args k k' (args.ii0 + a) (args.jj0 + b)) v = quadrature args μ fun p => form n (f p) v := by
  unfold form
  rw [← quadrature_sum]
  refine Finset.sum_congr rfl fun a ha => ?_
  rw [← quadrature_sum]
  refine Finset.sum_congr rfl fun b hb => ?_
  beta_reduce
  rw [added2_eq h (Finset.mem_range.1 ha) (Finset.mem_range.1 hb), mul_comm (v a), mul_assoc, quadrature_mul]
  exact quadrature_congr fun p _ => by ring

/-- **C96 (weights).** The weights of an integration rule are positive, except in the rules with 4 points for triangles and 5 points for tetrahedra. -/
theorem C96_weights {cls : GeoClass} {n : Nat} {g : GaussTable} (hg : GaussTable.newSized cls n = .ok g) :
    (∀ p < g.toGauss.npoint, 0 < g.toGauss.weight p) ↔ (cls, n) ∉ [(GeoClass.tri, 4), (.tet, 5)] := by
  obtain ⟨hm, hl⟩ := newSized_mem hg
  have h := chkAll_ok
  simp only [chkAll, List.all_eq_true] at h
  have h := h (cls, n) (by
    simp only [allRules, List.mem_flatMap, List.mem_map]
    obtain ⟨r, hr, rfl⟩ := List.mem_map.1 hm
    exact ⟨cls, by cases cls <;> simp, r, hr, rfl⟩)
  simp only [hg, beq_iff_eq] at h
  have e : (∀ p < g.toGauss.npoint, 0 < g.toGauss.weight p) ↔ chkWeights g.data = true := by
    simp only [chkWeights, List.all_eq_true, decide_eq_true_eq]
    constructor
    · intro hp r hr
      obtain ⟨p, hp', rfl⟩ := List.mem_iff_getElem.1 hr
      have := hp p hp'
      change (0 : ℝ) < (((g.data.getD p (0, 0, 0, 0)).2.2.2 : ℚ) : ℝ) at this
      rw [getD_of_lt _ _ hp'] at this
      exact_mod_cast this
    · intro hr p hp
      change (0 : ℝ) < (((g.data.getD p (0, 0, 0, 0)).2.2.2 : ℚ) : ℝ)
      rw [getD_of_lt _ _ (show p < g.data.length from hp)]
      exact_mod_cast hr _ (List.getElem_mem _)
  rw [e, h]
  simp [imp_iff_not_or]

theorem new_rule (k : GeoKind) : ∃ n, GaussTable.newSized k.classOf n = .ok (GaussTable.new k) ∧ (k.classOf, n) ∉ [(GeoClass.tri, 4), (.tet, 5)] := by
  by_cases hk : k = .qua17
  · subst hk; exact ⟨16, rfl, by decide⟩
  · obtain ⟨n, h1, h2⟩ := new_sized k hk
    refine ⟨n, h1, ?_⟩
    have hl := (newSized_mem h1).2
    subst hl
    cases k <;> decide

theorem _root_.Gemlab.Spec.Definite.Usual.factor_pos {args : CommonArgs} (hu : Usual args) {p : Nat} (hp : p < args.gauss.npoint) : 0 < factor args (detJ args.pad) p := by
  obtain ⟨n, h1, h2⟩ := new_rule args.pad.kind
  have hw := (C96_weights h1).2 h2 p (hu.rule ▸ hp)
  rw [← hu.rule] at hw
  unfold factor
  refine mul_pos (mul_pos (mul_pos hu.thickness hw) (hu.jacobian p hp)) ?_
  split
  · rename_i h; exact hu.radius h p hp
  · exact one_pos

theorem quadrature_nonneg {args : CommonArgs} (hu : Usual args) {f : Nat → ℝ} (hf : ∀ p < args.gauss.npoint, 0 ≤ f p) : 0 ≤ quadrature args (detJ args.pad) f :=
  Finset.sum_nonneg fun p hp => mul_nonneg (hu.factor_pos (Finset.mem_range.1 hp)).le (hf p (Finset.mem_range.1 hp))

theorem quadrature_eq_zero {args : CommonArgs} (hu : Usual args) {f : Nat → ℝ} (hf : ∀ p < args.gauss.npoint, 0 ≤ f p) :
    quadrature args (detJ args.pad) f = 0 ↔ ∀ p < args.gauss.npoint, f p = 0 := by
  unfold quadrature
  rw [Finset.sum_eq_zero_iff_of_nonneg fun p hp => mul_nonneg (hu.factor_pos (Finset.mem_range.1 hp)).le (hf p (Finset.mem_range.1 hp))]
  constructor
  · intro h p hp
    exact (mul_eq_zero.1 (h p (Finset.mem_range.2 hp))).resolve_left (hu.factor_pos hp).ne'
  · intro h p hp
    rw [h p (Finset.mem_range.1 hp), mul_zero]

/-- **C96 (`mat_01_nsn`, energy).** -/
theorem C96_mat_01_energy (hinv : InverseSpec inv) (kk : Mat) (args : CommonArgs) (fnS : Nat → (Nat → ℝ) → (Nat → Nat → ℝ) → Res ℝ) (s : Nat → ℝ)
    (B : Nat → Nat → Nat → ℝ) (hr : args.ii0 + args.pad.kind.nnode ≤ kk.nrow) (hc : args.jj0 + args.pad.kind.nnode ≤ kk.ncol) (hreg : GradRegular inv args.pad args.gauss B)
    (hs : ∀ p < args.gauss.npoint, ∀ bb, Holds args.pad (B p) bb → fnS p (shapeN args p) bb = .ok (s p)) :
    ∃ k' pad', mat01Nsn inv kk args fnS = (k', .ok pad') ∧ ∀ v, form args.pad.kind.nnode (fun a b => added2 args kk k' (args.ii0 + a) (args.jj0 + b)) v =
      quadrature args (detJ args.pad) fun p => s p * fieldAt args v p ^ 2 := by
  obtain ⟨k', pad', h, h1⟩ := C37_mat_01_nsn hinv kk args fnS s B hr hc hreg hs
  refine ⟨k', pad', h, fun v => ?_⟩
  rw [form_eq (f := fun p m n => shapeN args p m * s p * shapeN args p n) h1]
  refine quadrature_congr fun p _ => ?_
  unfold form fieldAt
  rw [sq, Finset.sum_mul_sum, Finset.mul_sum]
  refine Finset.sum_congr rfl fun a _ => ?_
  rw [Finset.mul_sum]
  exact Finset.sum_congr rfl fun b _ => by ring

/-- **C96 (`mat_01_nsn`).** With the default rule, the matrix is positive semidefinite if `s ≥ 0`, and positive definite if `s > 0`, except for `qua17`. -/
theorem C96_mat_01_definite (hinv : InverseSpec inv) (kk : Mat) (args : CommonArgs) (hu : Usual args) (fnS : Nat → (Nat → ℝ) → (Nat → Nat → ℝ) → Res ℝ) (s : Nat → ℝ)
    (B : Nat → Nat → Nat → ℝ) (hr : args.ii0 + args.pad.kind.nnode ≤ kk.nrow) (hc : args.jj0 + args.pad.kind.nnode ≤ kk.ncol) (hreg : GradRegular inv args.pad args.gauss B)
    (hs : ∀ p < args.gauss.npoint, ∀ bb, Holds args.pad (B p) bb → fnS p (shapeN args p) bb = .ok (s p)) (h0 : ∀ p < args.gauss.npoint, 0 ≤ s p) :
    ∃ k' pad', mat01Nsn inv kk args fnS = (k', .ok pad') ∧
      (∀ v, 0 ≤ form args.pad.kind.nnode (fun a b => added2 args kk k' (args.ii0 + a) (args.jj0 + b)) v) ∧
      (args.pad.kind ≠ .qua17 → (∀ p < args.gauss.npoint, 0 < s p) → ∀ v, (∃ m < args.pad.kind.nnode, v m ≠ 0) →
        0 < form args.pad.kind.nnode (fun a b => added2 args kk k' (args.ii0 + a) (args.jj0 + b)) v) := by
  obtain ⟨k', pad', h, h1⟩ := C96_mat_01_energy hinv kk args fnS s B hr hc hreg hs
  have hn (v : Nat → ℝ) : ∀ p < args.gauss.npoint, 0 ≤ s p * fieldAt args v p ^ 2 := fun p hp => mul_nonneg (h0 p hp) (sq_nonneg _)
  refine ⟨k', pad', h, fun v => by rw [h1]; exact quadrature_nonneg hu (hn v), fun hk hpos v hv => ?_⟩
  rw [h1]
  refine lt_of_le_of_ne (quadrature_nonneg hu (hn v)) fun he => ?_
  have hz := (quadrature_eq_zero hu (hn v)).1 he.symm
  obtain ⟨m, hm, hne⟩ := hv
  refine hne (vanish args.pad hk v (fun p hp => ?_) m hm)
  rw [← hu.rule] at hp ⊢
  exact pow_eq_zero_iff (two_ne_zero) |>.1 ((mul_eq_zero.1 (hz p hp)).resolve_left (hpos p hp).ne')

/-- **C96 (`mat_01_nsn` of `qua17`).** With the default rule (16 points) the matrix of the 17 nodes is singular, for every element and function. -/
theorem C96_mat_01_qua17 : ∃ v : Nat → ℝ, (∃ m < 17, v m ≠ 0) ∧
    ∀ {inv : MatInverse} (_ : InverseSpec inv) (kk : Mat) (args : CommonArgs) (_ : args.pad.kind = .qua17) (_ : args.gauss = (GaussTable.new .qua17).toGauss)
      (fnS : Nat → (Nat → ℝ) → (Nat → Nat → ℝ) → Res ℝ) (s : Nat → ℝ) (B : Nat → Nat → Nat → ℝ) (_ : args.ii0 + 17 ≤ kk.nrow) (_ : args.jj0 + 17 ≤ kk.ncol)
      (_ : GradRegular inv args.pad args.gauss B) (_ : ∀ p < args.gauss.npoint, ∀ bb, Holds args.pad (B p) bb → fnS p (shapeN args p) bb = .ok (s p)),
      ∃ k' pad', mat01Nsn inv kk args fnS = (k', .ok pad') ∧ ∀ m < 17, ∑ n ∈ Finset.range 17, added2 args kk k' (args.ii0 + m) (args.jj0 + n) * v n = 0 := by
  let P : Matrix (Fin 16) (Fin 17) ℝ := Matrix.of fun p n => calcInterp .qua17 ((GaussTable.new .qua17).toGauss.coords p) n
  have hker : LinearMap.ker P.mulVecLin ≠ ⊥ := LinearMap.ker_ne_bot_of_finrank_lt (by simp)
  obtain ⟨w, hw, hne⟩ := (Submodule.ne_bot_iff _).1 hker
  have hw : P.mulVec w = 0 := hw
  obtain ⟨c, hc⟩ := Function.ne_iff.1 hne
  refine ⟨fun n => if h : n < 17 then w ⟨n, h⟩ else 0, ⟨c, c.2, by simpa using hc⟩, ?_⟩
  intro inv hinv kk args hk hg fnS s B hr hcol hreg hs
  obtain ⟨k', pad', h, h1⟩ := C37_mat_01_nsn hinv kk args fnS s B (by rw [hk]; exact hr) (by rw [hk]; exact hcol) hreg hs
  refine ⟨k', pad', h, fun m hm => ?_⟩
  have e : ∀ n ∈ Finset.range 17, added2 args kk k' (args.ii0 + m) (args.jj0 + n) * (if h : n < 17 then w ⟨n, h⟩ else 0) =
      quadrature args (detJ args.pad) fun p => shapeN args p m * s p * shapeN args p n * (if h : n < 17 then w ⟨n, h⟩ else 0) := by
    intro n hn
    rw [added2_eq h1 (by rw [hk]; exact hm) (by rw [hk]; exact Finset.mem_range.1 hn), quadrature_mul]
  rw [Finset.sum_congr rfl e, quadrature_sum]
  refine quadrature_zero fun p hp => ?_
  have hp16 : p < 16 := by rw [hg] at hp; exact hp
  have h2 := congrFun hw ⟨p, hp16⟩
  simp only [Matrix.mulVec, dotProduct, P, Matrix.of_apply, Pi.zero_apply] at h2
  simp only [mul_assoc, ← Finset.mul_sum]
  rw [Finset.sum_range]
  have e3 : ∑ n : Fin 17, shapeN args p n * (if h : (n : Nat) < 17 then w ⟨n, h⟩ else 0) = 0 := by
    rw [← h2]
    refine Finset.sum_congr rfl fun n _ => ?_
    rw [dif_pos n.2]
    unfold shapeN
    rw [hk, hg]
  rw [e3, mul_zero, mul_zero]

end
end Gemlab.Props.Integ
