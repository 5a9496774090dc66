import Verif.Props.Definite
import Verif.Props.Integ4

/-!
# C96: conductivity, mass and stiffness matrices
-/
namespace Gemlab.Props.Integ
noncomputable section
open Gemlab.Integ Gemlab.Shapes Gemlab.GaussSpec Gemlab.Recov Gemlab.Spec.Integ Gemlab.Spec.Definite Gemlab.Definite

variable {inv : MatInverse}

/-- **C96 (`mat_03_btb`, energy).** -/
theorem C96_mat_03_energy (hinv : InverseSpec inv) (kk : Mat) (args : CommonArgs) (hd : SpaceOk args.pad) (fnT : Nat → (Nat → ℝ) → (Nat → Nat → ℝ) → Res (Nat → ℝ)) (t : Nat → Nat → ℝ)
    (B : Nat → Nat → Nat → ℝ) (hr : args.ii0 + args.pad.kind.nnode ≤ kk.nrow) (hc : args.jj0 + args.pad.kind.nnode ≤ kk.ncol) (hreg : GradRegular inv args.pad args.gauss B)
    (hs : ∀ p < args.gauss.npoint, ∀ bb, Holds args.pad (B p) bb → fnT p (shapeN args p) bb = .ok (t p)) :
    ∃ k' pad', mat03Btb inv kk args fnT = (k', .ok pad') ∧ ∀ v, form args.pad.kind.nnode (fun a b => added2 args kk k' (args.ii0 + a) (args.jj0 + b)) v =
      quadrature args (detJ args.pad) fun p => form3 args.pad.spaceNdim (tensor2 (t p)) (gradAt args.pad (B p) v) := by
  obtain ⟨k', pad', h, h1⟩ := C37_mat_03_btb hinv kk args hd fnT t B hr hc hreg hs
  refine ⟨k', pad', h, fun v => ?_⟩
  rw [form_eq (f := fun p m n => ∑ i ∈ Finset.range args.pad.spaceNdim, ∑ j ∈ Finset.range args.pad.spaceNdim, B p m i * tensor2 (t p) i j * B p n j) h1]
  refine quadrature_congr fun p _ => ?_
  unfold form form3 gradAt
  simp only [Finset.sum_mul, Finset.mul_sum]
  have e : ∀ x ∈ Finset.range args.pad.kind.nnode, ∑ b ∈ Finset.range args.pad.kind.nnode, ∑ i ∈ Finset.range args.pad.spaceNdim, ∑ j ∈ Finset.range args.pad.spaceNdim,
      v x * (B p x i * tensor2 (t p) i j * B p b j) * v b =
      ∑ i ∈ Finset.range args.pad.spaceNdim, ∑ j ∈ Finset.range args.pad.spaceNdim, ∑ b ∈ Finset.range args.pad.kind.nnode, v x * B p x i * tensor2 (t p) i j * (v b * B p b j) := by
    intro x _
    rw [Finset.sum_comm]
    refine Finset.sum_congr rfl fun i _ => ?_
    rw [Finset.sum_comm]
    exact Finset.sum_congr rfl fun j _ => Finset.sum_congr rfl fun b _ => by ring
  rw [Finset.sum_congr rfl e, Finset.sum_comm]
  refine Finset.sum_congr rfl fun i _ => ?_
  rw [Finset.sum_comm]
  refine Finset.sum_congr rfl fun j _ => ?_
  rw [Finset.sum_comm]

theorem form3_congr {d : Nat} {T : Nat → Nat → ℝ} {g g' : Nat → ℝ} (h : ∀ i < d, g i = g' i) : form3 d T g = form3 d T g' :=
  Finset.sum_congr rfl fun i hi => Finset.sum_congr rfl fun j hj => by rw [h i (Finset.mem_range.1 hi), h j (Finset.mem_range.1 hj)]

/-- **C96 (`mat_03_btb`).** With the default rule, the matrix is positive semidefinite if the tensors are, and if they are positive definite, only constant
fields have zero energy. -/
theorem C96_mat_03_definite (hinv : InverseSpec inv) (kk : Mat) (args : CommonArgs) (hd : SpaceOk args.pad) (hu : Usual args)
    (fnT : Nat → (Nat → ℝ) → (Nat → Nat → ℝ) → Res (Nat → ℝ)) (t : Nat → Nat → ℝ)
    (B : Nat → Nat → Nat → ℝ) (hr : args.ii0 + args.pad.kind.nnode ≤ kk.nrow) (hc : args.jj0 + args.pad.kind.nnode ≤ kk.ncol) (hreg : GradRegular inv args.pad args.gauss B)
    (hs : ∀ p < args.gauss.npoint, ∀ bb, Holds args.pad (B p) bb → fnT p (shapeN args p) bb = .ok (t p))
    (h0 : ∀ p < args.gauss.npoint, ∀ g, 0 ≤ form3 args.pad.spaceNdim (tensor2 (t p)) g) :
    ∃ k' pad', mat03Btb inv kk args fnT = (k', .ok pad') ∧
      (∀ v, 0 ≤ form args.pad.kind.nnode (fun a b => added2 args kk k' (args.ii0 + a) (args.jj0 + b)) v) ∧
      ((∀ p < args.gauss.npoint, ∀ g, (∃ i < args.pad.spaceNdim, g i ≠ 0) → 0 < form3 args.pad.spaceNdim (tensor2 (t p)) g) →
        ∀ v, form args.pad.kind.nnode (fun a b => added2 args kk k' (args.ii0 + a) (args.jj0 + b)) v = 0 ↔ ∀ m < args.pad.kind.nnode, v m = v 0) := by
  obtain ⟨k', pad', h, h1⟩ := C96_mat_03_energy hinv kk args hd fnT t B hr hc hreg hs
  refine ⟨k', pad', h, fun v => by rw [h1]; exact quadrature_nonneg hu fun p hp => h0 p hp _, fun hpos v => ?_⟩
  have hne : 0 < args.gauss.npoint := by rw [hu.rule]; change 0 < (GaussTable.new args.pad.kind).data.length; cases args.pad.kind <;> decide
  have hk := geo_eq_space (hreg 0 hne).1
  rw [h1, quadrature_eq_zero hu fun p hp => h0 p hp _]
  constructor
  · intro hz
    refine grad_const args.pad v fun p hp i hi => ?_
    rw [← hu.rule] at hp ⊢
    have hg : ∀ i < args.pad.spaceNdim, gradAt args.pad (B p) v i = 0 := by
      by_contra hcon
      push Not at hcon
      exact (hpos p hp _ hcon).ne' (hz p hp)
    rw [hk] at hi
    rw [Finset.sum_congr rfl fun m hm => by rw [← (hreg p hp).2 m (Finset.mem_range.1 hm) i hi, Finset.mul_sum], Finset.sum_comm]
    refine Finset.sum_eq_zero fun j hj => ?_
    rw [Finset.sum_congr rfl fun m _ => by rw [← mul_assoc], ← Finset.sum_mul]
    have := hg j (Finset.mem_range.1 hj)
    unfold gradAt at this
    rw [this, zero_mul]
  · intro hv p hp
    rw [form3_congr (g' := fun _ => 0)]
    · simp [form3]
    · intro i hi
      unfold gradAt
      rw [Finset.sum_congr rfl fun m hm => by rw [hv m (Finset.mem_range.1 hm)], ← Finset.mul_sum, grad_sum hinv (hreg p hp) hi, mul_zero]

theorem form2_eq {args : CommonArgs} {k k' : Mat} {n d : Nat} {μ : (Nat → ℝ) → ℝ} {f : Nat → Nat → Nat → Nat → Nat → ℝ}
    (h : IsBlockSum2 k k' args.clear args.ii0 args.jj0 (n * d) (n * d) fun a b => quadrature args μ fun p => f p (a / d) (a % d) (b / d) (b % d)) (u : Nat → Nat → ℝ) :
    form2 n d (fun a b => added2 args k k' (args.ii0 + a) (args.jj0 + b)) u =
      quadrature args μ fun p => ∑ m ∈ Finset.range n, ∑ i ∈ Finset.range d, ∑ m' ∈ Finset.range n, ∑ j ∈ Finset.range d, u m i * f p m i m' j * u m' j := by
  unfold form2
  rw [← quadrature_sum]
  refine Finset.sum_congr rfl fun m hm => ?_
  rw [← quadrature_sum]
  refine Finset.sum_congr rfl fun i hi => ?_
  rw [← quadrature_sum]
  refine Finset.sum_congr rfl fun m' hm' => ?_
  rw [← quadrature_sum]
  refine Finset.sum_congr rfl fun j hj => ?_
  have hi := Finset.mem_range.1 hi
  have hj := Finset.mem_range.1 hj
  beta_reduce
  rw [added2_eq h (digit_lt (Finset.mem_range.1 hm) hi) (digit_lt (Finset.mem_range.1 hm') hj), digit_div hi, digit_mod hi, digit_div hj, digit_mod hj,
    mul_comm (u m i), mul_assoc, quadrature_mul]
  exact quadrature_congr fun p _ => by ring

/-- **C96 (`mat_08_ntn`, energy).** -/
theorem C96_mat_08_energy (hinv : InverseSpec inv) (kk : Mat) (args : CommonArgs) (hd : SpaceOk args.pad) (fnT : Nat → (Nat → ℝ) → (Nat → Nat → ℝ) → Res (Nat → ℝ)) (t : Nat → Nat → ℝ)
    (B : Nat → Nat → Nat → ℝ) (hr : args.ii0 + args.pad.kind.nnode * args.pad.spaceNdim ≤ kk.nrow) (hc : args.jj0 + args.pad.kind.nnode * args.pad.spaceNdim ≤ kk.ncol) (hreg : GradRegular inv args.pad args.gauss B)
    (hs : ∀ p < args.gauss.npoint, ∀ bb, Holds args.pad (B p) bb → fnT p (shapeN args p) bb = .ok (t p)) :
    ∃ k' pad', mat08Ntn inv kk args fnT = (k', .ok pad') ∧
      ∀ u, form2 args.pad.kind.nnode args.pad.spaceNdim (fun a b => added2 args kk k' (args.ii0 + a) (args.jj0 + b)) u =
        quadrature args (detJ args.pad) fun p => form3 args.pad.spaceNdim (tensor2 (t p)) fun i => fieldAt args (fun m => u m i) p := by
  obtain ⟨k', pad', h, h1⟩ := C37_mat_08_ntn hinv kk args hd fnT t B hr hc hreg hs
  refine ⟨k', pad', h, fun u => ?_⟩
  rw [form2_eq (f := fun p m i n j => shapeN args p m * tensor2 (t p) i j * shapeN args p n) h1]
  refine quadrature_congr fun p _ => ?_
  unfold form3 fieldAt
  rw [Finset.sum_comm]
  refine Finset.sum_congr rfl fun i _ => ?_
  simp only [Finset.sum_mul, Finset.mul_sum]
  have e : ∀ m ∈ Finset.range args.pad.kind.nnode, ∑ m' ∈ Finset.range args.pad.kind.nnode, ∑ j ∈ Finset.range args.pad.spaceNdim,
      u m i * (shapeN args p m * tensor2 (t p) i j * shapeN args p m') * u m' j =
      ∑ j ∈ Finset.range args.pad.spaceNdim, ∑ m' ∈ Finset.range args.pad.kind.nnode, u m i * shapeN args p m * tensor2 (t p) i j * (u m' j * shapeN args p m') := by
    intro m _
    rw [Finset.sum_comm]
    exact Finset.sum_congr rfl fun j _ => Finset.sum_congr rfl fun m' _ => by ring
  rw [Finset.sum_congr rfl e, Finset.sum_comm]
  refine Finset.sum_congr rfl fun j _ => ?_
  rw [Finset.sum_comm]

/-- **C96 (`mat_08_ntn`).** With the default rule, the matrix is positive semidefinite if the tensors are, and positive definite if they are, except for `qua17`. -/
theorem C96_mat_08_definite (hinv : InverseSpec inv) (kk : Mat) (args : CommonArgs) (hd : SpaceOk args.pad) (hu : Usual args)
    (fnT : Nat → (Nat → ℝ) → (Nat → Nat → ℝ) → Res (Nat → ℝ)) (t : Nat → Nat → ℝ)
    (B : Nat → Nat → Nat → ℝ) (hr : args.ii0 + args.pad.kind.nnode * args.pad.spaceNdim ≤ kk.nrow) (hc : args.jj0 + args.pad.kind.nnode * args.pad.spaceNdim ≤ kk.ncol) (hreg : GradRegular inv args.pad args.gauss B)
    (hs : ∀ p < args.gauss.npoint, ∀ bb, Holds args.pad (B p) bb → fnT p (shapeN args p) bb = .ok (t p))
    (h0 : ∀ p < args.gauss.npoint, ∀ g, 0 ≤ form3 args.pad.spaceNdim (tensor2 (t p)) g) :
    ∃ k' pad', mat08Ntn inv kk args fnT = (k', .ok pad') ∧
      (∀ u, 0 ≤ form2 args.pad.kind.nnode args.pad.spaceNdim (fun a b => added2 args kk k' (args.ii0 + a) (args.jj0 + b)) u) ∧
      (args.pad.kind ≠ .qua17 → (∀ p < args.gauss.npoint, ∀ g, (∃ i < args.pad.spaceNdim, g i ≠ 0) → 0 < form3 args.pad.spaceNdim (tensor2 (t p)) g) →
        ∀ u, (∃ m < args.pad.kind.nnode, ∃ i < args.pad.spaceNdim, u m i ≠ 0) →
          0 < form2 args.pad.kind.nnode args.pad.spaceNdim (fun a b => added2 args kk k' (args.ii0 + a) (args.jj0 + b)) u) := by
  obtain ⟨k', pad', h, h1⟩ := C96_mat_08_energy hinv kk args hd fnT t B hr hc hreg hs
  refine ⟨k', pad', h, fun u => by rw [h1]; exact quadrature_nonneg hu fun p hp => h0 p hp _, fun hk hpos u hv => ?_⟩
  rw [h1]
  refine lt_of_le_of_ne (quadrature_nonneg hu fun p hp => h0 p hp _) fun he => ?_
  have hz := (quadrature_eq_zero hu fun p hp => h0 p hp _).1 he.symm
  obtain ⟨m, hm, i, hi, hne⟩ := hv
  refine hne (vanish args.pad hk (fun m => u m i) (fun p hp => ?_) m hm)
  rw [← hu.rule] at hp ⊢
  have hg : ∀ i < args.pad.spaceNdim, fieldAt args (fun m => u m i) p = 0 := by
    by_contra hcon
    push Not at hcon
    exact (hpos p hp _ hcon).ne' (hz p hp)
  exact hg i hi

theorem tensor4_minor (D : Nat → Nat → ℝ) (k l k' l' : Nat) : tensor4 D l k k' l' = tensor4 D k l k' l' ∧ tensor4 D k l l' k' = tensor4 D k l k' l' := by
  have h1 (a b : Nat) : mandelFac a b = mandelFac b a := by unfold mandelFac; simp only [eq_comm]
  have h2 (a b : Nat) : mandelIdx a b = mandelIdx b a := by
    unfold mandelIdx
    by_cases h : a = b
    · subst h; rfl
    · rw [if_neg h, if_neg (show ¬ b = a from fun hc => h hc.symm), Nat.add_comm]
  unfold tensor4
  constructor
  · rw [h1 l k, h2 l k]
  · rw [h1 l' k', h2 l' k']

theorem strainEnergy_sym (D : Nat → Nat → ℝ) (G : Nat → Nat → ℝ) : strainEnergy D G = strainEnergy D fun k l => (G k l + G l k) / 2 := by
  have e1 (H : Nat → Nat → ℝ) : ∑ k ∈ Finset.range 3, ∑ l ∈ Finset.range 3, ∑ k' ∈ Finset.range 3, ∑ l' ∈ Finset.range 3, H l k * tensor4 D k l k' l' * G k' l' =
      ∑ k ∈ Finset.range 3, ∑ l ∈ Finset.range 3, ∑ k' ∈ Finset.range 3, ∑ l' ∈ Finset.range 3, H k l * tensor4 D k l k' l' * G k' l' := by
    rw [Finset.sum_comm]
    exact Finset.sum_congr rfl fun k _ => Finset.sum_congr rfl fun l _ => Finset.sum_congr rfl fun k' _ => Finset.sum_congr rfl fun l' _ => by rw [(tensor4_minor D k l k' l').1]
  have e2 (H : Nat → Nat → ℝ) : ∑ k ∈ Finset.range 3, ∑ l ∈ Finset.range 3, ∑ k' ∈ Finset.range 3, ∑ l' ∈ Finset.range 3, H k l * tensor4 D k l k' l' * G l' k' =
      ∑ k ∈ Finset.range 3, ∑ l ∈ Finset.range 3, ∑ k' ∈ Finset.range 3, ∑ l' ∈ Finset.range 3, H k l * tensor4 D k l k' l' * G k' l' := by
    refine Finset.sum_congr rfl fun k _ => Finset.sum_congr rfl fun l _ => ?_
    rw [Finset.sum_comm]
    exact Finset.sum_congr rfl fun k' _ => Finset.sum_congr rfl fun l' _ => by rw [(tensor4_minor D k l k' l').2]
  have h1 := e1 G
  have h2 := e2 G
  have h3 := e2 fun k l => G l k
  beta_reduce at h3
  have : (strainEnergy D fun k l => (G k l + G l k) / 2) =
      (strainEnergy D G + ∑ k ∈ Finset.range 3, ∑ l ∈ Finset.range 3, ∑ k' ∈ Finset.range 3, ∑ l' ∈ Finset.range 3, G l k * tensor4 D k l k' l' * G k' l' +
       ∑ k ∈ Finset.range 3, ∑ l ∈ Finset.range 3, ∑ k' ∈ Finset.range 3, ∑ l' ∈ Finset.range 3, G k l * tensor4 D k l k' l' * G l' k' +
       ∑ k ∈ Finset.range 3, ∑ l ∈ Finset.range 3, ∑ k' ∈ Finset.range 3, ∑ l' ∈ Finset.range 3, G l k * tensor4 D k l k' l' * G l' k') / 4 := by
    unfold strainEnergy
    simp only [← Finset.sum_add_distrib, Finset.sum_div]
    exact Finset.sum_congr rfl fun k _ => Finset.sum_congr rfl fun l _ => Finset.sum_congr rfl fun k' _ => Finset.sum_congr rfl fun l' _ => by ring
  rw [this, h3, h1, h2]
  unfold strainEnergy
  ring

theorem dispGrad_eq {args : CommonArgs} (haxi : args.axisymmetric = true → args.pad.spaceNdim = 2) (B : Nat → Nat → ℝ) (u : Nat → Nat → ℝ) (p k l : Nat) :
    ∑ m ∈ Finset.range args.pad.kind.nnode, ∑ i ∈ Finset.range args.pad.spaceNdim, u m i * strainOp args B p m i k l = dispGrad args B u p k l := by
  unfold dispGrad
  by_cases h : k < args.pad.spaceNdim ∧ l < args.pad.spaceNdim
  · rw [if_pos h]
    refine Finset.sum_congr rfl fun m _ => ?_
    rw [Finset.sum_eq_single k]
    · unfold strainOp; rw [if_pos ⟨rfl, h.2⟩]
    · intro i _ hne
      unfold strainOp
      rw [if_neg (fun hc => hne hc.1.symm), if_neg, mul_zero]
      rintro ⟨hax, -, hk, -⟩
      have := haxi hax
      omega
    · intro hc; exact absurd (Finset.mem_range.2 h.1) hc
  · rw [if_neg h]
    by_cases h2 : args.axisymmetric = true ∧ k = 2 ∧ l = 2
    · rw [if_pos h2, Finset.sum_div]
      have hs := haxi h2.1
      refine Finset.sum_congr rfl fun m _ => ?_
      rw [Finset.sum_eq_single 0]
      · unfold strainOp
        rw [if_neg (by omega), if_pos ⟨h2.1, rfl, h2.2⟩]; ring
      · intro i hi hne
        have := Finset.mem_range.1 hi
        unfold strainOp
        rw [if_neg (by omega), if_neg (by rintro ⟨-, h3, -⟩; exact hne h3), mul_zero]
      · intro hc; rw [hs] at hc; simp at hc
    · rw [if_neg h2]
      refine Finset.sum_eq_zero fun m _ => Finset.sum_eq_zero fun i hi => ?_
      have := Finset.mem_range.1 hi
      unfold strainOp
      rw [if_neg (by rintro ⟨h3, h4⟩; exact h ⟨by omega, h4⟩), if_neg (by rintro ⟨h3, -, h4⟩; exact h2 ⟨h3, h4⟩), mul_zero]

/-- **C96 (`mat_10_bdb`, energy).** -/
theorem C96_mat_10_energy (hinv : InverseSpec inv) (kk : Mat) (args : CommonArgs) (hd : SpaceOk args.pad)
    (haxi : args.axisymmetric = true → args.pad.spaceNdim = 2 ∧ ∀ p < args.gauss.npoint, radiusAt args p ≠ 0)
    (fnD : Nat → (Nat → ℝ) → (Nat → Nat → ℝ) → Res (Nat → Nat → ℝ)) (D : Nat → Nat → Nat → ℝ) (B : Nat → Nat → Nat → ℝ)
    (hr : args.ii0 + args.pad.kind.nnode * args.pad.spaceNdim ≤ kk.nrow) (hc : args.jj0 + args.pad.kind.nnode * args.pad.spaceNdim ≤ kk.ncol)
    (hreg : GradRegular inv args.pad args.gauss B)
    (hs : ∀ p < args.gauss.npoint, ∀ bb, Holds args.pad (B p) bb → fnD p (shapeN args p) bb = .ok (D p)) :
    ∃ k' pad', mat10Bdb inv kk args fnD = (k', .ok pad') ∧
      ∀ u, form2 args.pad.kind.nnode args.pad.spaceNdim (fun a b => added2 args kk k' (args.ii0 + a) (args.jj0 + b)) u =
        quadrature args (detJ args.pad) fun p => strainEnergy (D p) (strainAt args (B p) u p) := by
  obtain ⟨k', pad', h, h1⟩ := C37_mat_10_bdb hinv kk args hd haxi fnD D B hr hc hreg hs
  refine ⟨k', pad', h, fun u => ?_⟩
  rw [form2_eq (f := fun p m i n j => stiffness args (B p) (D p) p m i n j) h1]
  refine quadrature_congr fun p _ => ?_
  have hG := dispGrad_eq (fun h => (haxi h).1) (B p) u p
  rw [show strainAt args (B p) u p = fun k l => (dispGrad args (B p) u p k l + dispGrad args (B p) u p l k) / 2 from rfl, ← strainEnergy_sym]
  unfold strainEnergy
  -- the inner sum
  let S (k l : Nat) : ℝ := ∑ k' ∈ Finset.range 3, ∑ l' ∈ Finset.range 3, tensor4 (D p) k l k' l' * dispGrad args (B p) u p k' l'
  have hin : ∀ m i, ∑ m' ∈ Finset.range args.pad.kind.nnode, ∑ j ∈ Finset.range args.pad.spaceNdim, u m i * stiffness args (B p) (D p) p m i m' j * u m' j =
      ∑ k ∈ Finset.range 3, ∑ l ∈ Finset.range 3, u m i * strainOp args (B p) p m i k l * S k l := by
    intro m i
    have e : ∀ m' j, u m i * stiffness args (B p) (D p) p m i m' j * u m' j = ∑ k ∈ Finset.range 3, ∑ l ∈ Finset.range 3, ∑ k' ∈ Finset.range 3, ∑ l' ∈ Finset.range 3,
        u m i * strainOp args (B p) p m i k l * tensor4 (D p) k l k' l' * (u m' j * strainOp args (B p) p m' j k' l') := by
      intro m' j
      unfold stiffness
      simp only [Finset.mul_sum, Finset.sum_mul]
      exact Finset.sum_congr rfl fun k _ => Finset.sum_congr rfl fun l _ => Finset.sum_congr rfl fun k' _ => Finset.sum_congr rfl fun l' _ => by ring
    simp only [e, S, ← hG, Finset.mul_sum]
    simp only [Finset.sum_range_succ, Finset.sum_range_zero, zero_add, Finset.sum_add_distrib]
    simp only [mul_assoc]
  simp only [hin]
  have hout : ∑ m ∈ Finset.range args.pad.kind.nnode, ∑ i ∈ Finset.range args.pad.spaceNdim, ∑ k ∈ Finset.range 3, ∑ l ∈ Finset.range 3, u m i * strainOp args (B p) p m i k l * S k l =
      ∑ k ∈ Finset.range 3, ∑ l ∈ Finset.range 3, dispGrad args (B p) u p k l * S k l := by
    simp only [← hG, Finset.sum_mul]
    simp only [Finset.sum_range_succ, Finset.sum_range_zero, zero_add, Finset.sum_add_distrib]
  rw [hout]
  refine Finset.sum_congr rfl fun k _ => Finset.sum_congr rfl fun l _ => ?_
  simp only [S, Finset.mul_sum]
  exact Finset.sum_congr rfl fun k' _ => Finset.sum_congr rfl fun l' _ => by ring

theorem isStrain_strainAt (args : CommonArgs) (B : Nat → Nat → ℝ) (u : Nat → Nat → ℝ) (p : Nat) : IsStrain args (strainAt args B u p) := by
  refine ⟨fun k l => by unfold strainAt; rw [add_comm], fun k l h => ?_⟩
  by_contra hc
  push Not at hc
  refine h ?_
  unfold strainAt dispGrad
  have h1 : ¬ (k < args.pad.spaceNdim ∧ l < args.pad.spaceNdim) := fun h => absurd h.2 (not_lt.2 (by have := hc.1 h.1; omega))
  have h2 : ¬ (args.axisymmetric = true ∧ k = 2 ∧ l = 2) := fun h => hc.2 h.1 h.2.1 h.2.2
  rw [if_neg h1, if_neg h2, if_neg (fun h => h1 h.symm), if_neg (fun h => h2 ⟨h.1, h.2.2, h.2.1⟩)]
  norm_num

/-- A rigid motion has no strain. -/
theorem strainAt_rigid (hinv : InverseSpec inv) {args : CommonArgs} {p : Nat} {B : Nat → Nat → ℝ} (hax : args.axisymmetric = false)
    (hreg : (∃ r, args.pad.calcGradient inv (args.gauss.coords p) = .ok r) ∧ IsGradient args.pad (args.gauss.coords p) B)
    {u : Nat → Nat → ℝ} (hu : IsRigid args.pad u) (k l : Nat) : strainAt args B u p k l = 0 := by
  obtain ⟨v, W, hW, h⟩ := hu
  have e : ∀ k < args.pad.spaceNdim, ∀ l < args.pad.spaceNdim, ∑ m ∈ Finset.range args.pad.kind.nnode, u m k * B m l = W k l := by
    intro k hk l hl
    rw [Finset.sum_congr rfl fun m hm => by rw [h m (Finset.mem_range.1 hm) k hk, add_mul, Finset.sum_mul], Finset.sum_add_distrib, ← Finset.mul_sum,
      grad_sum hinv hreg hl, mul_zero, zero_add, Finset.sum_comm,
      Finset.sum_congr rfl fun j hj => by
        rw [Finset.sum_congr rfl fun m _ => mul_assoc _ _ _, ← Finset.mul_sum, grad_moment hinv hreg (Finset.mem_range.1 hj) hl]]
    simp [hl]
  unfold strainAt dispGrad
  by_cases hkl : k < args.pad.spaceNdim ∧ l < args.pad.spaceNdim
  · rw [if_pos hkl, if_pos hkl.symm, e k hkl.1 l hkl.2, e l hkl.2 k hkl.1, hW k l]; ring
  · have hlk : ¬ (l < args.pad.spaceNdim ∧ k < args.pad.spaceNdim) := fun h => hkl h.symm
    rw [if_neg hkl, if_neg hlk]; simp [hax]

/-- **C96 (`mat_10_bdb`).** With the default rule, the stiffness matrix is positive semidefinite if the moduli are. If the moduli are positive definite (and the
analysis is not axisymmetric), rigid motions have zero energy, and if the element is affine (and not `qua17`), no other displacements do: the default rules have no
spurious modes. -/
theorem C96_mat_10_definite (hinv : InverseSpec inv) (kk : Mat) (args : CommonArgs) (hd : SpaceOk args.pad) (hu : Usual args)
    (haxi : args.axisymmetric = true → args.pad.spaceNdim = 2)
    (fnD : Nat → (Nat → ℝ) → (Nat → Nat → ℝ) → Res (Nat → Nat → ℝ)) (D : Nat → Nat → Nat → ℝ) (B : Nat → Nat → Nat → ℝ)
    (hr : args.ii0 + args.pad.kind.nnode * args.pad.spaceNdim ≤ kk.nrow) (hc : args.jj0 + args.pad.kind.nnode * args.pad.spaceNdim ≤ kk.ncol)
    (hreg : GradRegular inv args.pad args.gauss B)
    (hs : ∀ p < args.gauss.npoint, ∀ bb, Holds args.pad (B p) bb → fnD p (shapeN args p) bb = .ok (D p))
    (h0 : ∀ p < args.gauss.npoint, ∀ E, IsStrain args E → 0 ≤ strainEnergy (D p) E) :
    ∃ k' pad', mat10Bdb inv kk args fnD = (k', .ok pad') ∧
      (∀ u, 0 ≤ form2 args.pad.kind.nnode args.pad.spaceNdim (fun a b => added2 args kk k' (args.ii0 + a) (args.jj0 + b)) u) ∧
      (args.axisymmetric = false → ∀ u, IsRigid args.pad u → form2 args.pad.kind.nnode args.pad.spaceNdim (fun a b => added2 args kk k' (args.ii0 + a) (args.jj0 + b)) u = 0) ∧
      (args.axisymmetric = false → args.pad.kind ≠ .qua17 → Affine args.pad →
        (∀ p < args.gauss.npoint, ∀ E, IsStrain args E → (∃ k l, E k l ≠ 0) → 0 < strainEnergy (D p) E) →
        ∀ u, form2 args.pad.kind.nnode args.pad.spaceNdim (fun a b => added2 args kk k' (args.ii0 + a) (args.jj0 + b)) u = 0 → IsRigid args.pad u) := by
  obtain ⟨k', pad', h, h1⟩ := C96_mat_10_energy hinv kk args hd (fun h => ⟨haxi h, fun p hp => (hu.radius h p hp).ne'⟩) fnD D B hr hc hreg hs
  refine ⟨k', pad', h, fun u => ?_, fun hax u hur => ?_, fun hax hk hA hpos u he => ?_⟩
  · rw [h1]; exact quadrature_nonneg hu fun p hp => h0 p hp _ (isStrain_strainAt _ _ _ _)
  · rw [h1, quadrature_eq_zero hu fun p hp => h0 p hp _ (isStrain_strainAt _ _ _ _)]
    intro p hp
    unfold strainEnergy
    simp only [strainAt_rigid hinv hax (hreg p hp) hur, zero_mul, Finset.sum_const_zero]
  · rw [h1, quadrature_eq_zero hu fun p hp => h0 p hp _ (isStrain_strainAt _ _ _ _)] at he
    have hne : 0 < args.gauss.npoint := by rw [hu.rule]; change 0 < (GaussTable.new args.pad.kind).data.length; cases args.pad.kind <;> decide
    have hg := geo_eq_space (hreg 0 hne).1
    obtain ⟨b, A, hX⟩ := hA
    refine rigid_of_strain args.pad hk hg rfl hX B (fun p hp => ?_) (by rw [← hu.rule]; exact hne) u fun p hp i hi l hl => ?_
    · rw [← hu.rule] at hp ⊢; exact (hreg p hp).2
    · rw [← hu.rule] at hp
      have hz : strainAt args (B p) u p i l = 0 := by
        by_contra hcon
        exact (hpos p hp _ (isStrain_strainAt _ _ _ _) ⟨i, l, hcon⟩).ne' (he p hp)
      unfold strainAt dispGrad at hz
      rw [if_pos ⟨hi, hl⟩, if_pos ⟨hl, hi⟩] at hz
      rw [Finset.sum_add_distrib]
      linarith

/-! ## The hypotheses can be met -/

theorem strainEnergy_one {E : Nat → Nat → ℝ} (h : ∀ k l, E k l = E l k) :
    strainEnergy (fun a b => if a = b then 1 else 0) E = E 0 0 ^ 2 + E 1 1 ^ 2 + E 2 2 ^ 2 + 2 * E 0 1 ^ 2 + 2 * E 1 2 ^ 2 + 2 * E 0 2 ^ 2 := by
  have h2 : (Real.sqrt 2)⁻¹ * (Real.sqrt 2)⁻¹ = 1 / 2 := by rw [← mul_inv, Real.mul_self_sqrt (by norm_num)]; norm_num
  unfold strainEnergy tensor4 mandelFac mandelIdx
  simp [Finset.sum_range_succ, h 1 0, h 2 0, h 2 1, h2]
  ring

theorem detJ_reference (kd : GeoKind) (hd : 2 ≤ kd.ndim) (ξ : Nat → ℝ) : detJ (Scratchpad.referencePad kd) ξ = 1 := by
  have e : ∀ i < kd.ndim, ∀ j < kd.ndim, jac (Scratchpad.referencePad kd) ξ i j = if i = j then 1 else 0 := by
    intro i hi j hj
    refine jac_affine (Scratchpad.referencePad kd) (b := fun _ => 0) (A := fun i j => if i = j then 1 else 0) (fun m _ => ?_) ξ hj
    simp [Scratchpad.X, Scratchpad.referencePad]
  have hn : kd.ndim = 2 ∨ kd.ndim = 3 := by revert hd; cases kd <;> decide
  unfold detJ
  change detN kd.ndim _ = 1
  rcases hn with hn | hn <;> rw [hn] at e ⊢ <;> simp [detN, e, Matrix.det_fin_two, Matrix.det_fin_three]

/-- All hypotheses of the theorems about positive definite stiffness are met by the reference element of every kind of the plane or the space, with
the identity as the Mandel matrix of moduli. -/
theorem C96_example (kd : GeoKind) (hd : 2 ≤ kd.ndim) : ∃ (args : CommonArgs) (B : Nat → Nat → Nat → ℝ) (kk : Mat) (D : Nat → Nat → Nat → ℝ),
    args.pad.kind = kd ∧ SpaceOk args.pad ∧ Usual args ∧ args.axisymmetric = false ∧ Affine args.pad ∧
    args.ii0 + args.pad.kind.nnode * args.pad.spaceNdim ≤ kk.nrow ∧ args.jj0 + args.pad.kind.nnode * args.pad.spaceNdim ≤ kk.ncol ∧
    GradRegular exactInverse args.pad args.gauss B ∧
    (∀ p < args.gauss.npoint, ∀ E, IsStrain args E → 0 ≤ strainEnergy (D p) E) ∧
    (∀ p < args.gauss.npoint, ∀ E, IsStrain args E → (∃ k l, E k l ≠ 0) → 0 < strainEnergy (D p) E) := by
  have hn : kd.ndim = 2 ∨ kd.ndim = 3 := by revert hd; cases kd <;> decide
  obtain ⟨B, hB, _⟩ := regular_exists kd (GaussTable.new kd).toGauss
  refine ⟨{ pad := Scratchpad.referencePad kd, gauss := (GaussTable.new kd).toGauss, clear := true, axisymmetric := false, alpha := 1, ii0 := 1, jj0 := 2 }, B,
    { nrow := 1 + kd.nnode * kd.ndim, ncol := 2 + kd.nnode * kd.ndim, val := fun _ => 5 }, fun _ a b => if a = b then 1 else 0, rfl, hn,
    ⟨rfl, one_pos, fun p _ => by rw [detJ_reference kd hd]; exact one_pos, fun h => by simp at h⟩, rfl, ⟨fun _ => 0, fun i j => if i = j then 1 else 0, fun m _ i hi => ?_⟩,
    le_refl _, le_refl _, hB, fun p _ E hE => ?_, fun p _ E hE ⟨k, l, hkl⟩ => ?_⟩
  · have : i < kd.ndim := hi
    simp [Scratchpad.X, Scratchpad.referencePad, this]
  · rw [strainEnergy_one hE.1]; positivity
  · rw [strainEnergy_one hE.1]
    have hk : k < 3 ∧ l < 3 := by
      rcases hE.2 k l hkl with h | h
      · have h1 : k < kd.ndim := h.1
        have h2 : l < kd.ndim := h.2
        omega
      · simp at h
    have hp : 0 < E k l ^ 2 := by positivity
    obtain ⟨h1, h2⟩ := hk
    interval_cases k <;> interval_cases l <;> (try rw [hE.1 1 0] at hp) <;> (try rw [hE.1 2 0] at hp) <;> (try rw [hE.1 2 1] at hp) <;> positivity

end
end Gemlab.Props.Integ
