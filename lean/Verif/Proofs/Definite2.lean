import Verif.Proofs.Definite

/-!
# Displacements with zero strain
-/
namespace Gemlab.Definite
noncomputable section
open Gemlab.Shapes Gemlab.RankMod Gemlab.GaussSpec Gemlab.Recov Gemlab.Spec.Integ Matrix

/-- A vector field whose differences are orthogonal to the differences of the points is a rigid motion. -/
theorem rigid_of_orthogonal (d : Nat) (V : (Nat → ℝ) → Nat → ℝ)
    (h : ∀ y z : Nat → ℝ, ∑ i ∈ Finset.range d, (V y i - V z i) * (y i - z i) = 0) :
    ∃ W : Nat → Nat → ℝ, (∀ i j, W i j = -W j i) ∧ ∀ y, ∀ i < d, V y i = V 0 i + ∑ j ∈ Finset.range d, W i j * y j := by
  have e (f : Nat → ℝ) {i : Nat} (hi : i < d) : ∑ j ∈ Finset.range d, f j * (Pi.single i (1 : ℝ) : Nat → ℝ) j = f i := by
    rw [Finset.sum_eq_single i]
    · rw [Pi.single_eq_same, mul_one]
    · intro j _ hj; rw [Pi.single_eq_of_ne hj, mul_zero]
    · intro hc; exact absurd (Finset.mem_range.2 hi) hc
  have h1 (y : Nat → ℝ) : ∑ i ∈ Finset.range d, (V y i - V 0 i) * y i = 0 := by simpa using h y 0
  have h2 (y z : Nat → ℝ) : ∑ i ∈ Finset.range d, (V y i - V 0 i) * z i + ∑ i ∈ Finset.range d, (V z i - V 0 i) * y i = 0 := by
    have h3 := h y z
    have h4 : ∑ i ∈ Finset.range d, (V y i - V z i) * (y i - z i) = ∑ i ∈ Finset.range d, (V y i - V 0 i) * y i + ∑ i ∈ Finset.range d, (V z i - V 0 i) * z i -
        (∑ i ∈ Finset.range d, (V y i - V 0 i) * z i + ∑ i ∈ Finset.range d, (V z i - V 0 i) * y i) := by
      simp only [← Finset.sum_add_distrib, ← Finset.sum_sub_distrib]
      exact Finset.sum_congr rfl fun i _ => by ring
    rw [h1, h1] at h4
    linarith
  refine ⟨fun i j => if i < d ∧ j < d then -(V (Pi.single i 1) j - V 0 j) else 0, ?_, ?_⟩
  · intro i j
    dsimp only
    by_cases hij : i < d ∧ j < d
    · rw [if_pos hij, if_pos hij.symm]
      have := h2 (Pi.single i 1) (Pi.single j 1)
      rw [e (fun l => V (Pi.single i 1) l - V 0 l) hij.2, e (fun l => V (Pi.single j 1) l - V 0 l) hij.1] at this
      linarith
    · rw [if_neg hij, if_neg (fun hc => hij hc.symm), neg_zero]
  · intro y i hi
    have := h2 y (Pi.single i 1)
    rw [e (fun l => V y l - V 0 l) hi] at this
    have e2 : ∑ j ∈ Finset.range d, (if i < d ∧ j < d then -(V (Pi.single i 1) j - V 0 j) else 0) * y j = -∑ j ∈ Finset.range d, (V (Pi.single i 1) j - V 0 j) * y j := by
      rw [← Finset.sum_neg_distrib]
      refine Finset.sum_congr rfl fun j hj => ?_
      rw [if_pos ⟨hi, Finset.mem_range.1 hj⟩]; ring
    rw [e2]
    linarith

/-- A left inverse of a square array is a right inverse. -/
theorem right_of_left {d : Nat} {C A : Nat → Nat → ℝ} (h : ∀ i < d, ∀ j < d, ∑ l ∈ Finset.range d, C i l * A l j = if i = j then 1 else 0) :
    ∀ i < d, ∀ j < d, ∑ l ∈ Finset.range d, A i l * C l j = if i = j then 1 else 0 := by
  have h1 : (Matrix.of fun i j : Fin d => C i j) * (Matrix.of fun i j : Fin d => A i j) = 1 := by
    ext i j
    rw [Matrix.mul_apply, Matrix.one_apply]
    simp only [Matrix.of_apply, Fin.ext_iff]
    rw [Fin.sum_univ_eq_sum_range (fun l => C i l * A l j) d]
    exact h i i.2 j j.2
  have h2 := _root_.mul_eq_one_comm.1 h1
  intro i hi j hj
  have := congrFun (congrFun h2 ⟨i, hi⟩) ⟨j, hj⟩
  rw [Matrix.mul_apply, Matrix.one_apply] at this
  simp only [Matrix.of_apply, Fin.mk.injEq] at this
  rwa [Fin.sum_univ_eq_sum_range (fun l => A i l * C l j) d] at this

/-- The Jacobian of an affine element. -/
theorem jac_affine (pad : Scratchpad) {b : Nat → ℝ} {A : Nat → Nat → ℝ} {i : Nat}
    (hX : ∀ m < pad.kind.nnode, pad.X m i = b i + ∑ j ∈ Finset.range pad.kind.ndim, A i j * refCoord pad.kind m j) (ξ : Nat → ℝ) {j : Nat} (hj : j < pad.kind.ndim) :
    jac pad ξ i j = A i j := by
  unfold jac
  rw [Finset.sum_congr rfl fun m hm => by rw [hX m (Finset.mem_range.1 hm)]]
  simp only [add_mul, Finset.sum_add_distrib, Finset.sum_mul]
  rw [← Finset.mul_sum, derivSum _ _ _ hj, mul_zero, zero_add, Finset.sum_comm]
  have : ∀ l ∈ Finset.range pad.kind.ndim, ∑ m ∈ Finset.range pad.kind.nnode, A i l * refCoord pad.kind m l * calcDeriv pad.kind ξ m j = A i l * if l = j then 1 else 0 := by
    intro l hl
    rw [← linearDeriv pad.kind ξ l j (Finset.mem_range.1 hl) hj, Finset.mul_sum]
    exact Finset.sum_congr rfl fun m _ => by ring
  rw [Finset.sum_congr rfl this]
  simp [hj]

theorem coords_affine (pad : Scratchpad) {b : Nat → ℝ} {A : Nat → Nat → ℝ} {i : Nat}
    (hX : ∀ m < pad.kind.nnode, pad.X m i = b i + ∑ j ∈ Finset.range pad.kind.ndim, A i j * refCoord pad.kind m j) (ξ : Nat → ℝ) :
    ∑ m ∈ Finset.range pad.kind.nnode, pad.X m i * calcInterp pad.kind ξ m = b i + ∑ j ∈ Finset.range pad.kind.ndim, A i j * ξ j := by
  rw [Finset.sum_congr rfl fun m hm => by rw [hX m (Finset.mem_range.1 hm)]]
  simp only [add_mul, Finset.sum_add_distrib, Finset.sum_mul]
  rw [← Finset.mul_sum, pou, mul_one, Finset.sum_comm]
  congr 1
  refine Finset.sum_congr rfl fun j hj => ?_
  rw [← linearCoord pad.kind ξ j (Finset.mem_range.1 hj), Finset.mul_sum]
  exact Finset.sum_congr rfl fun m _ => by ring

/-- Displacements of an affine element with zero strain at the points of the default rule are rigid motions. -/
theorem rigid_of_strain (pad : Scratchpad) (hk : pad.kind ≠ .qua17) {d : Nat} (hd : pad.kind.ndim = d) (hs : pad.spaceNdim = d) {b : Nat → ℝ} {A : Nat → Nat → ℝ}
    (hX : ∀ m < pad.kind.nnode, ∀ i < d, pad.X m i = b i + ∑ j ∈ Finset.range d, A i j * refCoord pad.kind m j) (B : Nat → Nat → Nat → ℝ)
    (hB : ∀ p < (GaussTable.new pad.kind).toGauss.npoint, IsGradient pad ((GaussTable.new pad.kind).toGauss.coords p) (B p)) (hne : 0 < (GaussTable.new pad.kind).toGauss.npoint)
    (u : Nat → Nat → ℝ) (h : ∀ p < (GaussTable.new pad.kind).toGauss.npoint, ∀ i < d, ∀ l < d, ∑ m ∈ Finset.range pad.kind.nnode, (u m i * B p m l + u m l * B p m i) = 0) :
    ∃ (v : Nat → ℝ) (W : Nat → Nat → ℝ), (∀ i j, W i j = -W j i) ∧
      ∀ m < pad.kind.nnode, ∀ i < d, u m i = v i + ∑ j ∈ Finset.range d, W i j * pad.X m j := by
  subst hd
  have hX' : ∀ i < pad.kind.ndim, ∀ m < pad.kind.nnode, pad.X m i = b i + ∑ j ∈ Finset.range pad.kind.ndim, A i j * refCoord pad.kind m j := fun i hi m hm => hX m hm i hi
  have hJ : ∀ ξ, ∀ i < pad.kind.ndim, ∀ j < pad.kind.ndim, jac pad ξ i j = A i j := fun ξ i hi j hj => jac_affine pad (hX' i hi) ξ hj
  have hG : ∀ p < (GaussTable.new pad.kind).toGauss.npoint, ∀ m < pad.kind.nnode, ∀ j < pad.kind.ndim,
      ∑ i ∈ Finset.range pad.kind.ndim, B p m i * A i j = calcDeriv pad.kind ((GaussTable.new pad.kind).toGauss.coords p) m j := by
    intro p hp m hm j hj
    rw [← hB p hp m hm j (by rw [hs]; exact hj), hs]
    exact Finset.sum_congr rfl fun i hi => by rw [hJ _ i (Finset.mem_range.1 hi) j hj]
  -- the inverse of `A`
  obtain ⟨C, hCA⟩ : ∃ C : Nat → Nat → ℝ, ∀ l < pad.kind.ndim, ∀ j < pad.kind.ndim, ∑ i ∈ Finset.range pad.kind.ndim, C l i * A i j = if l = j then 1 else 0 := by
    refine ⟨fun l i => ∑ m ∈ Finset.range pad.kind.nnode, refCoord pad.kind m l * B 0 m i, fun l hl j hj => ?_⟩
    rw [← linearDeriv pad.kind ((GaussTable.new pad.kind).toGauss.coords 0) l j hl hj]
    simp only [Finset.sum_mul]
    rw [Finset.sum_comm]
    refine Finset.sum_congr rfl fun m hm => ?_
    rw [← hG 0 hne m (Finset.mem_range.1 hm) j hj, Finset.mul_sum]
    exact Finset.sum_congr rfl fun i _ => by ring
  have hAC := right_of_left hCA
  have hBC : ∀ p < (GaussTable.new pad.kind).toGauss.npoint, ∀ m < pad.kind.nnode, ∀ l < pad.kind.ndim,
      B p m l = ∑ j ∈ Finset.range pad.kind.ndim, C j l * calcDeriv pad.kind ((GaussTable.new pad.kind).toGauss.coords p) m j := by
    intro p hp m hm l hl
    rw [Finset.sum_congr rfl fun j hj => by rw [← hG p hp m hm j (Finset.mem_range.1 hj), Finset.mul_sum], Finset.sum_comm]
    have : ∀ i ∈ Finset.range pad.kind.ndim, ∑ j ∈ Finset.range pad.kind.ndim, C j l * (B p m i * A i j) = B p m i * if i = l then 1 else 0 := by
      intro i hi
      rw [← hAC i (Finset.mem_range.1 hi) l hl, Finset.mul_sum]
      exact Finset.sum_congr rfl fun j _ => by ring
    rw [Finset.sum_congr rfl this]
    simp [hl]
  -- zero strain everywhere
  let E (ξ : Nat → ℝ) (i l : Nat) : ℝ := ∑ m ∈ Finset.range pad.kind.nnode, u m i * ∑ j ∈ Finset.range pad.kind.ndim, C j l * calcDeriv pad.kind ξ m j
  have hE : ∀ ξ, ∀ i < pad.kind.ndim, ∀ l < pad.kind.ndim, E ξ i l + E ξ l i = 0 := by
    intro ξ i hi l hl
    have key (ξ : Nat → ℝ) : ∑ m ∈ Finset.range pad.kind.nnode, ∑ j ∈ Finset.range pad.kind.ndim, (u m i * C j l + u m l * C j i) * calcDeriv pad.kind ξ m j = E ξ i l + E ξ l i := by
      simp only [E, ← Finset.sum_add_distrib, Finset.mul_sum]
      exact Finset.sum_congr rfl fun m _ => Finset.sum_congr rfl fun j _ => by ring
    rw [← key]
    refine deriv_vanish pad hk _ (fun p hp => ?_) ξ
    rw [key, ← h p hp i hi l hl]
    simp only [E, ← Finset.sum_add_distrib]
    refine Finset.sum_congr rfl fun m hm => ?_
    rw [← hBC p hp m (Finset.mem_range.1 hm) l hl, ← hBC p hp m (Finset.mem_range.1 hm) i hi]
  -- the displacements as functions of the position
  let U (ξ : Nat → ℝ) (i : Nat) : ℝ := calcCoords pad.kind u ξ i
  have hU (ξ η : Nat → ℝ) (δ : Nat → ℝ) (hδ : ∀ i < pad.kind.ndim, δ i = ∑ j ∈ Finset.range pad.kind.ndim, A i j * (η j - ξ j)) :
      ∑ i ∈ Finset.range pad.kind.ndim, U ξ i * δ i = ∑ i ∈ Finset.range pad.kind.ndim, U η i * δ i := by
    have hz := eq_of_deriv_zero (f := fun t => ∑ i ∈ Finset.range pad.kind.ndim, U (fun j => ξ j + t * (η j - ξ j)) i * δ i) (fun t => by
      have h1 : HasDerivAt (fun t => ∑ i ∈ Finset.range pad.kind.ndim, U (fun j => ξ j + t * (η j - ξ j)) i * δ i)
          (∑ i ∈ Finset.range pad.kind.ndim, (∑ j ∈ Finset.range pad.kind.ndim, (∑ m ∈ Finset.range pad.kind.nnode, u m i * calcDeriv pad.kind (fun j => ξ j + t * (η j - ξ j)) m j) * (η j - ξ j)) * δ i) t := by
        apply HasDerivAt.fun_sum
        intro i _
        exact (calcCoords_curve pad.kind u (γ := fun t j => ξ j + t * (η j - ξ j)) (fun j _ => line_deriv ξ η t j) i).mul_const (δ i)
      convert h1 using 1
      generalize (fun j => ξ j + t * (η j - ξ j)) = ζ
      have hη : ∀ j < pad.kind.ndim, η j - ξ j = ∑ l ∈ Finset.range pad.kind.ndim, C j l * δ l := by
        intro j hj
        rw [Finset.sum_congr rfl fun l hl => by rw [hδ l (Finset.mem_range.1 hl), Finset.mul_sum], Finset.sum_comm]
        have : ∀ i ∈ Finset.range pad.kind.ndim, ∑ l ∈ Finset.range pad.kind.ndim, C j l * (A l i * (η i - ξ i)) = (if j = i then 1 else 0) * (η i - ξ i) := by
          intro i hi
          rw [← hCA j hj i (Finset.mem_range.1 hi), Finset.sum_mul]
          exact Finset.sum_congr rfl fun l _ => by ring
        rw [Finset.sum_congr rfl this]
        simp [hj]
      have h2 : ∑ i ∈ Finset.range pad.kind.ndim, (∑ j ∈ Finset.range pad.kind.ndim, (∑ m ∈ Finset.range pad.kind.nnode, u m i * calcDeriv pad.kind ζ m j) * (η j - ξ j)) * δ i =
          ∑ i ∈ Finset.range pad.kind.ndim, ∑ l ∈ Finset.range pad.kind.ndim, E ζ i l * (δ i * δ l) := by
        refine Finset.sum_congr rfl fun i _ => ?_
        rw [Finset.sum_congr rfl fun j hj => by rw [hη j (Finset.mem_range.1 hj)]]
        simp only [E, Finset.sum_mul, Finset.mul_sum]
        rw [Finset.sum_comm]
        refine Finset.sum_congr rfl fun l _ => ?_
        rw [Finset.sum_comm]
        exact Finset.sum_congr rfl fun m _ => Finset.sum_congr rfl fun j _ => by ring
      have h3 : ∑ i ∈ Finset.range pad.kind.ndim, ∑ l ∈ Finset.range pad.kind.ndim, E ζ i l * (δ i * δ l) = -∑ i ∈ Finset.range pad.kind.ndim, ∑ l ∈ Finset.range pad.kind.ndim, E ζ i l * (δ i * δ l) := by
        conv_rhs => rw [Finset.sum_comm]
        simp only [← Finset.sum_neg_distrib]
        refine Finset.sum_congr rfl fun i hi => Finset.sum_congr rfl fun l hl => ?_
        have := hE ζ i (Finset.mem_range.1 hi) l (Finset.mem_range.1 hl)
        linear_combination (δ i * δ l) * this
      rw [h2]; linarith)
    have e0 : (fun j => ξ j + (0 : ℝ) * (η j - ξ j)) = ξ := by funext j; ring
    have e1 : (fun j => ξ j + (1 : ℝ) * (η j - ξ j)) = η := by funext j; ring
    rw [e0, e1] at hz
    exact hz
  let inv (y : Nat → ℝ) (j : Nat) : ℝ := ∑ i ∈ Finset.range pad.kind.ndim, C j i * (y i - b i)
  obtain ⟨W, hW, hV⟩ := rigid_of_orthogonal pad.kind.ndim (fun y => U (inv y)) (fun y z => by
    have := hU (inv y) (inv z) (fun i => z i - y i) (fun i hi => by
      have e : ∀ j, inv z j - inv y j = ∑ l ∈ Finset.range pad.kind.ndim, C j l * (z l - y l) := by
        intro j
        simp only [inv, ← Finset.sum_sub_distrib]
        exact Finset.sum_congr rfl fun l _ => by ring
      simp only [e, Finset.mul_sum]
      rw [Finset.sum_comm]
      have : ∀ l ∈ Finset.range pad.kind.ndim, ∑ j ∈ Finset.range pad.kind.ndim, A i j * (C j l * (z l - y l)) = (if i = l then 1 else 0) * (z l - y l) := by
        intro l hl
        rw [← hAC i hi l (Finset.mem_range.1 hl), Finset.sum_mul]
        exact Finset.sum_congr rfl fun j _ => by ring
      rw [Finset.sum_congr rfl this]
      simp [hi])
    rw [← sub_eq_zero, ← Finset.sum_sub_distrib] at this
    rw [← neg_eq_zero, ← Finset.sum_neg_distrib, ← this]
    exact Finset.sum_congr rfl fun i _ => by ring)
  refine ⟨fun i => U (inv 0) i, W, hW, fun m hm i hi => ?_⟩
  have hinv : ∀ j < pad.kind.ndim, inv (pad.X m) j = refCoord pad.kind m j := by
    intro j hj
    simp only [inv]
    rw [Finset.sum_congr rfl fun l hl => by rw [hX m hm l (Finset.mem_range.1 hl), add_sub_cancel_left, Finset.mul_sum], Finset.sum_comm]
    have : ∀ l ∈ Finset.range pad.kind.ndim, ∑ i ∈ Finset.range pad.kind.ndim, C j i * (A i l * refCoord pad.kind m l) = (if j = l then 1 else 0) * refCoord pad.kind m l := by
      intro l hl
      rw [← hCA j hj l (Finset.mem_range.1 hl), Finset.sum_mul]
      exact Finset.sum_congr rfl fun i _ => by ring
    rw [Finset.sum_congr rfl this]
    simp [hj]
  rw [← hV (pad.X m) i hi]
  change _ = calcCoords pad.kind u (inv (pad.X m)) i
  unfold calcCoords
  rw [Finset.sum_congr rfl fun n hn => by rw [calcInterp_congr pad.kind hinv (Finset.mem_range.1 hn)], Finset.sum_eq_single m]
  · rw [kron _ m m hm hm, if_pos rfl, mul_one]
  · intro n hn hne'; rw [kron _ n m (Finset.mem_range.1 hn) hm, if_neg hne', mul_zero]
  · intro hc; exact absurd (Finset.mem_range.2 hm) hc

end
end Gemlab.Definite
