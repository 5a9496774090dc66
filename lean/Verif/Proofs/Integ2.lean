import Verif.Proofs.Integ

/-! # The steps of the integration routines -/
namespace Gemlab.Integ
open Gemlab Gemlab.Shapes Gemlab.Scratchpad Gemlab.Spec.Integ
noncomputable section

/-- Same element: kind, space dimension and coordinates of the nodes. -/
def SameGeo (pad pad0 : Scratchpad) : Prop :=
  pad.kind = pad0.kind ∧ pad.spaceNdim = pad0.spaceNdim ∧ pad.xxt = pad0.xxt ∧ pad.okXxt = pad0.okXxt

theorem SameGeo.refl (pad : Scratchpad) : SameGeo pad pad := ⟨rfl, rfl, rfl, rfl⟩

theorem fillJacobian_geo {pad pad0 : Scratchpad} (h : SameGeo pad pad0) (ξ : Nat → ℝ) :
    (pad.fillJacobian ξ).jacobian = (pad0.fillJacobian ξ).jacobian ∧ (pad.fillJacobian ξ).deriv = (pad0.fillJacobian ξ).deriv := by
  obtain ⟨h1, h2, h3, h4⟩ := h
  unfold Scratchpad.fillJacobian
  simp only [h1, h3, and_self]

/-- `calc_jacobian` after the interpolation functions. -/
theorem jacobian_geo {inv : MatInverse} {pad pad0 : Scratchpad} (h : SameGeo pad pad0) (ξ : Nat → ℝ) :
    (∀ d p0, pad0.calcJacobian inv ξ = .ok (d, p0) → ∃ p', (pad.calcInterp ξ).calcJacobian inv ξ = .ok (d, p') ∧ SameGeo p' pad0 ∧
      p'.interp = Shapes.calcInterp pad0.kind ξ) ∧
    (∀ e, pad0.calcJacobian inv ξ = .err e → (pad.calcInterp ξ).calcJacobian inv ξ = .err e) := by
  obtain ⟨k, n, it, de, ja, ij, gr, xx, ok⟩ := pad
  obtain ⟨k0, n0, it0, de0, ja0, ij0, gr0, xx0, ok0⟩ := pad0
  obtain ⟨h1, h2, h3, h4⟩ := h
  simp only at h1 h2 h3 h4
  subst h1 h2 h3 h4
  unfold Scratchpad.calcJacobian Scratchpad.fillJacobian Scratchpad.calcInterp
  dsimp only
  by_cases hok : ok
  · subst hok
    simp only [Bool.not_true, Bool.false_eq_true, if_false]
    by_cases hd : k.ndim = n
    · simp only [hd, if_true]
      cases inv n (fun i j => ∑ m ∈ Finset.range k.nnode, xx i m * Shapes.calcDeriv k ξ m j) with
      | ok r =>
        simp only [Res.bind_ok, Res.ok.injEq, Prod.mk.injEq]
        exact ⟨fun d p0 hh => ⟨_, ⟨hh.1, rfl⟩, ⟨rfl, rfl, rfl, rfl⟩, rfl⟩, fun e he => absurd he (by simp)⟩
      | err e' => exact ⟨fun d p0 hh => absurd hh (by simp), fun e he => he⟩
      | panic => exact ⟨fun d p0 hh => absurd hh (by simp), fun e he => absurd he (by simp)⟩
    · simp only [hd, if_false]
      split
      · simp only [Res.ok.injEq, Prod.mk.injEq]
        exact ⟨fun d p0 hh => ⟨_, ⟨hh.1, rfl⟩, ⟨rfl, rfl, rfl, rfl⟩, rfl⟩, fun e he => absurd he (by simp)⟩
      · simp only [Res.ok.injEq, Prod.mk.injEq]
        exact ⟨fun d p0 hh => ⟨_, ⟨hh.1, rfl⟩, ⟨rfl, rfl, rfl, rfl⟩, rfl⟩, fun e he => absurd he (by simp)⟩
  · simp only [Bool.not_eq_true] at hok
    subst hok
    simp

/-- The same without `calc_interp`. -/
theorem jacobian_geo0 {inv : MatInverse} {pad pad0 : Scratchpad} (h : SameGeo pad pad0) (ξ : Nat → ℝ) {d : ℝ} {p0 : Scratchpad}
    (hd : pad0.calcJacobian inv ξ = .ok (d, p0)) : ∃ p', pad.calcJacobian inv ξ = .ok (d, p') ∧ SameGeo p' pad0 := by
  obtain ⟨k, n, it, de, ja, ij, gr, xx, ok⟩ := pad
  obtain ⟨k0, n0, it0, de0, ja0, ij0, gr0, xx0, ok0⟩ := pad0
  obtain ⟨h1, h2, h3, h4⟩ := h
  simp only at h1 h2 h3 h4
  subst h1 h2 h3 h4
  revert hd
  unfold Scratchpad.calcJacobian Scratchpad.fillJacobian
  dsimp only
  by_cases hok : ok
  · subst hok
    simp only [Bool.not_true, Bool.false_eq_true, if_false]
    by_cases hd : k.ndim = n
    · simp only [hd, if_true]
      cases inv n (fun i j => ∑ m ∈ Finset.range k.nnode, xx i m * Shapes.calcDeriv k ξ m j) with
      | ok r =>
        simp only [Res.bind_ok, Res.ok.injEq, Prod.mk.injEq]
        exact fun hh => ⟨_, ⟨hh.1, rfl⟩, ⟨rfl, rfl, rfl, rfl⟩⟩
      | err e' => exact fun hh => absurd hh (by simp)
      | panic => exact fun hh => absurd hh (by simp)
    · simp only [hd, if_false]
      split <;>
      · simp only [Res.ok.injEq, Prod.mk.injEq]
        exact fun hh => ⟨_, ⟨hh.1, rfl⟩, ⟨rfl, rfl, rfl, rfl⟩⟩
  · simp only [Bool.not_eq_true] at hok
    subst hok
    exact fun hh => absurd hh (by simp)

/-- `calc_gradient`, before or after the interpolation functions. -/
theorem gradient_geo0 {inv : MatInverse} {pad pad0 : Scratchpad} (h : SameGeo pad pad0) (ξ : Nat → ℝ) :
    (∀ d p0, pad0.calcGradient inv ξ = .ok (d, p0) → ∃ p', pad.calcGradient inv ξ = .ok (d, p') ∧ SameGeo p' pad0 ∧
      p'.interp = pad.interp ∧ p'.gradient = p0.gradient) ∧
    (∀ e, pad0.calcGradient inv ξ = .err e → pad.calcGradient inv ξ = .err e) := by
  obtain ⟨k, n, it, de, ja, ij, gr, xx, ok⟩ := pad
  obtain ⟨k0, n0, it0, de0, ja0, ij0, gr0, xx0, ok0⟩ := pad0
  obtain ⟨h1, h2, h3, h4⟩ := h
  simp only at h1 h2 h3 h4
  subst h1 h2 h3 h4
  unfold Scratchpad.calcGradient Scratchpad.calcJacobian Scratchpad.fillJacobian
  dsimp only
  by_cases hd : k.ndim = n
  · simp only [hd, ne_eq, not_true_eq_false, if_false, if_true]
    by_cases hok : ok
    · subst hok
      simp only [Bool.not_true, Bool.false_eq_true, if_false]
      cases inv n (fun i j => ∑ m ∈ Finset.range k.nnode, xx i m * Shapes.calcDeriv k ξ m j) with
      | ok r =>
        simp only [Res.bind_ok, Res.ok.injEq, Prod.mk.injEq]
        refine ⟨fun d p0 hh => ⟨_, ⟨hh.1, rfl⟩, ⟨rfl, rfl, rfl, rfl⟩, rfl, ?_⟩, fun e he => absurd he (by simp)⟩
        rw [← hh.2]
      | err e' => exact ⟨fun d p0 hh => absurd hh (by simp), fun e he => he⟩
      | panic => exact ⟨fun d p0 hh => absurd hh (by simp), fun e he => absurd he (by simp)⟩
    · simp only [Bool.not_eq_true] at hok
      subst hok
      simp
  · simp [hd]

theorem gradient_geo {inv : MatInverse} {pad pad0 : Scratchpad} (h : SameGeo pad pad0) (ξ : Nat → ℝ) :
    (∀ d p0, pad0.calcGradient inv ξ = .ok (d, p0) → ∃ p', (pad.calcInterp ξ).calcGradient inv ξ = .ok (d, p') ∧ SameGeo p' pad0 ∧
      p'.interp = Shapes.calcInterp pad0.kind ξ ∧ p'.gradient = p0.gradient) ∧
    (∀ e, pad0.calcGradient inv ξ = .err e → (pad.calcInterp ξ).calcGradient inv ξ = .err e) := by
  have hg : SameGeo (pad.calcInterp ξ) pad0 := h
  obtain ⟨h1, h2⟩ := gradient_geo0 (inv := inv) hg ξ
  refine ⟨fun d p0 hh => ?_, h2⟩
  obtain ⟨p', a, b, c, e⟩ := h1 d p0 hh
  exact ⟨p', a, b, by rw [c, ← h.1]; rfl, e⟩

/-- The magnitude and the direction computed by `calc_normal_vector`, from the Jacobian matrix. -/
def nrmOut (ns : Nat) (jj : Nat → Nat → ℝ) : ℝ × (Nat → ℝ) :=
  if ns = 2 then
    let u0 := - jj 1 0
    let u1 := jj 0 0
    let mag := Real.sqrt (u0 * u0 + u1 * u1)
    (mag, (fun i => if mag > 0 then (if i = 0 then u0 / mag else u1 / mag) else (if i = 0 then u0 else u1)))
  else
    let u0 := jj 1 0 * jj 2 1 - jj 2 0 * jj 1 1
    let u1 := jj 2 0 * jj 0 1 - jj 0 0 * jj 2 1
    let u2 := jj 0 0 * jj 1 1 - jj 1 0 * jj 0 1
    let mag := Real.sqrt (u0 * u0 + u1 * u1 + u2 * u2)
    (mag, (fun i => if mag > 0 then (if i = 0 then u0 / mag else if i = 1 then u1 / mag else u2 / mag)
                        else (if i = 0 then u0 else if i = 1 then u1 else u2)))

theorem normal_eq (pad : Scratchpad) (n : Nat) (ξ : Nat → ℝ) : pad.calcNormalVector n ξ =
    if pad.spaceNdim = 2 ∧ pad.kind.ndim ≠ 1 then .err "calc_normal_vector requires geo_ndim = 1 in 2D (CABLE in 2D)"
    else if pad.spaceNdim = 3 ∧ pad.kind.ndim ≠ 2 then .err "calc_normal_vector requires geo_ndim = 2 in 3D (SHELL in 3D)"
    else if n ≠ pad.spaceNdim then .err "un.dim() must be equal to space_ndim"
    else .ok ((nrmOut pad.spaceNdim (pad.fillJacobian ξ).jacobian).1, (nrmOut pad.spaceNdim (pad.fillJacobian ξ).jacobian).2, pad.fillJacobian ξ) := by
  unfold Scratchpad.calcNormalVector nrmOut
  by_cases h1 : pad.spaceNdim = 2 ∧ pad.kind.ndim ≠ 1
  · rw [if_pos h1, if_pos h1]
  by_cases h2 : pad.spaceNdim = 3 ∧ pad.kind.ndim ≠ 2
  · rw [if_neg h1, if_neg h1, if_pos h2, if_pos h2]
  by_cases h3 : n ≠ pad.spaceNdim
  · rw [if_neg h1, if_neg h1, if_neg h2, if_neg h2, if_pos h3, if_pos h3]
  rw [if_neg h1, if_neg h1, if_neg h2, if_neg h2, if_neg h3, if_neg h3]
  by_cases h4 : pad.spaceNdim = 2
  · refine (if_pos h4).trans ?_
    rw [if_pos h4]
  · refine (if_neg h4).trans ?_
    rw [if_neg h4]

theorem normal_geo {pad pad0 : Scratchpad} (h : SameGeo pad pad0) (n : Nat) (ξ : Nat → ℝ) :
    (∀ d un p0, pad0.calcNormalVector n ξ = .ok (d, un, p0) → ∃ p', (pad.calcInterp ξ).calcNormalVector n ξ = .ok (d, un, p') ∧ SameGeo p' pad0 ∧
      p'.interp = Shapes.calcInterp pad0.kind ξ) ∧
    (∀ e, pad0.calcNormalVector n ξ = .err e → (pad.calcInterp ξ).calcNormalVector n ξ = .err e) := by
  have hg : SameGeo (pad.calcInterp ξ) pad0 := h
  have hj := (fillJacobian_geo hg ξ).1
  rw [normal_eq, normal_eq, hj, hg.1, hg.2.1]
  split
  · exact ⟨fun d un p0 hh => absurd hh (by simp), fun e he => he⟩
  split
  · exact ⟨fun d un p0 hh => absurd hh (by simp), fun e he => he⟩
  split
  · exact ⟨fun d un p0 hh => absurd hh (by simp), fun e he => he⟩
  refine ⟨fun d un p0 hh => ⟨(pad.calcInterp ξ).fillJacobian ξ, ?_, hg, ?_⟩, fun e he => absurd he (by simp)⟩
  · simp only [Res.ok.injEq, Prod.mk.injEq] at hh ⊢
    exact ⟨hh.1, hh.2.1, trivial⟩
  · rw [← h.1]; rfl

theorem radius_geo {pad pad0 : Scratchpad} (h : SameGeo pad pad0) {ξ : Nat → ℝ} (hi : pad.interp = Shapes.calcInterp pad0.kind ξ) :
    radius pad = ∑ m ∈ Finset.range pad0.kind.nnode, Shapes.calcInterp pad0.kind ξ m * pad0.X m 0 := by
  unfold radius
  rw [hi, h.1, h.2.2.1]
  rfl

/-- The gradient matrix computed by `calc_gradient` is the one determined by the chain rule. -/
theorem gradient_eq {inv : MatInverse} (hinv : InverseSpec inv) {pad pad' : Scratchpad} {ξ : Nat → ℝ} {d : ℝ}
    (h : calcGradient inv pad ξ = .ok (d, pad')) {B : Nat → Nat → ℝ} (hB : IsGradient pad ξ B) :
    d = detJ pad ξ ∧ ∀ m < pad.kind.nnode, ∀ j < pad.spaceNdim, pad'.gradient m j = B m j := by
  obtain ⟨h1, _, hJ, hr, hG⟩ := gradient_facts hinv h
  have hJ' : pad'.jacobian = jac pad ξ := by funext i j; exact hJ i j
  rw [hJ'] at h1 hr
  refine ⟨h1, fun m hm j hj => ?_⟩
  rw [hG]
  have e1 : ∑ k ∈ Finset.range pad.spaceNdim, Shapes.calcDeriv pad.kind ξ m k * pad'.invJacobian k j =
      ∑ k ∈ Finset.range pad.spaceNdim, (∑ i ∈ Finset.range pad.spaceNdim, B m i * jac pad ξ i k) * pad'.invJacobian k j :=
    Finset.sum_congr rfl fun k hk => by rw [hB m hm k (Finset.mem_range.1 hk)]
  rw [e1]
  simp only [Finset.sum_mul]
  rw [Finset.sum_comm]
  have e2 : ∀ i ∈ Finset.range pad.spaceNdim, ∑ k ∈ Finset.range pad.spaceNdim, B m i * jac pad ξ i k * pad'.invJacobian k j =
      if i = j then B m i else 0 := by
    intro i hi
    have := hr i (Finset.mem_range.1 hi) j hj
    simp only [mul_assoc, ← Finset.mul_sum]
    rw [this]
    simp
  rw [Finset.sum_congr rfl e2]
  simp [hj]

/-- The gradient of an element that can be integrated exists. -/
theorem gradient_exists {inv : MatInverse} (hinv : InverseSpec inv) {pad pad' : Scratchpad} {ξ : Nat → ℝ} {d : ℝ}
    (h : calcGradient inv pad ξ = .ok (d, pad')) : IsGradient pad ξ pad'.gradient := by
  obtain ⟨h1, _, hJ, hr, hG⟩ := gradient_facts hinv h
  have hJ' : pad'.jacobian = jac pad ξ := by funext i j; exact hJ i j
  rw [hJ'] at hr
  have hl := left_of_right hr
  intro m hm j hj
  simp only [hG, Finset.sum_mul]
  rw [Finset.sum_comm]
  have e2 : ∀ k ∈ Finset.range pad.spaceNdim, ∑ i ∈ Finset.range pad.spaceNdim, Shapes.calcDeriv pad.kind ξ m k * pad'.invJacobian k i * jac pad ξ i j =
      if k = j then Shapes.calcDeriv pad.kind ξ m k else 0 := by
    intro k hk
    have := hl k (Finset.mem_range.1 hk) j hj
    simp only [mul_assoc, ← Finset.mul_sum]
    rw [this]
    simp
  rw [Finset.sum_congr rfl e2]
  simp [hj]

theorem measure_eq {inv : MatInverse} (hinv : InverseSpec inv) {pad pad' : Scratchpad} {ξ : Nat → ℝ} {d : ℝ}
    (h : calcJacobian inv pad ξ = .ok (d, pad')) : d = jacMeasure pad ξ := by
  obtain ⟨h1, h2, h3⟩ := C31_det hinv h
  have hJ : pad'.jacobian = jac pad ξ := by
    obtain ⟨_, ⟨_, ji, _, rfl⟩ | ⟨_, rfl, _⟩⟩ := calcJacobian_ok h <;> rfl
  rw [hJ] at h1 h2
  unfold jacMeasure
  split
  · rename_i hc; exact (h1 hc).1
  split
  · rename_i hc hc2; exact h2 hc hc2
  · rename_i hc hc2; exact h3 hc hc2

/-! ## Steps -/

section
variable {I : Type} {inv : MatInverse} {pad0 pad : Scratchpad} {ξ : Nat → ℝ} {l : List (I × ℝ)}

/-- The first coordinate of the point. -/
def radAt (pad0 : Scratchpad) (ξ : Nat → ℝ) : ℝ := ∑ m ∈ Finset.range pad0.kind.nnode, Shapes.calcInterp pad0.kind ξ m * pad0.X m 0

/-- A step that uses the determinant of the Jacobian. -/
theorem step_jac (hinv : InverseSpec inv) (hreg : ∃ r, pad0.calcJacobian inv ξ = .ok r) (hpad : SameGeo pad pad0)
    {K : ℝ × Scratchpad → Res (Scratchpad × List (I × ℝ))}
    (hK : ∀ pad', pad'.interp = Shapes.calcInterp pad0.kind ξ → radius pad' = radAt pad0 ξ → K (jacMeasure pad0 ξ, pad') = .ok (pad', l)) :
    ∃ s', ((pad.calcInterp ξ).calcJacobian inv ξ >>= K) = .ok (s', l) ∧ SameGeo s' pad0 := by
  obtain ⟨⟨d, p0⟩, hr⟩ := hreg
  obtain ⟨p', h1, h2, h3⟩ := (jacobian_geo hpad ξ).1 d p0 hr
  rw [h1, measure_eq hinv hr]
  exact ⟨p', hK p' h3 (radius_geo h2 h3), h2⟩

/-- A step that uses the gradient. -/
theorem step_grad_geo (hinv : InverseSpec inv) {B : Nat → Nat → ℝ} (hreg : (∃ r, pad0.calcGradient inv ξ = .ok r) ∧ IsGradient pad0 ξ B)
    (hpad : SameGeo pad pad0) {K : ℝ × Scratchpad → Res (Scratchpad × List (I × ℝ))}
    (hK : ∀ pad', SameGeo pad' pad0 → pad'.interp = Shapes.calcInterp pad0.kind ξ → Holds pad0 B pad'.gradient → radius pad' = radAt pad0 ξ →
      K (detJ pad0 ξ, pad') = .ok (pad', l)) :
    ∃ s', ((pad.calcInterp ξ).calcGradient inv ξ >>= K) = .ok (s', l) ∧ SameGeo s' pad0 := by
  obtain ⟨⟨⟨d, p0⟩, hr⟩, hB⟩ := hreg
  obtain ⟨p', h1, h2, h3, h4⟩ := (gradient_geo hpad ξ).1 d p0 hr
  obtain ⟨g1, g2⟩ := gradient_eq hinv hr hB
  rw [h1, g1]
  refine ⟨p', hK p' h2 h3 ?_ (radius_geo h2 h3), h2⟩
  rw [h4]
  exact g2

theorem step_grad (hinv : InverseSpec inv) {B : Nat → Nat → ℝ} (hreg : (∃ r, pad0.calcGradient inv ξ = .ok r) ∧ IsGradient pad0 ξ B)
    (hpad : SameGeo pad pad0) {K : ℝ × Scratchpad → Res (Scratchpad × List (I × ℝ))}
    (hK : ∀ pad', pad'.interp = Shapes.calcInterp pad0.kind ξ → Holds pad0 B pad'.gradient → radius pad' = radAt pad0 ξ →
      K (detJ pad0 ξ, pad') = .ok (pad', l)) :
    ∃ s', ((pad.calcInterp ξ).calcGradient inv ξ >>= K) = .ok (s', l) ∧ SameGeo s' pad0 :=
  step_grad_geo hinv hreg hpad fun pad' _ => hK pad'

/-- The same with a second pad in the state. -/
theorem step_grad2 (hinv : InverseSpec inv) {B : Nat → Nat → ℝ} (hreg : (∃ r, pad0.calcGradient inv ξ = .ok r) ∧ IsGradient pad0 ξ B)
    (hpad : SameGeo pad pad0) {padB padB0 : Scratchpad} (hb : SameGeo padB padB0) {K : ℝ × Scratchpad → Res ((Scratchpad × Scratchpad) × List (I × ℝ))}
    (hK : ∀ pad', pad'.interp = Shapes.calcInterp pad0.kind ξ → Holds pad0 B pad'.gradient → radius pad' = radAt pad0 ξ →
      K (detJ pad0 ξ, pad') = .ok ((pad', padB), l)) :
    ∃ s', ((pad.calcInterp ξ).calcGradient inv ξ >>= K) = .ok (s', l) ∧ (SameGeo s'.1 pad0 ∧ SameGeo s'.2 padB0) := by
  obtain ⟨⟨⟨d, p0⟩, hr⟩, hB⟩ := hreg
  obtain ⟨p', h1, h2, h3, h4⟩ := (gradient_geo hpad ξ).1 d p0 hr
  obtain ⟨g1, g2⟩ := gradient_eq hinv hr hB
  rw [h1, g1]
  refine ⟨(p', padB), hK p' h3 ?_ (radius_geo h2 h3), h2, hb⟩
  rw [h4]
  exact g2

/-- A step that uses the normal vector. -/
theorem step_nrm {n : Nat} {mag : ℝ} {un : Nat → ℝ} {p0 : Scratchpad} (hreg : pad0.calcNormalVector n ξ = .ok (mag, un, p0))
    (hpad : SameGeo pad pad0) {K : ℝ × (Nat → ℝ) × Scratchpad → Res (Scratchpad × List (I × ℝ))}
    (hK : ∀ pad', pad'.interp = Shapes.calcInterp pad0.kind ξ → radius pad' = radAt pad0 ξ → K (mag, un, pad') = .ok (pad', l)) :
    ∃ s', ((pad.calcInterp ξ).calcNormalVector n ξ >>= K) = .ok (s', l) ∧ SameGeo s' pad0 := by
  obtain ⟨p', h1, h2, h3⟩ := (normal_geo hpad n ξ).1 mag un p0 hreg
  rw [h1]
  exact ⟨p', hK p' h3 (radius_geo h2 h3), h2⟩

end

/-! ## Literal lists of additions -/

theorem flatMap_range_congr {α : Type} {n : Nat} {f g : Nat → List α} (h : ∀ m < n, f m = g m) : (List.range n).flatMap f = (List.range n).flatMap g := by
  apply List.flatMap_congr
  intro m hm
  exact h m (List.mem_range.1 hm)

theorem range_two : List.range 2 = [0, 1] := rfl
theorem range_three : List.range 3 = [0, 1, 2] := rfl

section
variable {ii0 jj0 n nr nc d : Nat}

theorem bl1 {f : Nat → ℝ} {x : Nat → Nat → ℝ} (h : ∀ m < n, f m = x m 0) : ((List.range n).map fun m => (ii0 + m, f m)) = blockList1 ii0 n 1 x := by
  unfold blockList1
  have : ((List.range n).map fun m => (ii0 + m, f m)) = (List.range n).flatMap fun m => [(ii0 + m, f m)] := by
    induction List.range n with
    | nil => rfl
    | cons a l ih => simp [ih]
  rw [this]
  apply flatMap_range_congr
  intro m hm
  simp [h m hm]

theorem bl1d (hd : d = 2 ∨ d = 3) {g0 g1 h0 h1 h2 : Nat → ℝ} {x : Nat → Nat → ℝ} (hg : d = 2 → ∀ m < n, g0 m = x m 0 ∧ g1 m = x m 1)
    (hh : d = 3 → ∀ m < n, h0 m = x m 0 ∧ h1 m = x m 1 ∧ h2 m = x m 2) :
    (if d = 2 then (List.range n).flatMap fun m => [(ii0 + 0 + m * 2, g0 m), (ii0 + 1 + m * 2, g1 m)]
     else (List.range n).flatMap fun m => [(ii0 + 0 + m * 3, h0 m), (ii0 + 1 + m * 3, h1 m), (ii0 + 2 + m * 3, h2 m)]) = blockList1 ii0 n d x := by
  unfold blockList1
  rcases hd with rfl | rfl
  · rw [if_pos rfl]
    apply flatMap_range_congr
    intro m hm
    obtain ⟨a, b⟩ := hg rfl m hm
    simp [range_two, a, b]
  · rw [if_neg (by decide)]
    apply flatMap_range_congr
    intro m hm
    obtain ⟨a, b, c⟩ := hh rfl m hm
    simp [range_three, a, b, c]

theorem bl2 {f : Nat → Nat → ℝ} {x : Nat → Nat → Nat → Nat → ℝ} (h : ∀ m < nr, ∀ n < nc, f m n = x m 0 n 0) :
    ((List.range nr).flatMap fun m => (List.range nc).map fun n => ((ii0 + m, jj0 + n), f m n)) = blockList2 ii0 jj0 nr 1 nc 1 x := by
  unfold blockList2
  apply flatMap_range_congr
  intro m hm
  have : ((List.range nc).map fun n => ((ii0 + m, jj0 + n), f m n)) = (List.range nc).flatMap fun n => [((ii0 + m, jj0 + n), f m n)] := by
    induction List.range nc with
    | nil => rfl
    | cons a l ih => simp [ih]
  rw [this]
  apply flatMap_range_congr
  intro n hn
  simp [h m hm n hn]

theorem bl2_1d (hd : d = 2 ∨ d = 3) {g0 g1 h0 h1 h2 : Nat → Nat → ℝ} {x : Nat → Nat → Nat → Nat → ℝ}
    (hg : d = 2 → ∀ m < nr, ∀ n < nc, g0 m n = x m 0 n 0 ∧ g1 m n = x m 0 n 1)
    (hh : d = 3 → ∀ m < nr, ∀ n < nc, h0 m n = x m 0 n 0 ∧ h1 m n = x m 0 n 1 ∧ h2 m n = x m 0 n 2) :
    (if d = 2 then (List.range nr).flatMap fun m => (List.range nc).flatMap fun n =>
        [((ii0 + m, jj0 + 0 + n * 2), g0 m n), ((ii0 + m, jj0 + 1 + n * 2), g1 m n)]
     else (List.range nr).flatMap fun m => (List.range nc).flatMap fun n =>
        [((ii0 + m, jj0 + 0 + n * 3), h0 m n), ((ii0 + m, jj0 + 1 + n * 3), h1 m n), ((ii0 + m, jj0 + 2 + n * 3), h2 m n)]) =
      blockList2 ii0 jj0 nr 1 nc d x := by
  unfold blockList2
  rcases hd with rfl | rfl
  · rw [if_pos rfl]
    refine flatMap_range_congr fun m hm => flatMap_range_congr fun n hn => ?_
    obtain ⟨a, b⟩ := hg rfl m hm n hn
    simp [range_two, a, b]
  · rw [if_neg (by decide)]
    refine flatMap_range_congr fun m hm => flatMap_range_congr fun n hn => ?_
    obtain ⟨a, b, c⟩ := hh rfl m hm n hn
    simp [range_three, a, b, c]

theorem bl2_d1 (hd : d = 2 ∨ d = 3) {g0 g1 h0 h1 h2 : Nat → Nat → ℝ} {x : Nat → Nat → Nat → Nat → ℝ}
    (hg : d = 2 → ∀ m < nr, ∀ n < nc, g0 m n = x m 0 n 0 ∧ g1 m n = x m 1 n 0)
    (hh : d = 3 → ∀ m < nr, ∀ n < nc, h0 m n = x m 0 n 0 ∧ h1 m n = x m 1 n 0 ∧ h2 m n = x m 2 n 0) :
    (if d = 2 then (List.range nr).flatMap fun m => (List.range nc).flatMap fun n =>
        [((ii0 + 0 + m * 2, jj0 + n), g0 m n), ((ii0 + 1 + m * 2, jj0 + n), g1 m n)]
     else (List.range nr).flatMap fun m => (List.range nc).flatMap fun n =>
        [((ii0 + 0 + m * 3, jj0 + n), h0 m n), ((ii0 + 1 + m * 3, jj0 + n), h1 m n), ((ii0 + 2 + m * 3, jj0 + n), h2 m n)]) =
      blockList2 ii0 jj0 nr d nc 1 x := by
  unfold blockList2
  rcases hd with rfl | rfl
  · rw [if_pos rfl]
    refine flatMap_range_congr fun m hm => flatMap_range_congr fun n hn => ?_
    obtain ⟨a, b⟩ := hg rfl m hm n hn
    simp [range_two, a, b]
  · rw [if_neg (by decide)]
    refine flatMap_range_congr fun m hm => flatMap_range_congr fun n hn => ?_
    obtain ⟨a, b, c⟩ := hh rfl m hm n hn
    simp [range_three, a, b, c]

theorem bl1_2 {g0 g1 : Nat → ℝ} {x : Nat → Nat → ℝ} (hg : ∀ m < nr, g0 m = x m 0 ∧ g1 m = x m 1) :
    ((List.range nr).flatMap fun m => [(ii0 + 0 + m * 2, g0 m), (ii0 + 1 + m * 2, g1 m)]) = blockList1 ii0 nr 2 x := by
  unfold blockList1
  refine flatMap_range_congr fun m hm => ?_
  obtain ⟨a, b⟩ := hg m hm
  simp [range_two, a, b]

theorem bl2_22 {g00 g01 g10 g11 : Nat → Nat → ℝ} {x : Nat → Nat → Nat → Nat → ℝ}
    (hg : ∀ m < nr, ∀ n < nc, g00 m n = x m 0 n 0 ∧ g01 m n = x m 0 n 1 ∧ g10 m n = x m 1 n 0 ∧ g11 m n = x m 1 n 1) :
    ((List.range nr).flatMap fun m => (List.range nc).flatMap fun n =>
        [((ii0 + 0 + m * 2, jj0 + 0 + n * 2), g00 m n), ((ii0 + 0 + m * 2, jj0 + 1 + n * 2), g01 m n),
         ((ii0 + 1 + m * 2, jj0 + 0 + n * 2), g10 m n), ((ii0 + 1 + m * 2, jj0 + 1 + n * 2), g11 m n)]) =
      blockList2 ii0 jj0 nr 2 nc 2 x := by
  unfold blockList2
  refine flatMap_range_congr fun m hm => flatMap_range_congr fun n hn => ?_
  obtain ⟨a, b, c, e⟩ := hg m hm n hn
  simp [range_two, a, b, c, e]

theorem bl2_33 {g00 g01 g02 g10 g11 g12 g20 g21 g22 : Nat → Nat → ℝ} {x : Nat → Nat → Nat → Nat → ℝ}
    (h0 : ∀ m < nr, ∀ n < nc, g00 m n = x m 0 n 0 ∧ g01 m n = x m 0 n 1 ∧ g02 m n = x m 0 n 2)
    (h1 : ∀ m < nr, ∀ n < nc, g10 m n = x m 1 n 0 ∧ g11 m n = x m 1 n 1 ∧ g12 m n = x m 1 n 2)
    (h2 : ∀ m < nr, ∀ n < nc, g20 m n = x m 2 n 0 ∧ g21 m n = x m 2 n 1 ∧ g22 m n = x m 2 n 2) :
    ((List.range nr).flatMap fun m => (List.range nc).flatMap fun n =>
        [((ii0 + 0 + m * 3, jj0 + 0 + n * 3), g00 m n), ((ii0 + 0 + m * 3, jj0 + 1 + n * 3), g01 m n), ((ii0 + 0 + m * 3, jj0 + 2 + n * 3), g02 m n),
         ((ii0 + 1 + m * 3, jj0 + 0 + n * 3), g10 m n), ((ii0 + 1 + m * 3, jj0 + 1 + n * 3), g11 m n), ((ii0 + 1 + m * 3, jj0 + 2 + n * 3), g12 m n),
         ((ii0 + 2 + m * 3, jj0 + 0 + n * 3), g20 m n), ((ii0 + 2 + m * 3, jj0 + 1 + n * 3), g21 m n), ((ii0 + 2 + m * 3, jj0 + 2 + n * 3), g22 m n)]) =
      blockList2 ii0 jj0 nr 3 nc 3 x := by
  unfold blockList2
  refine flatMap_range_congr fun m hm => flatMap_range_congr fun n hn => ?_
  obtain ⟨a, b, c⟩ := h0 m hm n hn
  obtain ⟨a1, b1, c1⟩ := h1 m hm n hn
  obtain ⟨a2, b2, c2⟩ := h2 m hm n hn
  simp [range_three, a, b, c, a1, b1, c1, a2, b2, c2]

end

/-! ## The routines from their steps -/

theorem runVec_block {σ : Type} {a : Vec} {clear : Bool} {np : Nat} {s : σ} {step : Nat → σ → Res (σ × List (Nat × ℝ))} (Inv : σ → Prop)
    {ii0 n d : Nat} (hsize : ii0 + n * d ≤ a.dim) (x : Nat → Nat → Nat → ℝ) (h0 : Inv s)
    (h : ∀ p < np, ∀ s, Inv s → ∃ s', step p s = .ok (s', blockList1 ii0 n d (x p)) ∧ Inv s') :
    ∃ a' s', runVec a clear np s step = (a', .ok s') ∧ Inv s' ∧
      IsBlockSum1 a a' clear ii0 (n * d) (fun k => ∑ p ∈ Finset.range np, x p (k / d) (k % d)) := by
  obtain ⟨s', h1, h2⟩ := runPoints_ok (fun i => decide (i < a.dim)) step Inv (fun p => blockList1 ii0 n d (x p)) np 0 s
    (if clear then fun _ => 0 else a.val) h0 (fun q _ hq s hs => h q (by omega) s hs)
    (fun q _ hq e he => by have := mem_blockList1 he; simp only [decide_eq_true_eq]; omega)
  refine ⟨(runVec a clear np s step).1, s', Prod.ext rfl (by unfold runVec; dsimp only; rw [h2]), h1, ?_⟩
  · refine ⟨rfl, fun i => ?_⟩
    unfold runVec
    dsimp only
    rw [h2]
    simp only [Nat.zero_add, blockList1_sum]
    congr 1
    · cases clear <;> rfl
    · split <;> simp

theorem runMat_block {σ : Type} {k : Mat} {clear : Bool} {np : Nat} {s : σ} {step : Nat → σ → Res (σ × List ((Nat × Nat) × ℝ))} (Inv : σ → Prop)
    {ii0 jj0 nr dr nc dc : Nat} (hr : ii0 + nr * dr ≤ k.nrow) (hc : jj0 + nc * dc ≤ k.ncol) (x : Nat → Nat → Nat → Nat → Nat → ℝ) (h0 : Inv s)
    (h : ∀ p < np, ∀ s, Inv s → ∃ s', step p s = .ok (s', blockList2 ii0 jj0 nr dr nc dc (x p)) ∧ Inv s') :
    ∃ k' s', runMat k clear np s step = (k', .ok s') ∧ Inv s' ∧
      IsBlockSum2 k k' clear ii0 jj0 (nr * dr) (nc * dc) (fun i j => ∑ p ∈ Finset.range np, x p (i / dr) (i % dr) (j / dc) (j % dc)) := by
  obtain ⟨s', h1, h2⟩ := runPoints_ok (fun i => decide (i.1 < k.nrow ∧ i.2 < k.ncol)) step Inv (fun p => blockList2 ii0 jj0 nr dr nc dc (x p)) np 0 s
    (if clear then fun _ => 0 else k.val) h0 (fun q _ hq s hs => h q (by omega) s hs)
    (fun q _ hq e he => by have := mem_blockList2 he; simp only [decide_eq_true_eq]; omega)
  refine ⟨(runMat k clear np s step).1, s', Prod.ext rfl (by unfold runMat; dsimp only; rw [h2]), h1, ?_⟩
  · refine ⟨rfl, rfl, fun i j => ?_⟩
    unfold runMat
    dsimp only
    rw [h2]
    simp only [Nat.zero_add, blockList2_sum]
    congr 1
    · cases clear <;> rfl
    · split <;> simp

theorem runVec_block' {σ : Type} {a : Vec} {clear : Bool} {np : Nat} {s : σ} {step : Nat → σ → Res (σ × List (Nat × ℝ))} (Inv : σ → Prop)
    {ii0 : Nat} (n d : Nat) (hsize : ii0 + n * d ≤ a.dim) (x : Nat → Nat → Nat → ℝ) (h0 : Inv s) {n' : Nat} {S : Nat → ℝ} (hn : n' = n * d)
    (hS : ∀ k, S k = ∑ p ∈ Finset.range np, x p (k / d) (k % d))
    (h : ∀ p < np, ∀ s, Inv s → ∃ s', step p s = .ok (s', blockList1 ii0 n d (x p)) ∧ Inv s') :
    ∃ a' s', runVec a clear np s step = (a', .ok s') ∧ IsBlockSum1 a a' clear ii0 n' S := by
  obtain ⟨a', s', h1, _, h2⟩ := runVec_block (clear := clear) Inv hsize x h0 h
  refine ⟨a', s', h1, ?_⟩
  rw [hn, show S = _ from funext hS]
  exact h2

theorem runMat_block' {σ : Type} {k : Mat} {clear : Bool} {np : Nat} {s : σ} {step : Nat → σ → Res (σ × List ((Nat × Nat) × ℝ))} (Inv : σ → Prop)
    {ii0 jj0 : Nat} (nr dr nc dc : Nat) (hr : ii0 + nr * dr ≤ k.nrow) (hc : jj0 + nc * dc ≤ k.ncol) (x : Nat → Nat → Nat → Nat → Nat → ℝ) (h0 : Inv s)
    {nr' nc' : Nat} {S : Nat → Nat → ℝ} (hnr : nr' = nr * dr) (hnc : nc' = nc * dc)
    (hS : ∀ i j, S i j = ∑ p ∈ Finset.range np, x p (i / dr) (i % dr) (j / dc) (j % dc))
    (h : ∀ p < np, ∀ s, Inv s → ∃ s', step p s = .ok (s', blockList2 ii0 jj0 nr dr nc dc (x p)) ∧ Inv s') :
    ∃ k' s', runMat k clear np s step = (k', .ok s') ∧ IsBlockSum2 k k' clear ii0 jj0 nr' nc' S := by
  obtain ⟨a', s', h1, _, h2⟩ := runMat_block (clear := clear) Inv hr hc x h0 h
  refine ⟨a', s', h1, ?_⟩
  rw [hnr, hnc, show S = _ from funext fun i => funext fun j => hS i j]
  exact h2

end
end Gemlab.Integ
