import Verif.Proofs.Recovery
import Verif.Props.Scratchpad
import Verif.Props.Gauss
import Mathlib.Tactic.Ring
/-!
# C48, C58: recovery of nodal values from integration points (`src/recovery`)

`inv`, `pinv` are `mat_inverse` and `mat_pseudo_inverse` of `russell_lab` with their contracts `InverseSpec`, `PinvSpec`; `exactInverse` and
`exactPinv` meet them.
-/
namespace Gemlab
noncomputable section
open Gemlab.Shapes Gemlab.GaussSpec Gemlab.Spec Gemlab.Recov Matrix

/-- **C58.** The rows of the interpolation matrix interpolate nodal values at the integration points. -/
theorem C58_interp_matrix (pad : Scratchpad) (g : Gauss) (u : Nat → ℝ) (p : Nat) (hp : p < g.npoint) :
    ∑ j ∈ Finset.range pad.kind.nnode, (getInterpMatrix pad g).1 p j * u j = interpolate pad.kind u (g.coords p) := by
  apply Finset.sum_congr rfl
  intro j hj
  rw [interpAt pad g hp (Finset.mem_range.1 hj)]

/-- **C58.** `get_points_coords` fails exactly if the coordinates of the nodes were not set (and there is a point); otherwise it returns the
images of the integration points by the isoparametric map. -/
theorem C58_points_coords (pad : Scratchpad) (g : Gauss) :
    (pad.okXxt = true → ∃ l, getPointsCoords pad g = .ok l ∧ l.length = g.npoint ∧
      ∀ p < g.npoint, ∀ x, l[p]? = some x → ∀ i, x i = interpolate pad.kind (fun m => pad.xxt i m) (g.coords p)) ∧
    (pad.okXxt = false → 0 < g.npoint → ∃ e, getPointsCoords pad g = .err e) := by
  constructor
  · intro hok
    have key : ∀ n, ∃ l pad', (List.range n).foldlM (fun (s : List (Nat → ℝ) × Scratchpad) p => do
        let r ← s.2.calcCoords s.2.spaceNdim (g.coords p)
        (pure (s.1 ++ [r.1], r.2) : Res _)) ([], pad) = .ok (l, pad') ∧ pad'.kind = pad.kind ∧ pad'.xxt = pad.xxt ∧ pad'.okXxt = true ∧ l.length = n ∧
        ∀ p < n, ∀ x, l[p]? = some x → ∀ i, x i = interpolate pad.kind (fun m => pad.xxt i m) (g.coords p) := by
      intro n
      induction n with
      | zero => exact ⟨[], pad, rfl, rfl, rfl, hok, rfl, by simp⟩
      | succ n ih =>
        obtain ⟨l, pad', h, h1, h2, h3, h4, h5⟩ := ih
        rw [List.range_succ, List.foldlM_append, h, Res.bind_ok]
        simp only [List.foldlM_cons, List.foldlM_nil, Scratchpad.calcCoords, h3, Bool.not_true, Bool.false_eq_true, if_false, ne_eq, not_true_eq_false, Res.bind_ok, Res.pure_eq]
        refine ⟨_, _, rfl, h1, h2, h3, by simp [h4], ?_⟩
        intro p hp x hx i
        by_cases hpn : p < n
        · rw [List.getElem?_append_left (by omega)] at hx
          exact h5 p hpn x hx i
        · have : p = n := by omega
          subst this
          rw [List.getElem?_append_right (by omega)] at hx
          simp [h4] at hx
          subst hx
          simp only [Scratchpad.calcInterp, interpolate, h1, h2]
          apply Finset.sum_congr rfl
          intros; ring
    obtain ⟨l, pad', h, _, _, _, h4, h5⟩ := key g.npoint
    refine ⟨l, ?_, h4, h5⟩
    unfold getPointsCoords
    rw [h]; rfl
  · intro hok hn
    unfold getPointsCoords
    obtain ⟨n, hn⟩ : ∃ n, g.npoint = n + 1 := ⟨g.npoint - 1, by omega⟩
    rw [hn, List.range_succ_eq_map, List.foldlM_cons]
    simp only [Scratchpad.calcCoords, hok, Bool.not_false, if_true, Res.bind_err]
    exact ⟨_, rfl⟩

private theorem toM_mul_sum {m n : Nat} (E : Nat → Nat → ℝ) (P : Nat → Nat → ℝ) (u : Nat → ℝ) (h : toM n m E * toM m n P = 1) (i : Nat) (hi : i < n) :
    ∑ p ∈ Finset.range m, E i p * ∑ j ∈ Finset.range n, P p j * u j = u i := by
  have := congrFun (congrArg (fun M : Matrix (Fin n) (Fin n) ℝ => M *ᵥ fun j => u j) h) ⟨i, hi⟩
  simp only [← Matrix.mulVec_mulVec, Matrix.one_mulVec] at this
  rw [← this, Finset.sum_range]
  simp only [Matrix.mulVec, dotProduct, toM, Matrix.of_apply]
  apply Finset.sum_congr rfl
  intro p _
  rw [Finset.sum_range]

variable {inv : MatInverse} {pinv : MatPseudoInverse}

theorem extrap_left (hinv : InverseSpec inv) (hpinv : PinvSpec pinv) (pad : Scratchpad) (n : Nat) (g : GaussTable)
    (hg : GaussTable.newSized pad.kind.classOf n = .ok g) (hn : pad.kind.nnode ≤ n) (E : Nat → Nat → ℝ)
    (hE : getExtrapMatrix inv pinv pad g.toGauss = .ok E) :
    toM pad.kind.nnode n E * toM n pad.kind.nnode (getInterpMatrix pad g.toGauss).1 = 1 := by
  have hnp : g.toGauss.npoint = n := (newSized_mem hg).2
  unfold getExtrapMatrix at hE
  rw [hnp] at hE
  by_cases h : n = pad.kind.nnode
  · simp only [if_pos h] at hE
    obtain ⟨⟨d, b⟩, hr, hE⟩ := Res.bind_eq_ok.1 hE
    simp only [Res.pure_eq, Res.ok.injEq] at hE
    subst hE
    have h1 := (hinv _ _ _ _ hr).2
    have h2 : toM pad.kind.nnode pad.kind.nnode (getInterpMatrix pad g.toGauss).1 * toM pad.kind.nnode pad.kind.nnode b = 1 := by
      ext i j
      rw [Matrix.mul_apply, Matrix.one_apply]
      simp only [toM, Matrix.of_apply]
      rw [← Finset.sum_range (fun x => (getInterpMatrix pad g.toGauss).1 i x * b x j), h1 i i.2 j j.2]
      simp [Fin.ext_iff]
    have h3 := _root_.mul_eq_one_comm.1 h2
    rw [h]; exact h3
  · simp only [if_neg h, if_pos (show n > pad.kind.nnode by omega)] at hE
    exact pinv_left (hpinv _ _ _ _ hE) (injective_cols hg hn pad rfl)

/-- **C48.** With at least as many integration points as nodes, extrapolation recovers the nodal values of every interpolated field exactly. -/
theorem C48_recovers (hinv : InverseSpec inv) (hpinv : PinvSpec pinv) (pad : Scratchpad) (n : Nat) (g : GaussTable)
    (hg : GaussTable.newSized pad.kind.classOf n = .ok g) (hn : pad.kind.nnode ≤ n) (E : Nat → Nat → ℝ)
    (hE : getExtrapMatrix inv pinv pad g.toGauss = .ok E) (u : Nat → ℝ) (i : Nat) (hi : i < pad.kind.nnode) :
    ∑ p ∈ Finset.range n, E i p * interpolate pad.kind u (g.toGauss.coords p) = u i := by
  have hnp : g.toGauss.npoint = n := (newSized_mem hg).2
  rw [← toM_mul_sum E _ u (extrap_left hinv hpinv pad n g hg hn E hE) i hi]
  apply Finset.sum_congr rfl
  intro p hp
  rw [C58_interp_matrix pad g.toGauss u p (hnp ▸ Finset.mem_range.1 hp)]

/-- An affine function of the reference coordinates. -/
def affine (d : Nat) (c : ℝ) (a : Nat → ℝ) (ξ : Nat → ℝ) : ℝ := c + ∑ k ∈ Finset.range d, a k * ξ k

private theorem sum_hat (d : Nat) (ξ b : Nat → ℝ) : ∑ l : Fin (d + 1), hat d ξ l * b l = ∑ k ∈ Finset.range d, ξ k * b k + 1 * b d := by
  rw [Fin.sum_univ_castSucc, Finset.sum_range]
  congr 1
  · apply Finset.sum_congr rfl
    intro l _
    simp [hat]
  · simp [hat]

/-- Reference coordinates of the nodes, and of the points, completed with 1; the table. -/
def xiM (k : GeoKind) : Matrix (Fin k.nnode) (Fin (k.ndim + 1)) ℝ := fun i l => hat k.ndim (refCoord k i) l
def hatM (k : GeoKind) (g : GaussTable) (n : Nat) : Matrix (Fin n) (Fin (k.ndim + 1)) ℝ := fun p l => hat k.ndim (g.toGauss.coords p) l
def tabM (k : GeoKind) (b : List GaussRow) (n : Nat) : Matrix (Fin (k.ndim + 1)) (Fin n) ℝ := fun l j => bbtAt b j l

theorem interp_xi (pad : Scratchpad) (n : Nat) (g : GaussTable) (hnp : g.toGauss.npoint = n) :
    toM n pad.kind.nnode (getInterpMatrix pad g.toGauss).1 * xiM pad.kind = hatM pad.kind g n := by
  ext p l
  rw [Matrix.mul_apply]
  simp only [toM, Matrix.of_apply, xiM, hatM]
  rw [← hat_interp pad.kind (g.toGauss.coords p) l, Finset.sum_range]
  apply Finset.sum_congr rfl
  intro m _
  rw [interpAt pad g.toGauss (hnp ▸ p.2) m.2]

theorem extrap_fewer {inv : MatInverse} {pinv : MatPseudoInverse} (hpinv : PinvSpec pinv) (pad : Scratchpad) (n : Nat) (g : GaussTable)
    (hg : GaussTable.newSized pad.kind.classOf n = .ok g) (h1 : 1 < n) (hn : n < pad.kind.nnode) (E : Nat → Nat → ℝ)
    (hE : getExtrapMatrix inv pinv pad g.toGauss = .ok E) : ∃ b x, getTrPinvHxi pad.kind.classOf n = .ok b ∧
      IsPinv n pad.kind.nnode (getInterpMatrix pad g.toGauss).1 x ∧
      toM pad.kind.nnode n E = xiM pad.kind * tabM pad.kind b n + toM pad.kind.nnode n x * (1 - hatM pad.kind g n * tabM pad.kind b n) := by
  have hnp : g.toGauss.npoint = n := (newSized_mem hg).2
  set k := pad.kind with hk
  obtain ⟨b, hb, _⟩ := resid hg (by omega)
  unfold getExtrapMatrix at hE
  rw [hnp, ← hk] at hE
  simp only [if_neg (show ¬ n = k.nnode by omega), if_neg (show ¬ n > k.nnode by omega), if_neg (show ¬ n = 1 by omega)] at hE
  obtain ⟨x, hx, hE⟩ := Res.bind_eq_ok.1 hE
  rw [hb, Res.bind_ok] at hE
  simp only [Res.pure_eq, Res.ok.injEq] at hE
  have hΞB : ∀ i j, (xiM k * tabM k b n) i j = ∑ l ∈ Finset.range k.ndim, refCoord k i l * bbtAt b j l + 1 * bbtAt b j k.ndim := by
    intro i j
    rw [Matrix.mul_apply]
    exact sum_hat k.ndim (refCoord k i) (fun l => bbtAt b j l)
  have hHB : ∀ i j, (hatM k g n * tabM k b n) i j = ∑ l ∈ Finset.range k.ndim, g.toGauss.coords i l * bbtAt b j l + 1 * bbtAt b j k.ndim := by
    intro i j
    rw [Matrix.mul_apply]
    exact sum_hat k.ndim (g.toGauss.coords i) (fun l => bbtAt b j l)
  refine ⟨b, x, hb, hpinv _ _ _ _ hx, ?_⟩
  ext i j
  rw [Matrix.add_apply, hΞB, Matrix.mul_apply]
  simp only [Matrix.sub_apply, Matrix.one_apply, hHB]
  simp only [toM, Matrix.of_apply, ← hE, extrapCorrected]
  rw [hnp, Finset.sum_range (n := n)]
  congr 1
  apply Finset.sum_congr rfl
  intro q _
  simp [Fin.ext_iff]

theorem C48_affine_interp (k : GeoKind) (c : ℝ) (a : Nat → ℝ) (ξ : Nat → ℝ) :
    interpolate k (fun m => affine k.ndim c a (refCoord k m)) ξ = affine k.ndim c a ξ := by
  unfold interpolate affine
  simp only [mul_add, Finset.sum_add_distrib]
  rw [← Finset.sum_mul, pou, one_mul]
  congr 1
  simp only [Finset.mul_sum]
  rw [Finset.sum_comm]
  apply Finset.sum_congr rfl
  intro l hl
  conv_rhs => rw [← linearCoord k ξ l (Finset.mem_range.1 hl)]
  rw [Finset.mul_sum]
  apply Finset.sum_congr rfl
  intros; ring

/-- **C48.** With at least as many points as nodes, affine fields are recovered exactly. -/
theorem C48_affine_exact (hinv : InverseSpec inv) (hpinv : PinvSpec pinv) (pad : Scratchpad) (n : Nat) (g : GaussTable)
    (hg : GaussTable.newSized pad.kind.classOf n = .ok g) (hn : pad.kind.nnode ≤ n) (E : Nat → Nat → ℝ)
    (hE : getExtrapMatrix inv pinv pad g.toGauss = .ok E) (c : ℝ) (a : Nat → ℝ) (i : Nat) (hi : i < pad.kind.nnode) :
    ∑ p ∈ Finset.range n, E i p * affine pad.kind.ndim c a (g.toGauss.coords p) = affine pad.kind.ndim c a (refCoord pad.kind i) := by
  have := C48_recovers hinv hpinv pad n g hg hn E hE (fun m => affine pad.kind.ndim c a (refCoord pad.kind m)) i hi
  simp only [C48_affine_interp] at this
  exact this

/-- **C48.** With fewer points than nodes (but more than one), affine fields are recovered up to the accuracy of the numbers in the tables. -/
theorem C48_affine_fewer (hpinv : PinvSpec pinv) (pad : Scratchpad) (n : Nat) (g : GaussTable)
    (hg : GaussTable.newSized pad.kind.classOf n = .ok g) (h1 : 1 < n) (hn : n < pad.kind.nnode) (E : Nat → Nat → ℝ)
    (hE : getExtrapMatrix inv pinv pad g.toGauss = .ok E) (c : ℝ) (a : Nat → ℝ) (i : Nat) (hi : i < pad.kind.nnode) :
    |∑ p ∈ Finset.range n, E i p * affine pad.kind.ndim c a (g.toGauss.coords p) - affine pad.kind.ndim c a (refCoord pad.kind i)| ≤
      5 / 10 ^ 14 * (|c| + ∑ k ∈ Finset.range pad.kind.ndim, |a k|) := by
  have hnp : g.toGauss.npoint = n := (newSized_mem hg).2
  set k := pad.kind with hk
  set d := k.ndim with hd
  obtain ⟨b, x, hb, hX, hEm⟩ := extrap_fewer hpinv pad n g hg h1 hn E hE
  obtain ⟨b', hb', hres⟩ := resid hg (by omega)
  rw [hb, Res.ok.injEq] at hb'
  subst hb'
  have hH := interp_xi pad n g hnp
  rw [← hk] at hH hX hEm
  set P := toM n k.nnode (getInterpMatrix pad g.toGauss).1 with hP
  set X := toM k.nnode n x with hXdef
  set Ξ := xiM k with hΞ
  set H := hatM k g n with hHdef
  set B := tabM k b n with hBdef
  let α : Fin (d + 1) → ℝ := fun l => if (l : Nat) < d then a l else c
  have haff : ∀ ξ : Nat → ℝ, affine d c a ξ = ∑ l : Fin (d + 1), hat d ξ l * α l := by
    intro ξ
    have := sum_hat d ξ (fun l => if l < d then a l else c)
    rw [this, affine, add_comm, if_neg (lt_irrefl d), one_mul]
    congr 1
    apply Finset.sum_congr rfl
    intro l hl
    rw [if_pos (Finset.mem_range.1 hl), mul_comm]
  set Δ := B * H - 1 with hΔ
  have hEH : toM k.nnode n E * H = Ξ + (Ξ * Δ - (X * P) * (Ξ * Δ)) := by
    rw [hEm, hΔ]
    calc (Ξ * B + X * (1 - H * B)) * H = Ξ * (B * H) + (X * H - X * H * (B * H)) := by
          simp only [Matrix.add_mul, Matrix.mul_sub, Matrix.sub_mul, Matrix.mul_one, Matrix.mul_assoc]
      _ = Ξ * (B * H) + (X * P * Ξ - X * P * Ξ * (B * H)) := by rw [← hH]; simp only [Matrix.mul_assoc]
      _ = _ := by simp only [Matrix.mul_sub, Matrix.mul_one, Matrix.mul_assoc]; abel
  let y := (Ξ * Δ) *ᵥ α
  have herr : ∑ p ∈ Finset.range n, E i p * affine d c a (g.toGauss.coords p) - affine d c a (refCoord k i) = (y - (X * P) *ᵥ y) ⟨i, hi⟩ := by
    have e1 : ∑ p ∈ Finset.range n, E i p * affine d c a (g.toGauss.coords p) = ((toM k.nnode n E * H) *ᵥ α) ⟨i, hi⟩ := by
      rw [← Matrix.mulVec_mulVec, Finset.sum_range]
      simp only [Matrix.mulVec, dotProduct, toM, Matrix.of_apply, haff]
      rfl
    have e2 : affine d c a (refCoord k i) = (Ξ *ᵥ α) ⟨i, hi⟩ := by
      rw [haff]; rfl
    rw [e1, e2, hEH, Matrix.add_mulVec, Matrix.sub_mulVec, Pi.add_apply, ← Matrix.mulVec_mulVec (M := X * P)]
    simp [y]
  rw [herr]
  set S := |c| + ∑ k ∈ Finset.range d, |a k| with hS
  have hS0 : 0 ≤ S := add_nonneg (abs_nonneg _) (Finset.sum_nonneg fun _ _ => abs_nonneg _)
  have hSα : ∑ l : Fin (d + 1), |α l| = S := by
    rw [Fin.sum_univ_castSucc, hS, add_comm |c|, Finset.sum_range]
    simp [α]
  have hΔl : ∀ l m, |Δ l m| ≤ 2 / 10 ^ 15 := by
    intro l m
    have := hres l (by omega) m (by omega)
    refine le_trans (le_of_eq ?_) this
    rw [hΔ, Matrix.sub_apply, Matrix.mul_apply, Matrix.one_apply, Finset.sum_range]
    have e : (if l = m then (1 : ℝ) else 0) = if (l : Nat) = m then 1 else 0 := by simp [Fin.ext_iff]
    rw [e]
    rfl
  have hΔα : ∀ l, |(Δ *ᵥ α) l| ≤ 2 / 10 ^ 15 * S := by
    intro l
    rw [← hSα, Finset.mul_sum]
    refine le_trans (Finset.abs_sum_le_sum_abs (fun m => Δ l m * α m) Finset.univ) (Finset.sum_le_sum fun m _ => ?_)
    rw [abs_mul]
    exact mul_le_mul_of_nonneg_right (hΔl l m) (abs_nonneg _)
  have hy : ∀ m, |y m| ≤ 8 / 10 ^ 15 * S := by
    intro m
    have : y = Ξ *ᵥ (Δ *ᵥ α) := by rw [Matrix.mulVec_mulVec]
    rw [this]
    have h4 : ((d : ℝ) + 1) ≤ 4 := by
      have := ndim_le k
      have : (d : ℝ) ≤ 3 := by exact_mod_cast this
      linarith
    calc |∑ l, Ξ m l * (Δ *ᵥ α) l| ≤ ∑ l, |Ξ m l * (Δ *ᵥ α) l| := Finset.abs_sum_le_sum_abs _ _
      _ ≤ ∑ _l : Fin (d + 1), 2 / 10 ^ 15 * S := by
        apply Finset.sum_le_sum
        intro l _
        rw [abs_mul]
        have hx : |Ξ m l| ≤ 1 := by
          rw [hΞ, xiM, hat]
          split
          · exact refCoord_abs k m l
          · simp
        calc |Ξ m l| * |(Δ *ᵥ α) l| ≤ 1 * (2 / 10 ^ 15 * S) := mul_le_mul hx (hΔα l) (abs_nonneg _) zero_le_one
          _ = _ := one_mul _
      _ = (d + 1) * (2 / 10 ^ 15 * S) := by simp
      _ ≤ 4 * (2 / 10 ^ 15 * S) := mul_le_mul_of_nonneg_right h4 (by positivity)
      _ = _ := by ring
  -- the projection
  have hproj := projection_le (X * P) hX.xa (by rw [← Matrix.mul_assoc, hX.xax]) y
  have hyy : y ⬝ᵥ y ≤ 36 * (8 / 10 ^ 15 * S) ^ 2 := by
    calc y ⬝ᵥ y ≤ ∑ _m : Fin k.nnode, (8 / 10 ^ 15 * S) ^ 2 := by
          apply Finset.sum_le_sum
          intro m _
          rw [← sq, ← sq_abs]
          exact pow_le_pow_left₀ (abs_nonneg _) (hy m) 2
      _ = k.nnode * (8 / 10 ^ 15 * S) ^ 2 := by simp
      _ ≤ 36 * (8 / 10 ^ 15 * S) ^ 2 := by
        apply mul_le_mul_of_nonneg_right _ (sq_nonneg _)
        exact_mod_cast nnode_le k
  have hz : (y - (X * P) *ᵥ y) ⟨i, hi⟩ ^ 2 ≤ (6 * (8 / 10 ^ 15 * S)) ^ 2 := by
    calc (y - (X * P) *ᵥ y) ⟨i, hi⟩ ^ 2 ≤ (y - (X * P) *ᵥ y) ⬝ᵥ (y - (X * P) *ᵥ y) := by
          rw [sq]
          exact Finset.single_le_sum (f := fun m => (y - (X * P) *ᵥ y) m * (y - (X * P) *ᵥ y) m) (fun m _ => mul_self_nonneg _) (Finset.mem_univ (⟨i, hi⟩ : Fin k.nnode))
      _ ≤ y ⬝ᵥ y := hproj
      _ ≤ 36 * (8 / 10 ^ 15 * S) ^ 2 := hyy
      _ = _ := by ring
  refine le_trans (abs_le_of_sq_le_sq hz (by positivity)) ?_
  nlinarith

/-- **C48.** With at most as many points as nodes, interpolating the extrapolated values gives back the values at the points, exactly.
(Four combinations are excluded: `qua12` with 9, `qua17` with 16, `hex8` with 6, `hex32` with 27 points: their interpolation matrices do not
have full rank.) -/
theorem C48_reinterpolates (hinv : InverseSpec inv) (hpinv : PinvSpec pinv) (pad : Scratchpad) (n : Nat) (g : GaussTable)
    (hg : GaussTable.newSized pad.kind.classOf n = .ok g) (hn : n ≤ pad.kind.nnode)
    (hx : (pad.kind, n) ∉ [(GeoKind.qua12, 9), (.qua17, 16), (.hex8, 6), (.hex32, 27)]) (E : Nat → Nat → ℝ)
    (hE : getExtrapMatrix inv pinv pad g.toGauss = .ok E) (v : Nat → ℝ) (p : Nat) (hp : p < n) :
    interpolate pad.kind (fun i => ∑ q ∈ Finset.range n, E i q * v q) (g.toGauss.coords p) = v p := by
  have hnp : g.toGauss.npoint = n := (newSized_mem hg).2
  have hPE : toM n pad.kind.nnode (getInterpMatrix pad g.toGauss).1 * toM pad.kind.nnode n E = 1 := by
    by_cases h : n = pad.kind.nnode
    · have := extrap_left hinv hpinv pad n g hg (le_of_eq h.symm) E hE
      rw [h] at this ⊢
      exact _root_.mul_eq_one_comm.1 this
    · have hd : deficient pad.kind n = false := by
        rw [deficient, ← Bool.not_eq_true, List.contains_iff_mem]; exact hx
      have hinj := injective_rows hg (by omega) hd pad rfl
      by_cases h1 : n = 1
      · unfold getExtrapMatrix at hE
        rw [hnp] at hE
        simp only [if_neg h, if_neg (show ¬ n > pad.kind.nnode by omega), if_pos h1] at hE
        exact pinv_right (hpinv _ _ _ _ hE) hinj
      · have hn0 : n ≠ 0 := by omega
        obtain ⟨b, x, hb, hX, hEm⟩ := extrap_fewer hpinv pad n g hg (by omega) (by omega) E hE
        rw [hEm, Matrix.mul_add, ← Matrix.mul_assoc, ← Matrix.mul_assoc, interp_xi pad n g hnp, pinv_right hX hinj, Matrix.one_mul]
        abel
  rw [← toM_mul_sum _ E v hPE p hp, ← C58_interp_matrix pad g.toGauss _ p (hnp ▸ hp)]

/-- **C48.** With a single point, the value at the point is distributed in proportion to the shape functions at the point… -/
theorem C48_one_point (hpinv : PinvSpec pinv) (pad : Scratchpad) (g : GaussTable) (hg : GaussTable.newSized pad.kind.classOf 1 = .ok g)
    (E : Nat → Nat → ℝ) (hE : getExtrapMatrix inv pinv pad g.toGauss = .ok E) (i : Nat) (hi : i < pad.kind.nnode) :
    E i 0 = calcInterp pad.kind (g.toGauss.coords 0) i / ∑ j ∈ Finset.range pad.kind.nnode, calcInterp pad.kind (g.toGauss.coords 0) j ^ 2 := by
  have hnp : g.toGauss.npoint = 1 := (newSized_mem hg).2
  have hnv : 1 < pad.kind.nnode := by cases pad.kind <;> decide
  unfold getExtrapMatrix at hE
  rw [hnp] at hE
  simp only [if_neg (show ¬ 1 = pad.kind.nnode by omega), if_neg (show ¬ 1 > pad.kind.nnode by omega), if_true] at hE
  have hX := hpinv _ _ _ _ hE
  have hd : deficient pad.kind 1 = false := by cases pad.kind <;> decide
  have hPX := pinv_right hX (injective_rows hg (by omega) hd pad rfl)
  have hP : ∀ j < pad.kind.nnode, (getInterpMatrix pad g.toGauss).1 0 j = calcInterp pad.kind (g.toGauss.coords 0) j :=
    fun j hj => interpAt pad g.toGauss (by omega) hj
  have h1 : ∑ j ∈ Finset.range pad.kind.nnode, calcInterp pad.kind (g.toGauss.coords 0) j * E j 0 = 1 := by
    have := congrFun (congrFun hPX 0) 0
    rw [Matrix.mul_apply, Matrix.one_apply_eq] at this
    rw [← this, Finset.sum_range]
    apply Finset.sum_congr rfl
    intro j _
    simp only [toM, Matrix.of_apply]
    rw [← hP j j.2]; rfl
  have h2 : ∀ i < pad.kind.nnode, ∀ j < pad.kind.nnode, E i 0 * calcInterp pad.kind (g.toGauss.coords 0) j = E j 0 * calcInterp pad.kind (g.toGauss.coords 0) i := by
    intro i hi j hj
    have := congrFun (congrFun hX.xa ⟨j, hj⟩) ⟨i, hi⟩
    rw [Matrix.transpose_apply, Matrix.mul_apply, Matrix.mul_apply] at this
    simp only [toM, Matrix.of_apply, Fin.sum_univ_one, Fin.isValue, Fin.val_zero] at this
    rw [hP i hi, hP j hj] at this
    exact this
  set N := calcInterp pad.kind (g.toGauss.coords 0)
  have h3 : ∀ i < pad.kind.nnode, E i 0 = N i * ∑ j ∈ Finset.range pad.kind.nnode, E j 0 ^ 2 := by
    intro i hi
    calc E i 0 = E i 0 * ∑ j ∈ Finset.range pad.kind.nnode, N j * E j 0 := by rw [h1, mul_one]
      _ = ∑ j ∈ Finset.range pad.kind.nnode, (E i 0 * N j) * E j 0 := by rw [Finset.mul_sum]; apply Finset.sum_congr rfl; intros; ring
      _ = _ := by
        rw [Finset.mul_sum]
        apply Finset.sum_congr rfl
        intro j hj
        rw [h2 i hi j (Finset.mem_range.1 hj)]; ring
  have h4 : (∑ j ∈ Finset.range pad.kind.nnode, E j 0 ^ 2) * ∑ j ∈ Finset.range pad.kind.nnode, N j ^ 2 = 1 := by
    rw [← h1, Finset.mul_sum]
    apply Finset.sum_congr rfl
    intro j hj
    rw [h3 j (Finset.mem_range.1 hj)]; ring
  have h5 : ∑ j ∈ Finset.range pad.kind.nnode, N j ^ 2 ≠ 0 := by
    intro h; rw [h, mul_zero] at h4; exact zero_ne_one h4
  rw [eq_div_iff h5, h3 i hi, mul_assoc, h4, mul_one]

/-- …hence constant fields are recovered only for `lin2`, `tri3`, `qua4` and `tet4`. -/
theorem C48_one_point_constant (hpinv : PinvSpec pinv) (pad : Scratchpad) (g : GaussTable) (hg : GaussTable.newSized pad.kind.classOf 1 = .ok g)
    (E : Nat → Nat → ℝ) (hE : getExtrapMatrix inv pinv pad g.toGauss = .ok E) (v : ℝ) (hv : v ≠ 0) :
    (∀ i < pad.kind.nnode, E i 0 * v = v) ↔ pad.kind ∈ [GeoKind.lin2, .tri3, .qua4, .tet4] := by
  have key : ∀ k : GeoKind, ∀ g, GaussTable.newSized k.classOf 1 = .ok g →
      ((∀ i < k.nnode, (((interp k).map fun e => PE.evalQ (GaussRow.get (g.data.getD 0 (0, 0, 0, 0))) e).getD i 0) =
        (((List.range k.nnode).map fun j => ((((interp k).map fun e => PE.evalQ (GaussRow.get (g.data.getD 0 (0, 0, 0, 0))) e).getD j 0)) ^ 2).sum)) ↔
        k ∈ [GeoKind.lin2, .tri3, .qua4, .tet4]) := by
    intro k g hg
    have e : g.data = (match k.classOf with
      | .lin => GaussTab.ipLinLegendre1 | .tri => GaussTab.ipTriInternal1 | .qua => GaussTab.ipQuaLegendre1 | .tet => GaussTab.ipTetInternal1 | .hex => []) := by
      cases hc : k.classOf <;> rw [hc] at hg <;> simp [GaussTable.newSized] at hg <;> subst hg <;> rfl
    rw [e]
    have hne : k.classOf ≠ .hex := by
      intro hc
      rw [hc] at hg
      simp [GaussTable.newSized] at hg
    clear e hg
    revert hne
    cases k <;> decide +kernel
  rw [← key pad.kind g hg]
  set M := ∑ j ∈ Finset.range pad.kind.nnode, calcInterp pad.kind (g.toGauss.coords 0) j ^ 2 with hM
  have hc : ∀ j < pad.kind.nnode, calcInterp pad.kind (g.toGauss.coords 0) j = ((((interp pad.kind).map fun e => PE.evalQ (GaussRow.get (g.data.getD 0 (0, 0, 0, 0))) e).getD j 0 : ℚ) : ℝ) :=
    fun j hj => (pq_cast pad.kind _ j hj).symm
  have hMc : M = ((((List.range pad.kind.nnode).map fun j => ((((interp pad.kind).map fun e => PE.evalQ (GaussRow.get (g.data.getD 0 (0, 0, 0, 0))) e).getD j 0)) ^ 2).sum : ℚ) : ℝ) := by
    rw [Shapes.list_range_sum, hM]
    push_cast
    apply Finset.sum_congr rfl
    intro j hj
    rw [hc j (Finset.mem_range.1 hj)]
  have hM0 : M ≠ 0 := by
    intro h0
    have h1 : ∀ j ∈ Finset.range pad.kind.nnode, calcInterp pad.kind (g.toGauss.coords 0) j ^ 2 = 0 :=
      (Finset.sum_eq_zero_iff_of_nonneg fun _ _ => sq_nonneg _).1 h0
    have h2 := pou pad.kind (g.toGauss.coords 0)
    rw [Finset.sum_eq_zero fun j hj => pow_eq_zero_iff (two_ne_zero) |>.1 (h1 j hj)] at h2
    exact zero_ne_one h2
  refine forall_congr' fun i => forall_congr' fun hi => ?_
  rw [mul_eq_right₀ hv, C48_one_point hpinv pad g hg E hE i hi, ← hM, div_eq_one_iff_eq hM0, hc i hi, hMc]
  exact Rat.cast_inj

/-- **C48.** With a rule of the class of the cell, `get_extrap_matrix` does not panic (if the algebra routines do not)… -/
theorem C48_no_panic (hi : ∀ n a, inv n a ≠ .panic) (hp : ∀ m n a, pinv m n a ≠ .panic) (pad : Scratchpad) (n : Nat) (g : GaussTable)
    (hg : GaussTable.newSized pad.kind.classOf n = .ok g) : getExtrapMatrix inv pinv pad g.toGauss ≠ .panic := by
  have hnp : g.toGauss.npoint = n := (newSized_mem hg).2
  unfold getExtrapMatrix
  rw [hnp]
  dsimp only
  split
  · cases h : inv pad.kind.nnode (getInterpMatrix pad g.toGauss).1 with
    | ok r => simp
    | err e => simp
    | panic => exact absurd h (hi _ _)
  · split
    · exact hp _ _ _
    · split
      · exact hp _ _ _
      · rename_i h1
        obtain ⟨b, hb, _⟩ := resid hg h1
        rw [hb]
        cases h : pinv n pad.kind.nnode (getInterpMatrix pad g.toGauss).1 with
        | ok r => simp
        | err e => simp
        | panic => exact absurd h (hp _ _ _)

/-- …and it succeeds for all kinds and rules with exact algebra routines. -/
theorem C48_succeeds (pad : Scratchpad) (n : Nat) (g : GaussTable) (hg : GaussTable.newSized pad.kind.classOf n = .ok g) :
    ∃ E, getExtrapMatrix exactInverse exactPinv pad g.toGauss = .ok E := by
  have hnp : g.toGauss.npoint = n := (newSized_mem hg).2
  unfold getExtrapMatrix
  rw [hnp]
  dsimp only
  split
  · rename_i h
    have hd : detN pad.kind.nnode (getInterpMatrix pad g.toGauss).1 ≠ 0 := by
      intro h0
      obtain ⟨u, hu, hu0⟩ := Matrix.exists_mulVec_eq_zero_iff.2 h0
      subst h
      exact hu (injective_cols hg le_rfl pad rfl u hu0)
    unfold exactInverse
    rw [if_neg hd]
    exact ⟨_, rfl⟩
  · split
    · exact ⟨_, rfl⟩
    · split
      · exact ⟨_, rfl⟩
      · rename_i h1
        obtain ⟨b, hb, _⟩ := resid hg h1
        rw [hb]
        exact ⟨_, rfl⟩

/-- **C48.** A rule whose number of points does not exist for the class of the cell makes `get_extrap_matrix` panic if there are fewer points
than nodes (but more than one). -/
theorem C48_wrong_rule (pad : Scratchpad) (g : Gauss) (h1 : 1 < g.npoint) (hn : g.npoint < pad.kind.nnode)
    (hr : g.npoint ∉ (rules pad.kind.classOf).map Prod.fst) (hp : ∀ m n a, ∃ x, pinv m n a = .ok x) :
    getExtrapMatrix inv pinv pad g = .panic := by
  unfold getExtrapMatrix
  simp only [if_neg (show ¬ g.npoint = pad.kind.nnode by omega), if_neg (show ¬ g.npoint > pad.kind.nnode by omega), if_neg (show ¬ g.npoint = 1 by omega)]
  obtain ⟨x, hx⟩ := hp g.npoint pad.kind.nnode (getInterpMatrix pad g).1
  rw [hx, Res.bind_ok]
  have : getTrPinvHxi pad.kind.classOf g.npoint = .panic := by
    revert hr
    generalize g.npoint = n
    generalize pad.kind.classOf = cls
    intro hr
    unfold getTrPinvHxi
    split <;> first | rfl | (exfalso; simp [rules] at hr)
  rw [this]; rfl

/-- A new pad. -/
def exQua8Pad : Scratchpad := { kind := .qua8, spaceNdim := 2, interp := fun _ => 0, deriv := fun _ _ => 0, jacobian := fun _ _ => 0, invJacobian := fun _ _ => 0, gradient := fun _ _ => 0, xxt := fun _ _ => 0, okXxt := false }

/-- Non-vacuity: `qua8` with 4 points, exact algebra routines. -/
theorem C48_example : ∃ g E, GaussTable.newSized .qua 4 = .ok g ∧ getExtrapMatrix exactInverse exactPinv exQua8Pad g.toGauss = .ok E ∧
    ∀ v : Nat → ℝ, ∀ p < 4, interpolate .qua8 (fun i => ∑ q ∈ Finset.range 4, E i q * v q) (g.toGauss.coords p) = v p := by
  obtain ⟨g, hg⟩ : ∃ g, GaussTable.newSized .qua 4 = .ok g := ⟨_, rfl⟩
  obtain ⟨E, hE⟩ := C48_succeeds exQua8Pad 4 g hg
  exact ⟨g, E, hg, hE, fun v p hp => C48_reinterpolates exactInverse_spec exactPinv_spec exQua8Pad 4 g hg (by decide) (by decide) E hE v p hp⟩

end
end Gemlab
