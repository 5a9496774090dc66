import Verif.Props.PatchTest
import Verif.Props.Gauss

/-!
# C75: the patch test with displacements

The stiffness matrices times the displacements of a linear field are the forces of the constant stress of this field.
-/
namespace Gemlab.Scratchpad
open MvPolynomial Gemlab Gemlab.Shapes Gemlab.GaussSpec Gemlab.Spec Gemlab.Spec.Analytical Gemlab.Spec.Integ
open Gemlab.Integ Gemlab.Props.Integ
noncomputable section

variable {inv : MatInverse} {pad : Scratchpad} {g : Gauss} {ε : ℝ}

/-- A gradient at the integration points, and its product with linear fields. -/
theorem rule_affine (hinv : InverseSpec inv) (hG : ∀ p < g.npoint, ∃ r, pad.calcGradient inv (g.coords p) = .ok r) :
    ∃ B : Nat → Nat → Nat → ℝ, GradRegular inv pad g B ∧ ∀ p < g.npoint, ∀ (a : ℝ) (c : Nat → ℝ), ∀ j < pad.spaceNdim,
      ∑ n ∈ Finset.range pad.kind.nnode, (a + ∑ i ∈ Finset.range pad.spaceNdim, c i * pad.X n i) * B p n j = c j := by
  have h1 : ∀ p, ∃ B : Nat → Nat → ℝ, p < g.npoint → ((∃ r, pad.calcGradient inv (g.coords p) = .ok r) ∧ IsGradient pad (g.coords p) B) ∧
      ∀ (a : ℝ) (c : Nat → ℝ), ∀ j < pad.spaceNdim, ∑ n ∈ Finset.range pad.kind.nnode, (a + ∑ i ∈ Finset.range pad.spaceNdim, c i * pad.X n i) * B n j = c j := by
    intro p
    by_cases hp : p < g.npoint
    · obtain ⟨⟨d, pad'⟩, hr⟩ := hG p hp
      exact ⟨pad'.gradient, fun _ => ⟨⟨⟨_, hr⟩, gradient_exists hinv hr⟩, fun a c j hj => C31_affine_field hinv hr a c hj⟩⟩
    · exact ⟨fun _ _ => 0, fun h => absurd h hp⟩
  choose B hB using h1
  exact ⟨B, fun p hp => (hB p hp).1, fun p hp => (hB p hp).2⟩

theorem contraction {N d P : Nat} {w : Nat → ℝ} {A : Nat → Nat → ℝ} {B : Nat → Nat → Nat → ℝ} {T : Nat → Nat → Nat → ℝ} {u E : Nat → Nat → ℝ} {S : Nat → ℝ}
    (hS : ∀ l < d, S l = ∑ j ∈ Finset.range d, ∑ l' ∈ Finset.range d, T l j l' * E j l')
    (hE : ∀ p < P, ∀ j < d, ∀ l < d, E j l = ∑ b ∈ Finset.range N, u b j * B p b l) :
    ∑ b ∈ Finset.range N, ∑ j ∈ Finset.range d, (∑ p ∈ Finset.range P, w p * ∑ l ∈ Finset.range d, A p l * ∑ l' ∈ Finset.range d, B p b l' * T l j l') * u b j =
      ∑ p ∈ Finset.range P, w p * ∑ l ∈ Finset.range d, A p l * S l := by
  simp only [Finset.sum_mul]
  rw [Finset.sum_congr rfl fun b _ => Finset.sum_comm, Finset.sum_comm]
  refine Finset.sum_congr rfl fun p hp => ?_
  have e : ∑ l ∈ Finset.range d, A p l * S l = ∑ b ∈ Finset.range N, ∑ j ∈ Finset.range d, (∑ l ∈ Finset.range d, A p l * ∑ l' ∈ Finset.range d, B p b l' * T l j l') * u b j := by
    have e1 : ∀ l ∈ Finset.range d, A p l * S l = ∑ b ∈ Finset.range N, ∑ j ∈ Finset.range d, A p l * (∑ l' ∈ Finset.range d, B p b l' * T l j l') * u b j := by
      intro l hl
      rw [hS l (Finset.mem_range.1 hl)]
      rw [Finset.sum_comm (s := Finset.range N), Finset.mul_sum]
      refine Finset.sum_congr rfl fun j hj => ?_
      have e2 : ∀ l' ∈ Finset.range d, T l j l' * E j l' = ∑ b ∈ Finset.range N, B p b l' * T l j l' * u b j := by
        intro l' hl'
        rw [hE p (Finset.mem_range.1 hp) j (Finset.mem_range.1 hj) l' (Finset.mem_range.1 hl'), Finset.mul_sum]
        exact Finset.sum_congr rfl fun b _ => by ring
      rw [Finset.sum_congr rfl e2, Finset.sum_comm, Finset.mul_sum]
      exact Finset.sum_congr rfl fun b _ => by rw [mul_assoc, Finset.sum_mul]
    rw [Finset.sum_congr rfl e1, Finset.sum_comm]
    refine Finset.sum_congr rfl fun b _ => ?_
    rw [Finset.sum_comm]
    exact Finset.sum_congr rfl fun j _ => by rw [Finset.sum_mul]
  rw [e, Finset.mul_sum]
  refine Finset.sum_congr rfl fun b _ => ?_
  rw [Finset.mul_sum]
  exact Finset.sum_congr rfl fun j _ => by ring

/-- **C75.** For one element: the stiffness matrix of `mat_10_bdb` times the nodal displacements of a linear field is the vector of `vec_04_bt` of
the stress of this field, for any integration rule. -/
theorem C75_stiffness (hinv : InverseSpec inv) (hd : SpaceOk pad) (hG : ∀ p < g.npoint, ∃ r, pad.calcGradient inv (g.coords p) = .ok r)
    (D : Nat → Nat → ℝ) (E : Nat → Nat → ℝ) (a : Nat → ℝ) (t : Nat → ℝ) (ht : IsStressOf pad.spaceNdim D E t) :
    (∃ r, (stiffnessMatrix inv pad g D).2 = .ok r) ∧ (∃ r, (stressVector inv pad g t).2 = .ok r) ∧ ∀ k < pad.kind.nnode * pad.spaceNdim,
      (timesNodal pad.kind.nnode pad.spaceNdim (stiffnessMatrix inv pad g D).1 fun n j => a j + ∑ l ∈ Finset.range pad.spaceNdim, E j l * pad.X n l).val k =
        (stressVector inv pad g t).1.val k := by
  obtain ⟨B, hB, haff⟩ := rule_affine hinv hG
  obtain ⟨d', pad', h1, h2, h3⟩ := C37_vec_04_bt hinv ⟨pad.kind.nnode * pad.spaceNdim, fun _ => 0⟩ (CommonArgs.new pad g) hd (fun h => by simp [CommonArgs.new] at h)
    (fun _ _ _ => .ok t) (fun _ => t) B (by simp [CommonArgs.new]) hB (fun _ _ _ _ => rfl)
  obtain ⟨k', pad'', m1, -, -, m3⟩ := C37_mat_10_bdb hinv ⟨pad.kind.nnode * pad.spaceNdim, pad.kind.nnode * pad.spaceNdim, fun _ => 0⟩ (CommonArgs.new pad g) hd
    (fun h => by simp [CommonArgs.new] at h) (fun _ _ _ => .ok D) (fun _ => D) B (by simp [CommonArgs.new]) (by simp [CommonArgs.new]) hB (fun _ _ _ _ => rfl)
  unfold stressVector stiffnessMatrix
  rw [h1, m1]
  refine ⟨⟨pad'', rfl⟩, ⟨pad', rfl⟩, fun r hr => ?_⟩
  have hpos : 0 < pad.spaceNdim := by rcases hd with h | h <;> omega
  have hle : pad.spaceNdim ≤ 3 := by rcases hd with h | h <;> omega
  have hi : r % pad.spaceNdim < pad.spaceNdim := Nat.mod_lt _ hpos
  have e1 := h3 r
  simp only [CommonArgs.new, Nat.zero_le, zero_add, true_and, if_true, Nat.sub_zero] at e1
  rw [if_pos hr] at e1
  dsimp only
  rw [e1]
  unfold timesNodal
  dsimp only
  have e2 : ∀ b < pad.kind.nnode, ∀ j < pad.spaceNdim, k'.val (r, j + b * pad.spaceNdim) = ∑ p ∈ Finset.range g.npoint, factor (CommonArgs.new pad g) (detJ pad) p *
      ∑ l ∈ Finset.range pad.spaceNdim, B p (r / pad.spaceNdim) l * ∑ l' ∈ Finset.range pad.spaceNdim, B p b l' * tensor4 D (r % pad.spaceNdim) l j l' := by
    intro b hb j hj
    have hbl := block_lt hj hb
    have e3 := m3 r (j + b * pad.spaceNdim)
    simp only [CommonArgs.new, Nat.zero_le, zero_add, true_and, if_true, Nat.sub_zero] at e3
    rw [if_pos ⟨hr, hbl⟩] at e3
    rw [e3]
    unfold Spec.Integ.quadrature
    refine Finset.sum_congr rfl fun p hp => ?_
    dsimp only [CommonArgs.new]
    congr 1
    rw [(mul_div hj).1, (mul_div hj).2]
    unfold stiffness
    have s1 := strain_plane (args := CommonArgs.new pad g) rfl hd (B p) p (r / pad.spaceNdim) (r % pad.spaceNdim) (by omega)
    simp only [CommonArgs.new] at s1
    rw [s1]
    refine Finset.sum_congr rfl fun l _ => ?_
    congr 1
    have s2 := strain_plane (args := CommonArgs.new pad g) rfl hd (B p) p b j (by omega) fun k l' => tensor4 D (r % pad.spaceNdim) l k l'
    simp only [CommonArgs.new] at s2
    rw [← s2]
    exact Finset.sum_congr rfl fun _ _ => Finset.sum_congr rfl fun _ _ => mul_comm _ _
  rw [Finset.sum_congr rfl fun b hb => Finset.sum_congr rfl fun j hj => by rw [e2 b (Finset.mem_range.1 hb) j (Finset.mem_range.1 hj)]]
  unfold Spec.Integ.quadrature
  refine (contraction (S := fun l => tensor2 t (r % pad.spaceNdim) l) (E := E) (fun l hl => ht _ hi l hl) fun p hp j hj l hl => (haff p hp (a j) (E j) l hl).symm).trans ?_
  refine Finset.sum_congr rfl fun p hp => ?_
  have s1 := strain_plane (args := CommonArgs.new pad g) rfl hd (B p) p (r / pad.spaceNdim) (r % pad.spaceNdim) (by omega) (tensor2 t)
  simp only [CommonArgs.new] at s1 ⊢
  rw [s1]

theorem contraction1 {N d P : Nat} {w : Nat → ℝ} {A : Nat → Nat → ℝ} {B : Nat → Nat → Nat → ℝ} {T : Nat → Nat → ℝ} {u c S : Nat → ℝ}
    (hS : ∀ i < d, S i = ∑ j ∈ Finset.range d, T i j * c j) (hE : ∀ p < P, ∀ j < d, c j = ∑ b ∈ Finset.range N, u b * B p b j) :
    ∑ b ∈ Finset.range N, (∑ p ∈ Finset.range P, w p * ∑ i ∈ Finset.range d, ∑ j ∈ Finset.range d, A p i * T i j * B p b j) * u b =
      ∑ p ∈ Finset.range P, w p * ∑ i ∈ Finset.range d, S i * A p i := by
  simp only [Finset.sum_mul]
  rw [Finset.sum_comm]
  refine Finset.sum_congr rfl fun p hp => ?_
  have e : ∑ i ∈ Finset.range d, S i * A p i = ∑ b ∈ Finset.range N, (∑ i ∈ Finset.range d, ∑ j ∈ Finset.range d, A p i * T i j * B p b j) * u b := by
    simp only [Finset.sum_mul]
    rw [Finset.sum_comm]
    refine Finset.sum_congr rfl fun i hi => ?_
    rw [Finset.sum_comm, hS i (Finset.mem_range.1 hi), Finset.sum_mul]
    refine Finset.sum_congr rfl fun j hj => ?_
    rw [hE p (Finset.mem_range.1 hp) j (Finset.mem_range.1 hj), Finset.mul_sum, Finset.sum_mul]
    exact Finset.sum_congr rfl fun b _ => by ring
  rw [e, Finset.mul_sum]
  exact Finset.sum_congr rfl fun b _ => by ring

/-- **C75.** For one element: the conductivity matrix of `mat_03_btb` times the nodal temperatures of a linear field is the vector of `vec_03_bv` of
the constant flow `k·∇θ`, for any integration rule. -/
theorem C75_conductivity (hinv : InverseSpec inv) (hd : SpaceOk pad) (hG : ∀ p < g.npoint, ∃ r, pad.calcGradient inv (g.coords p) = .ok r)
    (k : Nat → ℝ) (a : ℝ) (c : Nat → ℝ) :
    (∃ r, (conductivityMatrix inv pad g k).2 = .ok r) ∧ ∀ n < pad.kind.nnode,
      (timesNodal pad.kind.nnode 1 (conductivityMatrix inv pad g k).1 fun n _ => a + ∑ l ∈ Finset.range pad.spaceNdim, c l * pad.X n l).val n =
        (flowVector inv pad g fun i => ∑ j ∈ Finset.range pad.spaceNdim, tensor2 k i j * c j).1.val n := by
  obtain ⟨B, hB, haff⟩ := rule_affine hinv hG
  obtain ⟨d', pad', h1, h2, h3⟩ := C37_vec_03_bv hinv ⟨pad.kind.nnode, fun _ => 0⟩ (CommonArgs.new pad g) hd
    (fun _ _ _ => .ok fun i => ∑ j ∈ Finset.range pad.spaceNdim, tensor2 k i j * c j) (fun _ i => ∑ j ∈ Finset.range pad.spaceNdim, tensor2 k i j * c j) B (by simp [CommonArgs.new]) hB (fun _ _ _ _ => rfl)
  obtain ⟨k', pad'', m1, -, -, m3⟩ := C37_mat_03_btb hinv ⟨pad.kind.nnode, pad.kind.nnode, fun _ => 0⟩ (CommonArgs.new pad g) hd
    (fun _ _ _ => .ok k) (fun _ => k) B (by simp [CommonArgs.new]) (by simp [CommonArgs.new]) hB (fun _ _ _ _ => rfl)
  unfold flowVector conductivityMatrix
  rw [h1, m1]
  refine ⟨⟨pad'', rfl⟩, fun r hr => ?_⟩
  have e1 := h3 r
  simp only [CommonArgs.new, Nat.zero_le, zero_add, true_and, if_true, Nat.sub_zero] at e1
  rw [if_pos hr] at e1
  dsimp only
  rw [e1]
  unfold timesNodal
  dsimp only
  have e2 : ∀ b < pad.kind.nnode, k'.val (r, 0 + b * 1) = ∑ p ∈ Finset.range g.npoint, factor (CommonArgs.new pad g) (detJ pad) p *
      ∑ i ∈ Finset.range pad.spaceNdim, ∑ j ∈ Finset.range pad.spaceNdim, B p r i * tensor2 k i j * B p b j := by
    intro b hb
    have e3 := m3 r b
    simp only [CommonArgs.new, Nat.zero_le, zero_add, true_and, if_true, Nat.sub_zero] at e3
    rw [if_pos ⟨hr, hb⟩] at e3
    rw [zero_add, mul_one, e3]
    rfl
  simp only [Finset.sum_range_one]
  rw [Finset.sum_congr rfl fun b hb => by rw [e2 b (Finset.mem_range.1 hb)]]
  unfold Spec.Integ.quadrature
  exact contraction1 (fun i _ => rfl) fun p hp j hj => (haff p hp a c j hj).symm

/-- There is such a stress. -/
theorem exists_stress (d : Nat) (hd : d ≤ 3) (D E : Nat → Nat → ℝ) : ∃ t, IsStressOf d D E t := by
  refine ⟨fun a => ∑ k ∈ Finset.range d, ∑ l ∈ Finset.range d, mandelFac k l * D a (mandelIdx k l) * E k l, fun i hi j hj => ?_⟩
  have : ∀ t, tensor2 t i j = mandelFac i j * t (mandelIdx i j) := by
    intro t
    unfold tensor2 mandelFac mandelIdx
    split_ifs <;> ring
  rw [this, Finset.mul_sum]
  refine Finset.sum_congr rfl fun k _ => ?_
  rw [Finset.mul_sum]
  refine Finset.sum_congr rfl fun l _ => ?_
  unfold tensor4
  ring

end
end Gemlab.Scratchpad

namespace Gemlab.Mesh
open MvPolynomial Gemlab.Shapes Gemlab.Spec Gemlab.GaussSpec Gemlab.Scratchpad Gemlab.Spec.Integ Gemlab.Props.Features Gemlab.Props.Mesh
noncomputable section

variable {inv : MatInverse} {m : Mesh ℝ}

theorem nodalPart_congr {n d : Nat} {b b' : Vec} (h : ∀ k < n * d, b.val k = b'.val k) (pts : Nat → Nat) (q : Nat) {i : Nat} (hi : i < d) :
    nodalPart n pts d b q i = nodalPart n pts d b' q i := by
  refine Finset.sum_congr rfl fun j hj => ?_
  rw [h _ (block_lt hi (Finset.mem_range.1 hj))]

/-- **C75.** For a mesh: the assembled stiffness matrices times the displacements `u_j(x) = a_j + Σ_l E_jl x_l` are the assembled forces of the
stress of `E`, for any integration rules. -/
theorem C75_linear (hinv : InverseSpec inv) (h : ValidMesh m) (hd : m.ndim = 2 ∨ m.ndim = 3) (gc : Nat → Gauss)
    (hG : ∀ c ∈ fullCells m, ∀ pad, getPad m c = .ok pad → ∀ p < (gc c).npoint, ∃ r, pad.calcGradient inv ((gc c).coords p) = .ok r)
    (D E : Nat → Nat → ℝ) (a : Nat → ℝ) (t : Nat → ℝ) (ht : IsStressOf m.ndim D E t) (q i : Nat) (hi : i < m.ndim) :
    stiffnessForce inv m gc D (fun p j => a j + ∑ l ∈ Finset.range m.ndim, E j l * (coordsOf m p).getD l 0) q i = internalForce inv m gc t q i := by
  refine Finset.sum_congr rfl fun c hc => ?_
  obtain ⟨-, cell, hcell, hk⟩ := Finset.mem_filter.1 hc
  obtain ⟨pad, hp, hh⟩ := (C53_get_pad m h c).1 cell hcell hd (by omega)
  rw [hp]
  dsimp only
  have e2 := hh.space
  have hs : SpaceOk pad := by unfold SpaceOk; omega
  rw [← e2]
  refine nodalPart_congr (fun k hk => ?_) _ q (by omega)
  rw [← (C75_stiffness hinv hs (hG c hc pad hp) D E a t (by rw [e2]; exact ht)).2.2 k hk]
  unfold timesNodal
  dsimp only
  refine Finset.sum_congr rfl fun n hn => ?_
  refine Finset.sum_congr rfl fun j hj => ?_
  congr 2
  refine Finset.sum_congr rfl fun l hl => ?_
  have hn' : n < cell.kind.nnode := by rw [← hh.kind]; exact Finset.mem_range.1 hn
  rw [hh.coords n l hn' (by rw [← e2]; exact Finset.mem_range.1 hl), nodeOf_eq hcell]

/-- **C75.** The same for the conductivity and a linear temperature. -/
theorem C75_linear_flow (hinv : InverseSpec inv) (h : ValidMesh m) (hd : m.ndim = 2 ∨ m.ndim = 3) (gc : Nat → Gauss)
    (hG : ∀ c ∈ fullCells m, ∀ pad, getPad m c = .ok pad → ∀ p < (gc c).npoint, ∃ r, pad.calcGradient inv ((gc c).coords p) = .ok r)
    (k : Nat → ℝ) (a : ℝ) (b : Nat → ℝ) (q : Nat) :
    conductivityFlow inv m gc k (fun p => a + ∑ l ∈ Finset.range m.ndim, b l * (coordsOf m p).getD l 0) q =
      internalFlow inv m gc (fun i => ∑ j ∈ Finset.range m.ndim, tensor2 k i j * b j) q := by
  refine Finset.sum_congr rfl fun c hc => ?_
  obtain ⟨-, cell, hcell, hk⟩ := Finset.mem_filter.1 hc
  obtain ⟨pad, hp, hh⟩ := (C53_get_pad m h c).1 cell hcell hd (by omega)
  rw [hp]
  dsimp only
  have e2 := hh.space
  have hs : SpaceOk pad := by unfold SpaceOk; omega
  refine nodalPart_congr (fun r hr => ?_) _ q (by omega)
  rw [← e2, ← (C75_conductivity hinv hs (hG c hc pad hp) k a b).2 r (by omega)]
  unfold timesNodal
  dsimp only
  refine Finset.sum_congr rfl fun n hn => ?_
  refine Finset.sum_congr rfl fun j hj => ?_
  congr 2
  refine Finset.sum_congr rfl fun l hl => ?_
  have hn' : n < cell.kind.nnode := by rw [← hh.kind]; exact Finset.mem_range.1 hn
  rw [hh.coords n l hn' (by rw [← e2]; exact Finset.mem_range.1 hl), nodeOf_eq hcell]

/-- **C75.** The rules of `Gauss::new_sized` are accurate. -/
theorem C75_tables (cls : GeoClass) (n : Nat) (e : Exactness) (hr : (n, e) ∈ rules cls) (g : GaussTable) (hg : GaussTable.newSized cls n = .ok g) :
    Accurate g.toGauss cls e (accuracy cls n : ℝ) :=
  ⟨(Gemlab.C40_inside cls n g hg).1, fun P hP => Gemlab.C40_exact cls n e hr g hg P hP⟩

theorem accurate_mono {g : Gauss} {cls : GeoClass} {e e' : Exactness} {ε ε' : ℝ} (h : Accurate g cls e ε) (he : ∀ P, e'.Covers P → e.Covers P) (hε : ε ≤ ε') :
    Accurate g cls e' ε' :=
  ⟨h.inside, fun P hP => (h.exact P (he P hP)).trans (mul_le_mul_of_nonneg_right hε (coeffNorm_nonneg P))⟩

theorem covers_total_mono {d d' : Nat} (h : d' ≤ d) : ∀ P, (Exactness.total d').Covers P → (Exactness.total d).Covers P := fun _ hP => le_trans (α := Nat) hP h
theorem covers_each_mono {d d' : Nat} (h : d' ≤ d) : ∀ P, (Exactness.perVariable d').Covers P → (Exactness.perVariable d).Covers P := fun _ hP i => le_trans (hP i) h

/-- What the default rules integrate. -/
def defaultExact : GeoKind → Exactness
  | .lin2 => .total 3
  | .lin3 => .total 5
  | .lin4 => .total 7
  | .lin5 => .total 9
  | .tri3 => .total 2
  | .tri6 => .total 5
  | .tri10 => .total 6
  | .tri15 => .total 8
  | .qua4 => .perVariable 3
  | .qua8 | .qua9 => .perVariable 5
  | .qua12 | .qua16 | .qua17 => .perVariable 7
  | .tet4 => .total 2
  | .tet10 => .total 5
  | .tet20 => .total 6
  | .hex8 => .perVariable 3
  | .hex20 => .perVariable 5
  | .hex32 => .perVariable 7

theorem default_accurate (k : GeoKind) : Accurate (GaussTable.new k).toGauss k.classOf (defaultExact k) (7 / 10 ^ 15) := by
  have h1 : GaussTable.newSized k.classOf (GaussTable.new k).data.length = .ok (GaussTable.new k) := by cases k <;> rfl
  have h2 : ((GaussTable.new k).data.length, defaultExact k) ∈ rules k.classOf := by
    cases k <;> simp [GaussTable.new, defaultExact, rules, GeoKind.classOf] <;> decide
  have h3 : accuracy k.classOf (GaussTable.new k).data.length ≤ 7 / 10 ^ 15 := by
    cases k <;> (simp only [GeoKind.classOf]; decide +kernel)
  refine accurate_mono (C75_tables _ _ _ h2 _ h1) (fun _ h => h) ?_
  calc _ ≤ (((7 / 10 ^ 15 : ℚ)) : ℝ) := by exact_mod_cast h3
    _ = _ := by push_cast; rfl

/-- **C75.** The default rules of `Gauss::new` are good enough for the patch test in all plane and solid cells except `Hex32` (of any shape). -/
theorem C75_default_cell (k : GeoKind) (hk : k.ndim = 2 ∨ k.ndim = 3) (h32 : k ≠ .hex32) : Accurate (GaussTable.new k).toGauss k.classOf (cellNeed k) (7 / 10 ^ 15) := by
  refine accurate_mono (default_accurate k) ?_ le_rfl
  cases k <;> first
    | exact absurd rfl h32
    | exact absurd hk (by decide)
    | exact covers_total_mono (by decide)
    | exact covers_each_mono (by decide)

/-- **C75.** The default rules are good enough for all edges, and for the faces of tetrahedra and hexahedra up to the second order. -/
theorem C75_default_side (k : GeoKind) (hk : k.ndim = 1 ∨ k ∈ [GeoKind.tri3, .tri6, .qua4, .qua8, .qua9]) :
    Accurate (GaussTable.new k).toGauss k.classOf (sideNeed k) (7 / 10 ^ 15) := by
  refine accurate_mono (default_accurate k) ?_ le_rfl
  cases k <;> first
    | exact absurd hk (by decide)
    | exact covers_total_mono (by decide)
    | exact covers_each_mono (by decide)

/-- The default rules of the cells and features of a mesh. -/
def defaultCellRule (m : Mesh ℝ) (c : Nat) : Gauss := (GaussTable.new ((m.cells[c]?.map Cell.kind).getD .lin2)).toGauss
def defaultSideRule (f : Feature) : Gauss := (GaussTable.new f.kind).toGauss

/-- **C75.** In plane meshes of any cells, the patch test holds for the default rules, up to a multiple of 7·10⁻¹⁵. -/
theorem C75_default_2d {x : Extracted ℝ} {F : Features} (hinv : InverseSpec inv) (hF : IsNew m false x F) (h : ValidMesh m) (h2 : m.ndim = 2) (hc : ConformingEdges m)
    (hG : ∀ c ∈ fullCells m, ∀ pad, getPad m c = .ok pad → GradientOk inv pad) : PatchRules m (F.edges.map (·.2)) (defaultCellRule m) defaultSideRule (7 / 10 ^ 15) := by
  constructor
  · intro c hc cell hcell
    obtain ⟨-, cell', hcell', hk⟩ := Finset.mem_filter.1 hc
    rw [hcell, Option.some.injEq] at hcell'
    subst hcell'
    unfold defaultCellRule
    rw [hcell, Option.map_some, Option.getD_some]
    refine C75_default_cell _ (.inl (by omega)) fun h => ?_
    rw [h, h2] at hk
    exact absurd hk (by decide)
  · intro f hf
    obtain ⟨e, he, rfl⟩ := List.mem_map.1 hf
    have := edge_feature hF h2 e he
    exact C75_default_side _ (.inl (by omega))

end
end Gemlab.Mesh
