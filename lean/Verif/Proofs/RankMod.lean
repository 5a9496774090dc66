import Mathlib.LinearAlgebra.Matrix.ToLinearEquiv
import Mathlib.LinearAlgebra.Matrix.Determinant.Basic
import Mathlib.Data.Real.Basic
import Mathlib.Data.ZMod.Basic
import Mathlib.Algebra.BigOperators.Intervals
/-!
# Certified injectivity of rational matrices

A left inverse modulo a number is computed (in the kernel) and checked: the determinant of the product with the matrix scaled to integers is
one modulo the number, hence not zero. The computation of the left inverse itself needs no proof.
-/
namespace Gemlab.RankMod

/-- The modulus. -/
def md : Nat := 1000003

def powMod (fuel a e : Nat) : Nat :=
  match fuel with
  | 0 => 1
  | f + 1 => if e = 0 then 1 else
    let h := powMod f (a * a % md) (e / 2)
    if e % 2 = 1 then h * a % md else h

/-- One elimination step on the first column: rows with a pivot, other rows. -/
def elim (s : List (List Nat) × List (List Nat)) : List (List Nat) × List (List Nat) :=
  match s.2.find? (fun r => r.headD 0 ≠ 0) with
  | none => s
  | some r =>
    let iv := powMod 30 (r.headD 0) (md - 2)
    let r' := r.map fun a => a * iv % md
    let f := fun x : List Nat => let c := md - x.headD 0; (List.zipWith (fun a b => (a + c * b) % md) x r').tail
    (s.1.map f ++ [r'.tail], (s.2.erase r).map f)

/-- A candidate for the left inverse. -/
def leftInv (a : List (List Nat)) (nc : Nat) : List (List Nat) :=
  let n := a.length
  let aug := (List.range n).map fun i => a.getD i [] ++ (List.range n).map fun j => if i = j then 1 else 0
  ((List.range nc).foldl (fun s _ => elim s) ([], aug)).1

/-- Row scaled to integers. -/
def rowDen (row : List ℚ) : Nat := row.foldl (fun d q => d.lcm q.den) 1
def scaled (row : List ℚ) : List Int := row.map fun q => q.num * ((rowDen row / q.den : Nat) : Int)

def dot (a b : List Nat) : Nat := (List.zipWith (· * ·) a b).sum

/-- The matrix has a left inverse modulo `md`. -/
def checkLeft (a : List (List ℚ)) (nc : Nat) : Bool :=
  let m : List (List Nat) := a.map fun row => (scaled row).map fun z : Int => (z % (md : Int)).toNat
  let l := leftInv m nc
  let cols := (List.range nc).map fun j => m.map fun r => r.getD j 0
  (List.range nc).all fun i => (List.range nc).all fun j => dot (l.getD i []) (cols.getD j []) % md == if i = j then 1 else 0

theorem getD_of_lt {α : Type} (l : List α) (d : α) {i : Nat} (h : i < l.length) : l.getD i d = l[i] := by
  rw [List.getD_eq_getElem?_getD, List.getElem?_eq_getElem h]; rfl

theorem foldl_lcm_dvd (row : List ℚ) (d : Nat) : d ∣ row.foldl (fun d q => d.lcm q.den) d ∧ ∀ q ∈ row, q.den ∣ row.foldl (fun d q => d.lcm q.den) d := by
  induction row generalizing d with
  | nil => simp
  | cons q row ih =>
    obtain ⟨h1, h2⟩ := ih (d.lcm q.den)
    refine ⟨(Nat.dvd_lcm_left _ _).trans h1, ?_⟩
    intro x hx
    rcases List.mem_cons.1 hx with rfl | hx
    · exact (Nat.dvd_lcm_right _ _).trans h1
    · exact h2 x hx

theorem scaled_eq (row : List ℚ) (q : ℚ) (hq : q ∈ row) : ((q.num * ((rowDen row / q.den : Nat) : Int) : Int) : ℚ) = rowDen row * q := by
  have hd : q.den ∣ rowDen row := (foldl_lcm_dvd row 1).2 q hq
  have h0 : (q.den : ℚ) ≠ 0 := by exact_mod_cast q.den_nz
  rw [Int.cast_mul, Int.cast_natCast, Nat.cast_div hd h0]
  conv_rhs => rw [← Rat.num_div_den q]
  field_simp

theorem dot_eq (a b : List Nat) (n : Nat) (ha : a.length ≤ n) : dot a b = ∑ q ∈ Finset.range n, a.getD q 0 * b.getD q 0 := by
  unfold dot
  induction a generalizing b n with
  | nil => simp
  | cons x a ih =>
    cases n with
    | zero => simp at ha
    | succ n =>
      rw [Finset.sum_range_succ']
      cases b with
      | nil => simp
      | cons y b =>
        simp only [List.zipWith_cons_cons, List.sum_cons, List.getD_cons_succ, List.getD_cons_zero]
        rw [ih b n (by simpa using ha)]
        omega

theorem dot_comm (a b : List Nat) : dot a b = dot b a := by
  unfold dot
  rw [List.zipWith_comm]
  congr 2
  funext a b
  exact Nat.mul_comm _ _

theorem injective_of_check {a : List (List ℚ)} {nc : Nat} (h : checkLeft a nc = true) (hl : ∀ row ∈ a, row.length = nc) (u : Fin nc → ℝ)
    (hu : ∀ row ∈ a, ∑ c : Fin nc, ((row.getD c 0 : ℚ) : ℝ) * u c = 0) : u = 0 := by
  simp only [checkLeft, List.all_eq_true, List.mem_range, beq_iff_eq] at h
  set m : List (List Nat) := a.map fun row => (scaled row).map fun z : Int => (z % (md : Int)).toNat with hm
  set l := leftInv m nc with hl'
  -- integer matrices
  let L : Matrix (Fin nc) (Fin a.length) ℤ := fun i q => (((l.getD i []).getD q 0 : Nat) : ℤ)
  let Z : Matrix (Fin a.length) (Fin nc) ℤ := fun q j => (scaled (a.getD q [])).getD j 0
  have hmod : ∀ (q : Fin a.length) (j : Fin nc), (((m.getD q []).getD j 0 : Nat) : ℤ) = Z q j % md := by
    intro q j
    have e1 : m.getD q [] = (scaled (a.getD q [])).map fun z : Int => (z % (md : Int)).toNat := by
      simp [hm, List.getD_eq_getElem?_getD]
    have hlen : (j : Nat) < (scaled (a.getD q [])).length := by
      have : a.getD q [] ∈ a := by
        rw [getD_of_lt _ _ q.2]; exact List.getElem_mem _
      rw [scaled, List.length_map, hl _ this]; exact j.2
    rw [e1]
    simp only [Z]
    rw [getD_of_lt _ _ hlen, getD_of_lt _ _ (by rw [List.length_map]; exact hlen), List.getElem_map]
    exact Int.toNat_of_nonneg (Int.emod_nonneg _ (by decide))
  have hprod : ∀ i j : Fin nc, (((L * Z) i j : ℤ) : ZMod md) = if i = j then 1 else 0 := by
    intro i j
    have hij := h i i.2 j j.2
    have hc : ((List.range nc).map fun j => m.map fun r => r.getD j 0).getD j [] = m.map fun r => r.getD j 0 := by
      simp [List.getD_eq_getElem?_getD]
    rw [hc, dot_comm, dot_eq _ _ a.length (by simp [hm])] at hij
    have h2 := congrArg (fun x : Nat => (x : ZMod md)) hij
    simp only [ZMod.natCast_mod] at h2
    rw [Finset.sum_range] at h2
    rw [Matrix.mul_apply]
    push_cast at h2 ⊢
    have e0 : ((if (i : Nat) = j then 1 else 0 : ZMod md)) = if i = j then 1 else 0 := by simp [Fin.ext_iff]
    rw [← e0, ← h2]
    apply Finset.sum_congr rfl
    intro q _
    have e1 : (m.map fun r => r.getD j 0).getD q 0 = (m.getD q []).getD j 0 := by
      have hq : (q : Nat) < m.length := by simp [hm]
      simp [List.getD_eq_getElem?_getD, List.getElem?_map, List.getElem?_eq_getElem hq]
    have e2 := congrArg (fun x : ℤ => (x : ZMod md)) (hmod q j)
    simp only [ZMod.intCast_mod, Int.cast_natCast] at e2
    rw [e1, e2, mul_comm]
    simp [L]
  -- the determinant is not zero
  have hdet : (L * Z).det ≠ 0 := by
    intro h0
    have h1 : ((Int.castRingHom (ZMod md)).mapMatrix (L * Z)) = 1 := by
      ext i j
      simp only [RingHom.mapMatrix_apply, Matrix.map_apply, Int.coe_castRingHom]
      rw [hprod, Matrix.one_apply]
    have h2 := RingHom.map_det (Int.castRingHom (ZMod md)) (L * Z)
    rw [h1, h0, Matrix.det_one, map_zero] at h2
    haveI : Fact (1 < md) := ⟨by decide⟩
    exact zero_ne_one h2
  have hdetR : ((Int.castRingHom ℝ).mapMatrix (L * Z)).det ≠ 0 := by
    rw [← RingHom.map_det]
    simpa using hdet
  apply Matrix.eq_zero_of_mulVec_eq_zero hdetR
  have hZ : (Int.castRingHom ℝ).mapMatrix (L * Z) = (L.map (Int.castRingHom ℝ)) * (Z.map (Int.castRingHom ℝ)) := by
    ext i j
    simp [Matrix.mul_apply]
  rw [hZ, ← Matrix.mulVec_mulVec]
  have : (Z.map (Int.castRingHom ℝ)).mulVec u = 0 := by
    ext q
    have hmem : a.getD q [] ∈ a := by
      rw [getD_of_lt _ _ q.2]; exact List.getElem_mem _
    have := hu _ hmem
    simp only [Matrix.mulVec, dotProduct, Pi.zero_apply, Matrix.map_apply]
    have e : ∀ c : Fin nc, ((Int.castRingHom ℝ) (Z q c)) = (rowDen (a.getD q []) : ℝ) * (((a.getD q []).getD c 0 : ℚ) : ℝ) := by
      intro c
      have hc : (c : Nat) < (a.getD q []).length := by rw [hl _ hmem]; exact c.2
      have h1 := scaled_eq (a.getD q []) ((a.getD q [])[(c : Nat)]) (List.getElem_mem hc)
      have h2 : Z q c = ((a.getD q [])[(c : Nat)]).num * ((rowDen (a.getD q []) / ((a.getD q [])[(c : Nat)]).den : Nat) : Int) := by
        simp only [Z, scaled, List.getD_eq_getElem?_getD (l := List.map _ _), List.getElem?_map]
        rw [List.getElem?_eq_getElem hc]
        rfl
      rw [h2]
      have h3 := congrArg (fun x : ℚ => (x : ℝ)) h1
      rw [getD_of_lt _ _ hc]
      simpa using h3
    simp only [e, mul_assoc]
    rw [← Finset.mul_sum, this, mul_zero]
  rw [this, Matrix.mulVec_zero]

end Gemlab.RankMod
