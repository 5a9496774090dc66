import Verif.Spec.Exactness
import Verif.Props.Gauss
import Verif.Proofs.Analytical

namespace Gemlab.Exactness
open Gemlab Gemlab.Shapes Gemlab.GaussSpec Gemlab.Analytical Gemlab.Spec.Analytical Gemlab.Spec.Exactness

/-- A term `c r^i s^j t^k`. -/
abbrev Term := ℚ × Nat × Nat × Nat

/-- The terms of a polynomial. -/
def termsOf (e : PE) : List Term :=
  match e.norm with
  | some p => p.zipIdx.flatMap fun q => q.1.zipIdx.flatMap fun q1 => q1.1.zipIdx.filterMap fun q0 => if q0.1 = 0 then none else some (q0.1, q0.2, q1.2, q.2)
  | none => []

def powPE (e : PE) : Nat → PE
  | 0 => 1
  | n + 1 => powPE e n * e
def ofTerms (l : List Term) : PE := PE.sum (l.map fun t => PE.c t.1 * (powPE (.x 0) t.2.1 * powPE (.x 1) t.2.2.1 * powPE (.x 2) t.2.2.2))

theorem eval_pow (ξ : Nat → ℝ) (e : PE) (n : Nat) : PE.eval ξ (powPE e n) = PE.eval ξ e ^ n := by
  induction n with
  | zero => simp [powPE]
  | succ n ih => rw [powPE, PE.eval_mul, ih, pow_succ]

theorem eval_terms (ξ : Nat → ℝ) (l : List Term) :
    PE.eval ξ (ofTerms l) = (l.map fun t => (t.1 : ℝ) * (ξ 0 ^ t.2.1 * ξ 1 ^ t.2.2.1 * ξ 2 ^ t.2.2.2)).sum := by
  unfold ofTerms
  rw [PE.eval_sum, List.map_map]
  congr 1
  refine List.map_congr_left fun t _ => ?_
  simp [eval_pow]

/-- The functions whose products are integrated: 1, the shape functions and their derivatives. -/
def family (k : GeoKind) : List PE := 1 :: ((List.range k.nnode).map (Np k) ++ (List.range k.nnode).flatMap fun m => (List.range k.ndim).map (Dp k m))

/-- Bound on the sum of the absolute values of the coefficients. -/
def size : GeoKind → ℚ
  | .tri15 => 5536 / 3
  | .tet20 => 604 / 2
  | .tri10 => 370 / 2
  | _ => 36

def inDegree (k : GeoKind) (t : Term) : Bool :=
  match k.classOf with
  | .lin | .tri | .tet => decide (t.2.1 + t.2.2.1 + t.2.2.2 ≤ degree k)
  | _ => decide (t.2.1 ≤ degree k) && decide (t.2.2.1 ≤ degree k) && decide (t.2.2.2 ≤ degree k)

def chkFun (k : GeoKind) (e : PE) : Bool :=
  PE.same e (ofTerms (termsOf e)) && (termsOf e).all (inDegree k) && decide (((termsOf e).map fun t => |t.1|).sum ≤ size k)

def chkKind (k : GeoKind) : Bool := (family k).all (chkFun k)

set_option maxRecDepth 100000 in
theorem chkKind_ok (k : GeoKind) : chkKind k = true := by
  cases k <;> decide +kernel

end Gemlab.Exactness
