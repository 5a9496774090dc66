import Verif.Proofs.Shapes
/-! Which shape functions are reproduced by those of other kinds (used for `convert_2d`). -/
namespace Gemlab.Shapes
open Gemlab.Spec

/-- The shape functions of `s` are combinations of those of `t`, with their values at the nodes of `t` as coefficients. -/
def chkContains (s t : GeoKind) : Bool := (List.range s.nnode).all fun n =>
  PE.same (PE.sum ((List.range t.nnode).map fun m => PE.c (PE.evalQ (refCoordQ t m) ((interp s).getD n 0)) * (interp t).getD m 0)) ((interp s).getD n 0)

def kinds2d : List GeoKind := [.tri3, .tri6, .tri10, .tri15, .qua4, .qua8, .qua9, .qua12, .qua16, .qua17]

theorem chkContains_all : (kinds2d.all fun s => kinds2d.all fun t =>
    !(t.classOf == s.classOf && decide (s.nnode ≤ t.nnode) && !(s == .qua9 && t == .qua12) && !(s == .qua16 && t == .qua17)) || chkContains s t) = true := by
  decide +kernel

theorem mem_kinds2d (k : GeoKind) (h : k.ndim = 2) : k ∈ kinds2d := by
  revert h; cases k <;> decide

theorem chkContains_ok (s t : GeoKind) (hs : s.ndim = 2) (hc : t.classOf = s.classOf) (hn : s.nnode ≤ t.nnode)
    (h1 : (s, t) ≠ (.qua9, .qua12)) (h2 : (s, t) ≠ (.qua16, .qua17)) : chkContains s t = true := by
  have ht : t.ndim = 2 := by
    revert hs hc; clear hn h1 h2
    cases s <;> cases t <;> simp [GeoKind.ndim, GeoKind.classOf]
  have h := chkContains_all
  rw [List.all_eq_true] at h
  have h := h s (mem_kinds2d s hs)
  rw [List.all_eq_true] at h
  have h := h t (mem_kinds2d t ht)
  simp only [Bool.or_eq_true, Bool.not_eq_true', Bool.and_eq_false_iff, beq_eq_false_iff_ne, ne_eq, decide_eq_false_iff_not, Bool.not_eq_false',
    Bool.and_eq_true, beq_iff_eq] at h
  simp only [ne_eq, Prod.mk.injEq] at h1 h2
  tauto

variable {K : Type} [Field K] [CharZero K]

theorem contains_eq {s t : GeoKind} (h : chkContains s t = true) (ξ : Nat → K) (n : Nat) (hn : n < s.nnode) :
    ∑ m ∈ Finset.range t.nnode, calcInterp s (refCoord t m : Nat → K) n * calcInterp t ξ m = calcInterp s ξ n := by
  simp only [chkContains, List.all_eq_true, List.mem_range] at h
  have h := PE.eval_eq_of_same (h n hn) ξ
  rw [eval_range_sum] at h
  rw [calcInterp, ← h]
  apply Finset.sum_congr rfl
  intro m _
  have e : (refCoord t m : Nat → K) = fun i => ((refCoordQ t m i : ℚ) : K) := rfl
  rw [calcInterp, e, PE.eval_cast]
  simp [calcInterp]

/-- Interpolating on the nodes of `t` the values that `s` interpolates gives the same function. -/
theorem interpolate_upgrade {s t : GeoKind} (h : chkContains s t = true) (u : Nat → K) (ξ : Nat → K) :
    interpolate t (fun m => interpolate s u (refCoord t m)) ξ = interpolate s u ξ := by
  unfold interpolate
  simp only [Finset.mul_sum]
  rw [Finset.sum_comm]
  apply Finset.sum_congr rfl
  intro n hn
  rw [← contains_eq h ξ n (Finset.mem_range.1 hn), Finset.sum_mul]
  apply Finset.sum_congr rfl
  intro m _
  ring
end Gemlab.Shapes
