import Verif.Spec.RefShapes
import Mathlib.Data.Real.Basic
import Mathlib.Tactic.Linarith
import Mathlib.Algebra.Order.Ring.Rat

/-!
# Covering and non-overlap of the triangulations

A binary space partition (found by a script, checked here by the kernel) certifies that every point of the reference
shape is in a triangle.
-/
namespace Gemlab.Shapes
open Gemlab.Spec

/-- `A x + B y + C ≥ 0`. -/
structure HalfPlane where
  A : ℚ
  B : ℚ
  C : ℚ

inductive Bsp where
  | leaf (t : Nat)
  | split (t a : Nat) (l r : Bsp)

def HalfPlane.Holds (h : HalfPlane) (p : ℝ × ℝ) : Prop := 0 ≤ (h.A : ℝ) * p.1 + h.B * p.2 + h.C
def HalfPlane.neg (h : HalfPlane) : HalfPlane := ⟨-h.A, -h.B, -h.C⟩

/-- Left of the edge `a` of triangle `t`. -/
def edgeHP (k : GeoKind) (t a : Nat) : HalfPlane :=
  let p := triangleCorner k t a
  let q := triangleCorner k t ((a + 1) % 3)
  let A := -(q.2 - p.2)
  let B := q.1 - p.1
  ⟨A, B, -B * p.2 - A * p.1⟩

/-- `g` is a positive multiple of `f`. -/
def HalfPlane.multiple (f g : HalfPlane) : Bool :=
  let l := (f.A * g.A + f.B * g.B + f.C * g.C) / (f.A * f.A + f.B * f.B + f.C * f.C)
  decide (0 < l) && decide (g.A = l * f.A) && decide (g.B = l * f.B) && decide (g.C = l * f.C)

def Bsp.check (k : GeoKind) : List HalfPlane → Bsp → Bool
  | cons, .leaf t => decide (t < k.triangulateNtriangle) &&
      (List.range 3).all fun a => cons.any fun f => f.multiple (edgeHP k t a)
  | cons, .split t a l r => Bsp.check k (edgeHP k t a :: cons) l && Bsp.check k ((edgeHP k t a).neg :: cons) r

def domainHP : GeoClass → List HalfPlane
  | .tri => [⟨1, 0, 0⟩, ⟨0, 1, 0⟩, ⟨-1, -1, 1⟩]
  | .qua => [⟨1, 0, 1⟩, ⟨0, 1, 1⟩, ⟨-1, 0, 1⟩, ⟨0, -1, 1⟩]
  | _ => []

def bspOf : GeoKind → Bsp
  | .lin2 => .leaf 0
  | .lin3 => .leaf 0
  | .lin4 => .leaf 0
  | .lin5 => .leaf 0
  | .tri3 => (.leaf 0)
  | .tri6 => (.split 0 1 (.leaf 0) (.split 1 0 (.split 1 1 (.leaf 1) (.leaf 3)) (.leaf 2)))
  | .tri10 => (.split 1 0 (.split 1 1 (.split 0 1 (.leaf 0) (.leaf 1)) (.split 5 1 (.leaf 5) (.split 6 1 (.leaf 6) (.leaf 8)))) (.split 2 1 (.leaf 2) (.split 3 0 (.split 3 1 (.leaf 3) (.leaf 7)) (.leaf 4))))
  | .tri15 => (.split 1 0 (.split 7 1 (.split 0 1 (.leaf 0) (.split 1 1 (.leaf 1) (.leaf 7))) (.split 12 1 (.split 8 1 (.leaf 8) (.leaf 12)) (.split 13 1 (.leaf 13) (.leaf 15)))) (.split 3 0 (.split 3 1 (.split 2 1 (.leaf 2) (.leaf 3)) (.split 9 1 (.leaf 9) (.split 10 1 (.leaf 10) (.leaf 14)))) (.split 4 1 (.leaf 4) (.split 5 0 (.split 5 1 (.leaf 5) (.leaf 11)) (.leaf 6)))))
  | .qua4 => (.split 0 1 (.leaf 0) (.leaf 1))
  | .qua8 => (.split 1 0 (.split 1 1 (.split 0 1 (.leaf 0) (.leaf 1)) (.split 4 1 (.leaf 4) (.leaf 5))) (.split 3 1 (.split 2 1 (.leaf 2) (.leaf 3)) (.split 6 1 (.leaf 6) (.leaf 7))))
  | .qua9 => (.split 1 0 (.split 1 1 (.split 0 1 (.leaf 0) (.leaf 1)) (.split 4 1 (.leaf 4) (.leaf 5))) (.split 3 1 (.split 2 1 (.leaf 2) (.leaf 3)) (.split 6 1 (.leaf 6) (.leaf 7))))
  | .qua12 => (.split 4 1 (.split 1 0 (.split 1 1 (.split 0 1 (.leaf 0) (.leaf 1)) (.split 6 1 (.leaf 6) (.split 7 1 (.leaf 7) (.leaf 12)))) (.split 2 1 (.leaf 2) (.split 3 0 (.split 3 1 (.leaf 3) (.leaf 8)) (.leaf 4)))) (.split 9 0 (.split 9 1 (.leaf 9) (.split 13 0 (.leaf 13) (.split 14 1 (.leaf 14) (.leaf 15)))) (.split 10 1 (.split 5 1 (.leaf 5) (.leaf 10)) (.split 11 1 (.leaf 11) (.split 16 1 (.leaf 16) (.leaf 17))))))
  | .qua16 => (.split 4 1 (.split 1 0 (.split 1 1 (.split 0 1 (.leaf 0) (.leaf 1)) (.split 6 1 (.leaf 6) (.split 7 1 (.leaf 7) (.leaf 12)))) (.split 2 1 (.leaf 2) (.split 3 0 (.split 3 1 (.leaf 3) (.leaf 8)) (.leaf 4)))) (.split 9 0 (.split 9 1 (.leaf 9) (.split 13 0 (.leaf 13) (.split 14 1 (.leaf 14) (.leaf 15)))) (.split 10 1 (.split 5 1 (.leaf 5) (.leaf 10)) (.split 11 1 (.leaf 11) (.split 16 1 (.leaf 16) (.leaf 17))))))
  | .qua17 => (.split 3 0 (.split 1 0 (.split 9 1 (.split 1 1 (.split 0 1 (.leaf 0) (.leaf 1)) (.split 8 1 (.leaf 8) (.leaf 9))) (.split 17 1 (.split 16 1 (.leaf 16) (.leaf 17)) (.split 24 1 (.leaf 24) (.leaf 25)))) (.split 11 1 (.split 3 1 (.split 2 1 (.leaf 2) (.leaf 3)) (.split 10 1 (.leaf 10) (.leaf 11))) (.split 19 1 (.split 18 1 (.leaf 18) (.leaf 19)) (.split 26 1 (.leaf 26) (.leaf 27))))) (.split 5 0 (.split 13 1 (.split 5 1 (.split 4 1 (.leaf 4) (.leaf 5)) (.split 12 1 (.leaf 12) (.leaf 13))) (.split 21 1 (.split 20 1 (.leaf 20) (.leaf 21)) (.split 28 1 (.leaf 28) (.leaf 29)))) (.split 15 1 (.split 7 1 (.split 6 1 (.leaf 6) (.leaf 7)) (.split 14 1 (.leaf 14) (.leaf 15))) (.split 23 1 (.split 22 1 (.leaf 22) (.leaf 23)) (.split 30 1 (.leaf 30) (.leaf 31))))))
  | .tet4 => .leaf 0
  | .tet10 => .leaf 0
  | .tet20 => .leaf 0
  | .hex8 => .leaf 0
  | .hex20 => .leaf 0
  | .hex32 => .leaf 0

def chkCover (k : GeoKind) : Bool := k.triangulateNtriangle == 0 || Bsp.check k (domainHP k.classOf) (bspOf k)
theorem chkCover_ok (k : GeoKind) : chkCover k = true := by cases k <;> decide +kernel

theorem HalfPlane.multiple_holds {f g : HalfPlane} {p : ℝ × ℝ} (h : f.multiple g = true) (hf : f.Holds p) : g.Holds p := by
  simp only [multiple, Bool.and_eq_true, decide_eq_true_eq] at h
  obtain ⟨⟨⟨h0, hA⟩, hB⟩, hC⟩ := h
  generalize (f.A * g.A + f.B * g.B + f.C * g.C) / (f.A * f.A + f.B * f.B + f.C * f.C) = l at *
  unfold Holds at *
  rw [hA, hB, hC]
  push_cast
  have : (0 : ℝ) ≤ l := by exact_mod_cast h0.le
  have := mul_nonneg this hf
  nlinarith [this]

theorem edgeHP_holds (k : GeoKind) (t a : Nat) (p : ℝ × ℝ) :
    (edgeHP k t a).Holds p ↔ 0 ≤ area2 (corner k t a) (corner k t ((a + 1) % 3)) p := by
  unfold HalfPlane.Holds edgeHP area2 corner
  push_cast
  constructor <;> intro h <;> linarith

theorem Bsp.check_sound (k : GeoKind) (T : Bsp) (cons : List HalfPlane) (p : ℝ × ℝ) (h : Bsp.check k cons T = true)
    (hc : ∀ f ∈ cons, f.Holds p) : ∃ t < k.triangulateNtriangle, InTriangle k t p := by
  induction T generalizing cons with
  | leaf t =>
    simp only [check, Bool.and_eq_true, decide_eq_true_eq, List.all_eq_true, List.any_eq_true, List.mem_range] at h
    refine ⟨t, h.1, ?_⟩
    have key : ∀ a < 3, 0 ≤ area2 (corner k t a) (corner k t ((a + 1) % 3)) p := by
      intro a ha
      obtain ⟨f, hf, hm⟩ := h.2 a ha
      exact (edgeHP_holds k t a p).1 (HalfPlane.multiple_holds hm (hc f hf))
    exact ⟨key 0 (by omega), key 1 (by omega), key 2 (by omega)⟩
  | split t a l r ihl ihr =>
    simp only [check, Bool.and_eq_true] at h
    rcases le_total 0 (((edgeHP k t a).A : ℝ) * p.1 + (edgeHP k t a).B * p.2 + (edgeHP k t a).C) with h0 | h0
    · refine ihl _ h.1 ?_
      intro f hf
      rcases List.mem_cons.1 hf with rfl | hf
      · exact h0
      · exact hc f hf
    · refine ihr _ h.2 ?_
      intro f hf
      rcases List.mem_cons.1 hf with rfl | hf
      · unfold HalfPlane.Holds HalfPlane.neg; push_cast; linarith
      · exact hc f hf

theorem cover (k : GeoKind) (hk : 0 < k.triangulateNtriangle) (p : ℝ × ℝ) (hp : InReference k.classOf p) :
    ∃ t < k.triangulateNtriangle, InTriangle k t p := by
  have h := chkCover_ok k
  simp only [chkCover, Bool.or_eq_true, beq_iff_eq] at h
  rcases h with h | h
  · omega
  · apply Bsp.check_sound k _ _ p h
    revert hp
    cases k.classOf <;> simp only [domainHP, InReference, List.mem_cons, List.not_mem_nil, or_false, false_imp_iff]
    · rintro ⟨a, b, c⟩ f (rfl | rfl | rfl) <;> unfold HalfPlane.Holds <;> push_cast <;> linarith
    · rintro ⟨a, b, c, d⟩ f (rfl | rfl | rfl | rfl) <;> unfold HalfPlane.Holds <;> push_cast <;> linarith

/-! ## Non-overlap -/

def sep (k : GeoKind) (t u : Nat) : Bool := (List.range 3).any fun a => (List.range 3).all fun b =>
  decide (area2 (triangleCorner k t a) (triangleCorner k t ((a + 1) % 3)) (triangleCorner k u b) ≤ 0)

def chkSep (k : GeoKind) : Bool := (List.range k.triangulateNtriangle).all fun t => (List.range k.triangulateNtriangle).all fun u =>
  t == u || sep k t u || sep k u t
def chkTriangles (k : GeoKind) : Bool := (List.range k.triangulateNtriangle).all fun t =>
  decide (0 < area2 (triangleCorner k t 0) (triangleCorner k t 1) (triangleCorner k t 2))

theorem chkSep_ok (k : GeoKind) : chkSep k = true := by cases k <;> decide +kernel
theorem chkTriangles_ok (k : GeoKind) : chkTriangles k = true := by cases k <;> decide +kernel

theorem area2_cast (k : GeoKind) (t u v a b c : Nat) :
    area2 (corner k t a) (corner k u b) (corner k v c) =
      ((area2 (triangleCorner k t a) (triangleCorner k u b) (triangleCorner k v c) : ℚ) : ℝ) := by
  unfold area2 corner; push_cast; ring

theorem triangle_pos (k : GeoKind) (t : Nat) (ht : t < k.triangulateNtriangle) :
    (0 : ℝ) < area2 (corner k t 0) (corner k t 1) (corner k t 2) := by
  have h := chkTriangles_ok k
  simp only [chkTriangles, List.all_eq_true, List.mem_range, decide_eq_true_eq] at h
  rw [area2_cast]; exact_mod_cast h t ht

/-- `area2 a b p` as a combination of its values at three points. -/
theorem area2_comb (a b p x y z : ℝ × ℝ) :
    area2 a b p * area2 x y z = area2 y z p * area2 a b x + area2 z x p * area2 a b y + area2 x y p * area2 a b z := by
  unfold area2; ring

theorem not_both_of_sep (k : GeoKind) (t u : Nat) (hu : u < k.triangulateNtriangle) (h : sep k t u = true) (p : ℝ × ℝ)
    (hpt : StrictlyIn k t p) (hpu : StrictlyIn k u p) : False := by
  simp only [sep, List.any_eq_true, List.all_eq_true, List.mem_range, decide_eq_true_eq] at h
  obtain ⟨a, ha, h⟩ := h
  have hpos := triangle_pos k u hu
  obtain ⟨q0, q1, q2⟩ := hpu
  have hle : ∀ b < 3, (area2 (corner k t a) (corner k t ((a + 1) % 3)) (corner k u b) : ℝ) ≤ 0 := by
    intro b hb; rw [area2_cast]; exact_mod_cast h b hb
  have hc := area2_comb (corner k t a) (corner k t ((a + 1) % 3)) p (corner k u 0) (corner k u 1) (corner k u 2)
  have h0 := mul_nonneg q1.le (sub_nonneg.2 (hle 0 (by omega)))
  have h1 := mul_nonneg q2.le (sub_nonneg.2 (hle 1 (by omega)))
  have h2 := mul_nonneg q0.le (sub_nonneg.2 (hle 2 (by omega)))
  have hp : 0 < area2 (corner k t a) (corner k t ((a + 1) % 3)) p := by
    have : a = 0 ∨ a = 1 ∨ a = 2 := by omega
    rcases this with rfl | rfl | rfl
    · exact hpt.1
    · exact hpt.2.1
    · exact hpt.2.2
  have := mul_pos hp hpos
  nlinarith

theorem disjoint (k : GeoKind) (t u : Nat) (ht : t < k.triangulateNtriangle) (hu : u < k.triangulateNtriangle) (htu : t ≠ u)
    (p : ℝ × ℝ) : ¬ (StrictlyIn k t p ∧ StrictlyIn k u p) := by
  have h := chkSep_ok k
  simp only [chkSep, List.all_eq_true, List.mem_range, Bool.or_eq_true, beq_iff_eq] at h
  rintro ⟨h1, h2⟩
  rcases h t ht u hu with (h | h) | h
  · exact htu h
  · exact not_both_of_sep k t u hu h p h1 h2
  · exact not_both_of_sep k u t ht h p h2 h1

end Gemlab.Shapes
