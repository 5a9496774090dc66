import Verif.Model.Gauss
import Verif.Proofs.GaussMoments

/-! The tables of `gauss.rs`: moments computed by the kernel over the rationals. -/

namespace Gemlab.GaussSpec
open MvPolynomial

/-- Moment of a table. -/
def tabMoment (t : List GaussRow) (a b c : Nat) : ℚ :=
  (t.map (fun r => r.2.2.2 * (r.1 ^ a * r.2.1 ^ b * r.2.2.1 ^ c))).sum

def momentOk (cls : GeoClass) (n : Nat) (t : List GaussRow) (a b c : Nat) : Bool :=
  decide (|tabMoment t a b c - moment cls a b c| ≤ accuracy cls n)

def checkRule (cls : GeoClass) (n : Nat) (t : List GaussRow) : Exactness → Bool
  | .total d => (List.range (d + 1)).all fun a => (List.range (d + 1 - a)).all fun b =>
      (List.range (d + 1 - a - b)).all fun c => momentOk cls n t a b c
  | .perVariable d => (List.range (d + 1)).all fun a => (List.range (d + 1)).all fun b =>
      (List.range (d + 1)).all fun c => momentOk cls n t a b c

def inRefQ : GeoClass → ℚ → ℚ → ℚ → Bool
  | .lin, r, s, t => decide (-1 ≤ r ∧ r ≤ 1 ∧ s = 0 ∧ t = 0)
  | .tri, r, s, t => decide (0 ≤ r ∧ 0 ≤ s ∧ r + s ≤ 1 ∧ t = 0)
  | .qua, r, s, t => decide (-1 ≤ r ∧ r ≤ 1 ∧ -1 ≤ s ∧ s ≤ 1 ∧ t = 0)
  | .tet, r, s, t => decide (0 ≤ r ∧ 0 ≤ s ∧ 0 ≤ t ∧ r + s + t ≤ 1)
  | .hex, r, s, t => decide (-1 ≤ r ∧ r ≤ 1 ∧ -1 ≤ s ∧ s ≤ 1 ∧ -1 ≤ t ∧ t ≤ 1)

/-- What is verified about every rule. -/
structure TableOk (cls : GeoClass) (n : Nat) (e : Exactness) (t : List GaussRow) : Prop where
  len : t.length = n
  moments : checkRule cls n t e = true
  inside : (t.all fun r => inRefQ cls r.1 r.2.1 r.2.2.1) = true
  nodup : t.Nodup
  weights : (t.map (fun r => r.2.2.2)).sum = tabMoment t 0 0 0

set_option maxRecDepth 100000 in
theorem tables_ok_lin : ∀ p ∈ rules .lin, ∃ t, GaussTable.newSized .lin p.1 = .ok ⟨.lin, t⟩ ∧ TableOk .lin p.1 p.2 t := by
  intro p hp
  simp only [rules, List.mem_cons, List.not_mem_nil, or_false] at hp
  rcases hp with rfl | rfl | rfl | rfl | rfl <;>
  exact ⟨_, rfl, by decide +kernel, by decide +kernel, by decide +kernel, by decide +kernel, by decide +kernel⟩

set_option maxRecDepth 100000 in
theorem tables_ok_tri : ∀ p ∈ rules .tri, ∃ t, GaussTable.newSized .tri p.1 = .ok ⟨.tri, t⟩ ∧ TableOk .tri p.1 p.2 t := by
  intro p hp
  simp only [rules, List.mem_cons, List.not_mem_nil, or_false] at hp
  rcases hp with rfl | rfl | rfl | rfl | rfl | rfl | rfl <;>
  exact ⟨_, rfl, by decide +kernel, by decide +kernel, by decide +kernel, by decide +kernel, by decide +kernel⟩

set_option maxRecDepth 100000 in
theorem tables_ok_qua : ∀ p ∈ rules .qua, ∃ t, GaussTable.newSized .qua p.1 = .ok ⟨.qua, t⟩ ∧ TableOk .qua p.1 p.2 t := by
  intro p hp
  simp only [rules, List.mem_cons, List.not_mem_nil, or_false] at hp
  rcases hp with rfl | rfl | rfl | rfl <;>
  exact ⟨_, rfl, by decide +kernel, by decide +kernel, by decide +kernel, by decide +kernel, by decide +kernel⟩

set_option maxRecDepth 100000 in
theorem tables_ok_tet : ∀ p ∈ rules .tet, ∃ t, GaussTable.newSized .tet p.1 = .ok ⟨.tet, t⟩ ∧ TableOk .tet p.1 p.2 t := by
  intro p hp
  simp only [rules, List.mem_cons, List.not_mem_nil, or_false] at hp
  rcases hp with rfl | rfl | rfl | rfl | rfl | rfl | rfl <;>
  exact ⟨_, rfl, by decide +kernel, by decide +kernel, by decide +kernel, by decide +kernel, by decide +kernel⟩

set_option maxRecDepth 100000 in
theorem tables_ok_hex : ∀ p ∈ rules .hex, ∃ t, GaussTable.newSized .hex p.1 = .ok ⟨.hex, t⟩ ∧ TableOk .hex p.1 p.2 t := by
  intro p hp
  simp only [rules, List.mem_cons, List.not_mem_nil, or_false] at hp
  rcases hp with rfl | rfl | rfl | rfl | rfl <;>
  exact ⟨_, rfl, by decide +kernel, by decide +kernel, by decide +kernel, by decide +kernel, by decide +kernel⟩

theorem tables_ok (cls : GeoClass) : ∀ p ∈ rules cls, ∃ t, GaussTable.newSized cls p.1 = .ok ⟨cls, t⟩ ∧ TableOk cls p.1 p.2 t := by
  cases cls
  · exact tables_ok_lin
  · exact tables_ok_tri
  · exact tables_ok_qua
  · exact tables_ok_tet
  · exact tables_ok_hex

end Gemlab.GaussSpec
