import Verif.Proofs.RankMod
import Verif.Model.Recovery
import Verif.Spec.Gauss
/-! Kernel computations about the tables used for recovery. -/
namespace Gemlab.Recov
open Gemlab.Shapes Gemlab.RankMod Gemlab.GaussSpec

/-- Values of the shape functions at the points of a table. -/
def pq (k : GeoKind) (t : List GaussRow) : List (List ℚ) := t.map fun r => (interp k).map fun e => PE.evalQ (GaussRow.get r) e

def pqT (k : GeoKind) (t : List GaussRow) : List (List ℚ) := let m := pq k t; (List.range k.nnode).map fun j => m.map fun row => row.getD j 0

/-- The rules with fewer points than nodes for which the interpolation matrix does not have full rank. -/
def deficient (k : GeoKind) (n : Nat) : Bool := [(GeoKind.qua12, 9), (.qua17, 16), (.hex8, 6), (.hex32, 27)].contains (k, n)

def chkRank (k : GeoKind) : Bool := ((rules k.classOf).map Prod.fst).all fun n =>
  match GaussTable.newSized k.classOf n with
  | .ok g => if k.nnode ≤ n then checkLeft (pq k g.data) k.nnode else deficient k n || checkLeft (pqT k g.data) n
  | _ => false

theorem chkRank_lin2 : chkRank .lin2 = true := by decide +kernel
theorem chkRank_lin3 : chkRank .lin3 = true := by decide +kernel
theorem chkRank_lin4 : chkRank .lin4 = true := by decide +kernel
theorem chkRank_lin5 : chkRank .lin5 = true := by decide +kernel
theorem chkRank_tri3 : chkRank .tri3 = true := by decide +kernel
theorem chkRank_tri6 : chkRank .tri6 = true := by decide +kernel
theorem chkRank_tri10 : chkRank .tri10 = true := by decide +kernel
theorem chkRank_tri15 : chkRank .tri15 = true := by decide +kernel
theorem chkRank_qua4 : chkRank .qua4 = true := by decide +kernel
theorem chkRank_qua8 : chkRank .qua8 = true := by decide +kernel
theorem chkRank_qua9 : chkRank .qua9 = true := by decide +kernel
theorem chkRank_qua12 : chkRank .qua12 = true := by decide +kernel
theorem chkRank_qua16 : chkRank .qua16 = true := by decide +kernel
theorem chkRank_qua17 : chkRank .qua17 = true := by decide +kernel
theorem chkRank_tet4 : chkRank .tet4 = true := by decide +kernel
theorem chkRank_tet10 : chkRank .tet10 = true := by decide +kernel
theorem chkRank_hex8 : chkRank .hex8 = true := by decide +kernel

/-- Entry `l` of the point, completed with 1. -/
def hatAt (d : Nat) (r : GaussRow) (l : Nat) : ℚ := if l < d then GaussRow.get r l else 1

/-- `|B·ξ̂ - I| ≤ 2·10⁻¹⁵`. -/
def chkResid (cls : GeoClass) (d : Nat) : Bool := ((rules cls).map Prod.fst).all fun n => n == 1 ||
  match GaussTable.newSized cls n, getTrPinvHxi cls n with
  | .ok g, .ok b => b.length == n && (List.range (d + 1)).all fun i => (List.range (d + 1)).all fun l =>
      decide (|((List.range n).map fun j => GaussRow.get (b.getD j (0, 0, 0, 0)) i * hatAt d (g.data.getD j (0, 0, 0, 0)) l).sum - (if i = l then 1 else 0)| ≤ 2 / 10 ^ 15)
  | _, _ => false

theorem chkResid_ok (k : GeoKind) : chkResid k.classOf k.ndim = true := by cases k <;> decide +kernel

end Gemlab.Recov
