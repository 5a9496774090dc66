import Verif.Model.RecoveryTables
import Verif.Model.Scratchpad

/-!
# Model of `/repo/src/recovery`

Matrices are functions of their indices, with the dimensions `nnode` (nodes) and `npoint` (integration points); exact real arithmetic.
`mat_inverse` and `mat_pseudo_inverse` of `russell_lab` are not part of the repository: they are the parameters `inv` and `pinv`, with the
contracts `InverseSpec` and `PinvSpec`.
-/
namespace Gemlab
open Gemlab.Shapes
noncomputable section

/-- `russell_lab::mat_pseudo_inverse` of an `m × n` matrix. -/
abbrev MatPseudoInverse := Nat → Nat → (Nat → Nat → ℝ) → Res (Nat → Nat → ℝ)

/-- The leading `m × n` block. -/
def toM (m n : Nat) (a : Nat → Nat → ℝ) : Matrix (Fin m) (Fin n) ℝ := Matrix.of fun i j => a i j

/-- The Moore–Penrose conditions. -/
structure IsPinv (m n : Nat) (a x : Nat → Nat → ℝ) : Prop where
  axa : toM m n a * toM n m x * toM m n a = toM m n a
  xax : toM n m x * toM m n a * toM n m x = toM n m x
  ax : (toM m n a * toM n m x).transpose = toM m n a * toM n m x
  xa : (toM n m x * toM m n a).transpose = toM n m x * toM m n a

/-- Contract of `mat_pseudo_inverse`: if it succeeds, it returns the Moore–Penrose inverse. -/
def PinvSpec (pinv : MatPseudoInverse) : Prop := ∀ m n a x, pinv m n a = .ok x → IsPinv m n a x

/-- `get_interp_matrix` — get_interp_matrix.rs:87-98. (Also returns the modified pad.) -/
def getInterpMatrix (pad : Scratchpad) (g : Gauss) : (Nat → Nat → ℝ) × Scratchpad :=
  (List.range g.npoint).foldl (fun s p =>
    let pad := s.2.calcInterp (g.coords p)
    (fun p' j => if p' = p ∧ j < pad.kind.nnode then pad.interp j else s.1 p' j, pad)) (fun _ _ => 0, pad)

/-- `get_points_coords` — get_point_coords.rs:61-71. -/
def getPointsCoords (pad : Scratchpad) (g : Gauss) : Res (List (Nat → ℝ)) :=
  (·.1) <$> (List.range g.npoint).foldlM (fun (s : List (Nat → ℝ) × Scratchpad) p => do
    let r ← s.2.calcCoords s.2.spaceNdim (g.coords p)
    pure (s.1 ++ [r.1], r.2)) ([], pad)

/-- Entry `k` of row `j` of the table. -/
def bbtAt (bbt : List GaussRow) (j k : Nat) : ℝ :=
  ((GaussRow.get (bbt.getD j (0, 0, 0, 0)) k : ℚ) : ℝ)

/-- The correction of the pseudo-inverse if there are fewer points than nodes — get_extrap_matrix.rs:155-193. -/
def extrapCorrected (kind : GeoKind) (g : Gauss) (bbt : List GaussRow) (ppi : Nat → Nat → ℝ) (i j : Nat) : ℝ :=
  let nd := kind.ndim
  let aa : Nat → Nat → ℝ := fun i j => (if i = j then 1 else 0) - (∑ k ∈ Finset.range nd, g.coords i k * bbtAt bbt j k + 1 * bbtAt bbt j nd)
  (∑ k ∈ Finset.range nd, refCoord kind i k * bbtAt bbt j k + 1 * bbtAt bbt j nd) + ∑ k ∈ Finset.range g.npoint, ppi i k * aa k j

/-- `get_extrap_matrix` — get_extrap_matrix.rs:129-196. -/
def getExtrapMatrix (inv : MatInverse) (pinv : MatPseudoInverse) (pad : Scratchpad) (g : Gauss) : Res (Nat → Nat → ℝ) :=
  let nv := pad.kind.nnode
  let np := g.npoint
  let pp := (getInterpMatrix pad g).1
  if np = nv then do
    let r ← inv nv pp
    pure r.2
  else if np > nv then pinv np nv pp
  else if np = 1 then pinv np nv pp
  else do
    let ppi ← pinv np nv pp
    let bbt ← getTrPinvHxi pad.kind.classOf np
    pure (extrapCorrected pad.kind g bbt ppi)

end
end Gemlab
