import Verif.Model.ShapeFns
import Verif.Model.Mesh
import Mathlib.LinearAlgebra.Matrix.Determinant.Basic
import Mathlib.Analysis.SpecialFunctions.Pow.Real

/-!
# Model of `/repo/src/shapes/scratchpad*.rs` and of the mesh functions that fill a scratchpad

Simplifications: vectors and matrices are functions of their indices (their dimensions follow from `kind` and `spaceNdim`:
`interp` has `nnode` entries, `deriv` is `nnode × geo_ndim`, `jacobian` is `space_ndim × geo_ndim`, `xxt` is `space_ndim × nnode`);
the reference coordinates `ksi` are a function (a slice with at least `geo_ndim` entries); exact real arithmetic. When a
function fails, the partially updated internal arrays are not modelled. `mat_inverse` of `russell_lab` is not part of the
repository: it is the parameter `inv`, with the contract `InverseSpec`.
-/
namespace Gemlab
open Gemlab.Shapes
noncomputable section

/-- `Scratchpad` — scratchpad.rs:61-116. `xxt i m` is coordinate `i` of node `m`. -/
structure Scratchpad where
  kind : GeoKind
  spaceNdim : Nat
  interp : Nat → ℝ
  deriv : Nat → Nat → ℝ
  jacobian : Nat → Nat → ℝ
  invJacobian : Nat → Nat → ℝ
  gradient : Nat → Nat → ℝ
  xxt : Nat → Nat → ℝ
  okXxt : Bool

/-- `russell_lab::mat_inverse`: of an `n × n` matrix; returns the determinant and the inverse, or fails. -/
abbrev MatInverse := Nat → (Nat → Nat → ℝ) → Res (ℝ × (Nat → Nat → ℝ))

/-- Determinant of the leading `n × n` block. -/
def detN (n : Nat) (a : Nat → Nat → ℝ) : ℝ := Matrix.det (Matrix.of fun i j : Fin n => a i j)

/-- Contract of `mat_inverse`: if it succeeds it returns the determinant and a right inverse. -/
def InverseSpec (inv : MatInverse) : Prop :=
  ∀ n a d b, inv n a = .ok (d, b) → d = detN n a ∧
    ∀ i < n, ∀ j < n, ∑ k ∈ Finset.range n, a i k * b k j = if i = j then 1 else 0

namespace Scratchpad

/-- `Scratchpad::new` — scratchpad.rs:152-182. -/
def new (spaceNdim : Nat) (kind : GeoKind) : Res Scratchpad :=
  if spaceNdim < 2 ∨ spaceNdim > 3 then .err "space_ndim must be 2 or 3"
  else if kind.ndim > spaceNdim then .err "geo_ndim cannot be greater than space_ndim"
  else .ok { kind := kind, spaceNdim := spaceNdim, interp := fun _ => 0, deriv := fun _ _ => 0, jacobian := fun _ _ => 0,
             invJacobian := fun _ _ => 0, gradient := fun _ _ => 0, xxt := fun _ _ => 0, okXxt := false }

/-- `Scratchpad::set_xx` — scratchpad.rs:262-269. -/
def setXx (pad : Scratchpad) (m j : Nat) (value : ℝ) : Res Scratchpad :=
  if j < pad.spaceNdim ∧ m < pad.kind.nnode then
    .ok { pad with xxt := fun j' m' => if j' = j ∧ m' = m then value else pad.xxt j' m',
                   okXxt := decide (m = pad.kind.nnode - 1 ∧ j = pad.spaceNdim - 1) }
  else .panic

/-- `Scratchpad::calc_interp` — scratchpad.rs:297-299. -/
def calcInterp (pad : Scratchpad) (ksi : Nat → ℝ) : Scratchpad := { pad with interp := Shapes.calcInterp pad.kind ksi }

/-- `Scratchpad::calc_coords` — scratchpad_calc_coords.rs:62-73; `xdim` is the dimension of the output vector. -/
def calcCoords (pad : Scratchpad) (xdim : Nat) (ksi : Nat → ℝ) : Res ((Nat → ℝ) × Scratchpad) :=
  if !pad.okXxt then .err "all components of the coordinates matrix must be set first"
  else if xdim ≠ pad.spaceNdim then .err "x.dim() must be equal to space_ndim"
  else
    let pad := pad.calcInterp ksi
    .ok (fun i => ∑ m ∈ Finset.range pad.kind.nnode, pad.xxt i m * pad.interp m, pad)

/-- The computation of `L` and `J = Xᵀ·L` shared by the following functions — scratchpad_calc_jacobian.rs:107-111,
scratchpad_calc_normal_vector.rs:124-128. -/
def fillJacobian (pad : Scratchpad) (ksi : Nat → ℝ) : Scratchpad :=
  let deriv := Shapes.calcDeriv pad.kind ksi
  { pad with deriv := deriv, jacobian := fun i j => ∑ m ∈ Finset.range pad.kind.nnode, pad.xxt i m * deriv m j }

/-- `Scratchpad::calc_jacobian` — scratchpad_calc_jacobian.rs:101-131 (`DET_JAC_NOT_AVAILABLE = -1`, line 8). -/
def calcJacobian (inv : MatInverse) (pad : Scratchpad) (ksi : Nat → ℝ) : Res (ℝ × Scratchpad) :=
  if !pad.okXxt then .err "all components of the coordinates matrix must be set first"
  else
    let pad := pad.fillJacobian ksi
    if pad.kind.ndim = pad.spaceNdim then do
      let (det, ji) ← inv pad.spaceNdim pad.jacobian
      .ok (det, { pad with invJacobian := ji })
    else if pad.kind.ndim = 1 then
      .ok (Real.sqrt (∑ i ∈ Finset.range pad.spaceNdim, pad.jacobian i 0 * pad.jacobian i 0), pad)
    else .ok (-1, pad)

/-- `Scratchpad::calc_gradient` — scratchpad_calc_gradient.rs:78-91. -/
def calcGradient (inv : MatInverse) (pad : Scratchpad) (ksi : Nat → ℝ) : Res (ℝ × Scratchpad) :=
  if pad.kind.ndim ≠ pad.spaceNdim then .err "calc_gradient requires that geo_ndim = space_ndim"
  else do
    let (det, pad) ← calcJacobian inv pad ksi
    .ok (det, { pad with gradient := fun m j => ∑ k ∈ Finset.range pad.spaceNdim, pad.deriv m k * pad.invJacobian k j })

/-- `Scratchpad::calc_normal_vector` — scratchpad_calc_normal_vector.rs:111-173; returns the magnitude, the vector `un` and the
pad; `udim` is the dimension of `un`. (`ok_xxt` is not tested.) -/
def calcNormalVector (pad : Scratchpad) (udim : Nat) (ksi : Nat → ℝ) : Res (ℝ × (Nat → ℝ) × Scratchpad) :=
  if pad.spaceNdim = 2 ∧ pad.kind.ndim ≠ 1 then .err "calc_normal_vector requires geo_ndim = 1 in 2D (CABLE in 2D)"
  else if pad.spaceNdim = 3 ∧ pad.kind.ndim ≠ 2 then .err "calc_normal_vector requires geo_ndim = 2 in 3D (SHELL in 3D)"
  else if udim ≠ pad.spaceNdim then .err "un.dim() must be equal to space_ndim"
  else
    let pad := pad.fillJacobian ksi
    let jj := pad.jacobian
    if pad.spaceNdim = 2 then
      let u0 := - jj 1 0
      let u1 := jj 0 0
      let mag := Real.sqrt (u0 * u0 + u1 * u1)
      .ok (mag, (fun i => if mag > 0 then (if i = 0 then u0 / mag else u1 / mag) else (if i = 0 then u0 else u1)), pad)
    else
      let u0 := jj 1 0 * jj 2 1 - jj 2 0 * jj 1 1
      let u1 := jj 2 0 * jj 0 1 - jj 0 0 * jj 2 1
      let u2 := jj 0 0 * jj 1 1 - jj 1 0 * jj 0 1
      let mag := Real.sqrt (u0 * u0 + u1 * u1 + u2 * u2)
      .ok (mag, (fun i => if mag > 0 then (if i = 0 then u0 / mag else if i = 1 then u1 / mag else u2 / mag)
                          else (if i = 0 then u0 else if i = 1 then u1 else u2)), pad)

/-- Limits of the coordinates of the nodes along direction `j`, the first guess — scratchpad_approximate_ksi.rs:88-96. -/
def nodeMin (big : ℝ) (pad : Scratchpad) (j : Nat) : ℝ := (List.range pad.kind.nnode).foldl (fun acc m => min acc (pad.xxt j m)) big
def nodeMax (low : ℝ) (pad : Scratchpad) (j : Nat) : ℝ := (List.range pad.kind.nnode).foldl (fun acc m => max acc (pad.xxt j m)) low

/-- First guess — scratchpad_approximate_ksi.rs:83-99; `big` and `low` stand for `f64::MAX` and `f64::MIN`. (A zero extent gives NaN or
infinity in Rust; here a division by zero is zero.) -/
def guessKsi (big low : ℝ) (pad : Scratchpad) (x : Nat → ℝ) (j : Nat) : ℝ :=
  let (kmin, kdel) := if pad.kind.isTriOrTet then ((0 : ℝ), (1 : ℝ)) else (-1, 2)
  kmin + kdel * (x j - nodeMin big pad j) / (nodeMax low pad j - nodeMin big pad j)

/-- The iterations — scratchpad_approximate_ksi.rs:105-127; `fuel` is `nit_max - it`. -/
def ksiLoop (inv : MatInverse) (x : Nat → ℝ) (tol : ℝ) : (fuel it : Nat) → Scratchpad → (Nat → ℝ) → Res (Nat × (Nat → ℝ) × Scratchpad)
  | 0, _, _, _ => .err "approximate_ksi failed to converge"
  | fuel + 1, it, pad, ksi => do
    let (xAt, pad) ← calcCoords pad pad.spaceNdim ksi
    let residual := fun i => x i - xAt i
    if Real.sqrt (∑ i ∈ Finset.range pad.spaceNdim, residual i * residual i) ≤ tol then .ok (it, ksi, pad)
    else do
      let (_, pad) ← calcJacobian inv pad ksi
      let ksi := fun j => if j < pad.kind.ndim then ksi j + ∑ i ∈ Finset.range pad.spaceNdim, pad.invJacobian j i * residual i else ksi j
      ksiLoop inv x tol fuel (it + 1) pad ksi

/-- `Scratchpad::approximate_ksi` — scratchpad_approximate_ksi.rs:63-128; returns the number of iterations and the final `ksi`;
`xdim`, `kdim` are the lengths of `x` and `ksi`. -/
def approximateKsi (inv : MatInverse) (big low : ℝ) (pad : Scratchpad) (kdim xdim : Nat) (x : Nat → ℝ) (nitMax : Nat) (tol : ℝ) :
    Res (Nat × (Nat → ℝ) × Scratchpad) :=
  if pad.kind.ndim ≠ pad.spaceNdim then .err "approximate_ksi requires that geo_ndim = space_ndim"
  else if xdim ≠ pad.spaceNdim then .err "x.dim() must be equal to space_ndim"
  else if kdim ≠ pad.kind.ndim then .err "ksi.len() must be equal to geo_ndim = space_ndim"
  else ksiLoop inv x tol nitMax 0 pad (guessKsi big low pad x)

end Scratchpad

namespace Mesh

/-- `Mesh::set_pad` — mesh.rs:448-456. -/
def setPad (m : Mesh ℝ) (pad : Scratchpad) (points : List Nat) : Res Scratchpad :=
  if pad.kind.nnode ≠ points.length then .panic
  else (List.range pad.kind.nnode).foldlM (fun pad n =>
    (List.range m.ndim).foldlM (fun pad j => do
      let id ← Res.idx points n
      let p ← Res.idx m.points id
      let v ← Res.idx p.coords j
      pad.setXx n j v) pad) pad

/-- `Mesh::get_pad` — mesh.rs:464-469. -/
def getPad (m : Mesh ℝ) (cellId : Nat) : Res Scratchpad := do
  let cell ← Res.idx m.cells cellId
  match Scratchpad.new m.ndim cell.kind with
  | .ok pad => setPad m pad cell.points
  | _ => .panic

/-- `Mesh::check_jacobian` — check.rs:43-58 (`GeoCase::new(geo_ndim, space_ndim) == Shell` is `geo_ndim = 2`, `space_ndim = 3`). -/
def checkJacobian (inv : MatInverse) (m : Mesh ℝ) : Res Unit :=
  m.cells.forM fun cell => do
    let pad ← Scratchpad.new m.ndim cell.kind
    let pad ← setPad m pad cell.points
    let (det, _) ← pad.calcJacobian inv (fun _ => 1 / 3)
    if cell.kind.ndim = 2 ∧ m.ndim = 3 then (if det = -1 then pure () else .panic)
    else if det < 0 then .err "negative determinant of Jacobian found" else pure ()

end Mesh
end
end Gemlab
