import Verif.Model.Scratchpad

/-!
# Model of `/repo/src/integ` (the numerical integration of coefficients and matrices)

Simplifications: exact real arithmetic. A vector (matrix) is its dimension(s) and a function of the indices. The calls to `a[i] += v` or
`kk.add(i, j, v)` made at one integration point are collected in a list in the order in which they are made and then carried out
(`runPoints`); in each routine all fallible operations of a point come before its additions. A callback `FnMut` is a pure
function of the point index and of the arrays that it receives, and returns the new value of the auxiliary vector or tensor: in one
call of a routine, each index `p` is used once, so that a callback with internal state, or one that changes only part of
the auxiliary array, is also such a function. A symmetric `Tensor2` is its Mandel vector (4 components in 2D, 6 in 3D), and a minor-symmetric
`Tensor4` is its Mandel matrix. The routines return the output and the final pad, or the failure *with the output as it was left*.
-/
namespace Gemlab
open Gemlab.Shapes
noncomputable section

/-- `russell_lab::Vector`. -/
structure Vec where
  dim : Nat
  val : Nat → ℝ

/-- `russell_lab::Matrix`. -/
structure Mat where
  nrow : Nat
  ncol : Nat
  val : Nat × Nat → ℝ

/-- `Gauss` — gauss.rs:48-70, 263-304: point `p` has the coordinates `data[p][0..3]` and the weight `data[p][3]`. -/
structure Gauss where
  npoint : Nat
  data : Nat → Nat → ℝ

/-- `Gauss::coords` — gauss.rs:283-285. -/
def Gauss.coords (g : Gauss) (p : Nat) : Nat → ℝ := g.data p

/-- `Gauss::weight` — gauss.rs:302-304. -/
def Gauss.weight (g : Gauss) (p : Nat) : ℝ := g.data p 3

/-- `CommonArgs` — common_args.rs:5-29. -/
structure CommonArgs where
  pad : Scratchpad
  gauss : Gauss
  clear : Bool
  axisymmetric : Bool
  alpha : ℝ
  ii0 : Nat
  jj0 : Nat

/-- `CommonArgs::new` — common_args.rs:33-43. -/
def CommonArgs.new (pad : Scratchpad) (gauss : Gauss) : CommonArgs :=
  { pad := pad, gauss := gauss, clear := true, axisymmetric := false, alpha := 1, ii0 := 0, jj0 := 0 }

namespace Integ

/-- `x[i] += v`, a panic if the index is out of range. -/
def addAt {I : Type} [DecidableEq I] (inside : I → Bool) (val : I → ℝ) (e : I × ℝ) : Res (I → ℝ) :=
  if inside e.1 then .ok (fun i => if i = e.1 then val i + e.2 else val i) else .panic

/-- A sequence of additions. -/
def addAll {I : Type} [DecidableEq I] (inside : I → Bool) (val : I → ℝ) (l : List (I × ℝ)) : Res (I → ℝ) :=
  l.foldlM (addAt inside) val

/-- The loop `for p in 0..args.gauss.npoint()` of all routines (`fuel` points starting at `p`); `step` gives the additions of one point. -/
def runPoints {I σ : Type} [DecidableEq I] (inside : I → Bool) (step : Nat → σ → Res (σ × List (I × ℝ))) :
    (fuel p : Nat) → σ → (I → ℝ) → (I → ℝ) × Res σ
  | 0, _, s, val => (val, .ok s)
  | fuel + 1, p, s, val =>
    match step p s with
    | .ok (s', l) =>
      match addAll inside val l with
      | .ok val' => runPoints inside step fuel (p + 1) s' val'
      | .err e => (val, .err e)
      | .panic => (val, .panic)
    | .err e => (val, .err e)
    | .panic => (val, .panic)

/-- The main part of a routine with a vector output: `if args.clear { a.fill(0.0) }` and the loop (e.g. vec_01_ns.rs:94-129). -/
def runVec {σ : Type} (a : Vec) (clear : Bool) (npoint : Nat) (s : σ) (step : Nat → σ → Res (σ × List (Nat × ℝ))) : Vec × Res σ :=
  let r := runPoints (fun i => decide (i < a.dim)) step npoint 0 s (if clear then fun _ => 0 else a.val)
  ({ a with val := r.1 }, r.2)

/-- The main part of a routine with a matrix output (e.g. mat_01_nsn.rs:63-101). -/
def runMat {σ : Type} (kk : Mat) (clear : Bool) (npoint : Nat) (s : σ) (step : Nat → σ → Res (σ × List ((Nat × Nat) × ℝ))) : Mat × Res σ :=
  let r := runPoints (fun i => decide (i.1 < kk.nrow ∧ i.2 < kk.ncol)) step npoint 0 s (if clear then fun _ => 0 else kk.val)
  ({ kk with val := r.1 }, r.2)

/-- Radius at the integration point (e.g. vec_01_ns.rs:115-118). -/
def radius (pad : Scratchpad) : ℝ := ∑ m ∈ Finset.range pad.kind.nnode, pad.interp m * pad.xxt 0 m

/-- `SQRT_2`. -/
def sqrt2 : ℝ := Real.sqrt 2

/-- `scalar_field` — scalar_field.rs:31-54. -/
def scalarField (inv : MatInverse) (pad : Scratchpad) (gauss : Gauss) (fnS : Nat → Res ℝ) : Res ℝ := do
  let (ii, _) ← (List.range gauss.npoint).foldlM (fun (acc : ℝ × Scratchpad) p => do
    let (detJac, pad) ← acc.2.calcJacobian inv (gauss.coords p)
    let s ← fnS p
    Res.ok (acc.1 + s * detJac * gauss.weight p, pad)) (0, pad)
  .ok ii

/-- `vec_01_ns` — vec_01_ns.rs:83-130. -/
def vec01Ns (inv : MatInverse) (a : Vec) (args : CommonArgs) (fnS : Nat → (Nat → ℝ) → Res ℝ) : Vec × Res Scratchpad :=
  let nnode := args.pad.kind.nnode
  let ii0 := args.ii0
  if a.dim < ii0 + nnode then (a, .err "a.len() must be ≥ ii0 + nnode")
  else runVec a args.clear args.gauss.npoint args.pad fun p pad => do
    let iota := args.gauss.coords p
    let weight := args.gauss.weight p
    let pad := pad.calcInterp iota
    let (detJac, pad) ← pad.calcJacobian inv iota
    let nn := pad.interp
    let s ← fnS p nn
    let coef := if args.axisymmetric then s * detJac * weight * args.alpha * radius pad else s * detJac * weight * args.alpha
    .ok (pad, (List.range nnode).map fun m => (ii0 + m, nn m * coef))

/-- `vec_01_ns_bry` — vec_01_ns_bry.rs:54-111. -/
def vec01NsBry (a : Vec) (args : CommonArgs) (fnS : Nat → (Nat → ℝ) → (Nat → ℝ) → Res ℝ) : Vec × Res Scratchpad :=
  let nnode := args.pad.kind.nnode
  let d := args.pad.spaceNdim
  let ii0 := args.ii0
  if d = 2 ∧ args.pad.kind.ndim ≠ 1 then (a, .err "in 2D, geometry ndim must be equal to 1 (a line)")
  else if d = 3 ∧ args.pad.kind.ndim ≠ 2 then (a, .err "in 3D, geometry ndim must be equal to 2 (a surface)")
  else if a.dim < ii0 + nnode then (a, .err "a.len() must be ≥ ii0 + nnode")
  else runVec a args.clear args.gauss.npoint args.pad fun p pad => do
    let iota := args.gauss.coords p
    let weight := args.gauss.weight p
    let pad := pad.calcInterp iota
    let (magN, un, pad) ← pad.calcNormalVector d iota
    let nn := pad.interp
    let s ← fnS p un nn
    let coef := if args.axisymmetric then s * magN * weight * args.alpha * radius pad else s * magN * weight * args.alpha
    .ok (pad, (List.range nnode).map fun m => (ii0 + m, nn m * coef))

/-- `vec_02_nv` — vec_02_nv.rs:85-144. -/
def vec02Nv (inv : MatInverse) (b : Vec) (args : CommonArgs) (fnV : Nat → (Nat → ℝ) → Res (Nat → ℝ)) : Vec × Res Scratchpad :=
  let nnode := args.pad.kind.nnode
  let d := args.pad.spaceNdim
  let ii0 := args.ii0
  if b.dim < ii0 + nnode * d then (b, .err "b.len() must be ≥ ii0 + nnode ⋅ space_ndim")
  else runVec b args.clear args.gauss.npoint args.pad fun p pad => do
    let iota := args.gauss.coords p
    let weight := args.gauss.weight p
    let pad := pad.calcInterp iota
    let (detJac, pad) ← pad.calcJacobian inv iota
    let nn := pad.interp
    let v ← fnV p nn
    let coef := if args.axisymmetric then detJac * weight * args.alpha * radius pad else detJac * weight * args.alpha
    .ok (pad,
      if d = 2 then
        (List.range nnode).flatMap fun m => [
          (ii0 + 0 + m * 2, coef * nn m * v 0),
          (ii0 + 1 + m * 2, coef * nn m * v 1)]
      else
        (List.range nnode).flatMap fun m => [
          (ii0 + 0 + m * 3, coef * nn m * v 0),
          (ii0 + 1 + m * 3, coef * nn m * v 1),
          (ii0 + 2 + m * 3, coef * nn m * v 2)])

/-- `vec_02_nv_bry` — vec_02_nv_bry.rs:61-128. -/
def vec02NvBry (b : Vec) (args : CommonArgs) (fnV : Nat → (Nat → ℝ) → (Nat → ℝ) → Res (Nat → ℝ)) : Vec × Res Scratchpad :=
  let nnode := args.pad.kind.nnode
  let d := args.pad.spaceNdim
  let ii0 := args.ii0
  if d = 2 ∧ args.pad.kind.ndim ≠ 1 then (b, .err "in 2D, geometry ndim must be equal to 1 (a line)")
  else if d = 3 ∧ args.pad.kind.ndim ≠ 2 then (b, .err "in 3D, geometry ndim must be equal to 2 (a surface)")
  else if b.dim < ii0 + nnode * d then (b, .err "b.len() must be ≥ ii0 + nnode ⋅ space_ndim")
  else runVec b args.clear args.gauss.npoint args.pad fun p pad => do
    let iota := args.gauss.coords p
    let weight := args.gauss.weight p
    let pad := pad.calcInterp iota
    let (magN, un, pad) ← pad.calcNormalVector d iota
    let nn := pad.interp
    let v ← fnV p un nn
    let coef := if args.axisymmetric then magN * weight * args.alpha * radius pad else magN * weight * args.alpha
    .ok (pad,
      if d = 2 then
        (List.range nnode).flatMap fun m => [
          (ii0 + 0 + m * 2, coef * nn m * v 0),
          (ii0 + 1 + m * 2, coef * nn m * v 1)]
      else
        (List.range nnode).flatMap fun m => [
          (ii0 + 0 + m * 3, coef * nn m * v 0),
          (ii0 + 1 + m * 3, coef * nn m * v 1),
          (ii0 + 2 + m * 3, coef * nn m * v 2)])

/-- `vec_03_bv` — vec_03_bv.rs:84-141. -/
def vec03Bv (inv : MatInverse) (c : Vec) (args : CommonArgs) (fnW : Nat → (Nat → ℝ) → (Nat → Nat → ℝ) → Res (Nat → ℝ)) : Vec × Res Scratchpad :=
  let nnode := args.pad.kind.nnode
  let d := args.pad.spaceNdim
  let ii0 := args.ii0
  if c.dim < ii0 + nnode then (c, .err "c.len() must be ≥ ii0 + nnode")
  else runVec c args.clear args.gauss.npoint args.pad fun p pad => do
    let iota := args.gauss.coords p
    let weight := args.gauss.weight p
    let pad := pad.calcInterp iota
    let (detJac, pad) ← pad.calcGradient inv iota
    let nn := pad.interp
    let bb := pad.gradient
    let w ← fnW p nn bb
    let coef := if args.axisymmetric then detJac * weight * args.alpha * radius pad else detJac * weight * args.alpha
    .ok (pad,
      if d = 2 then (List.range nnode).map fun m => (ii0 + m, coef * (w 0 * bb m 0 + w 1 * bb m 1))
      else (List.range nnode).map fun m => (ii0 + m, coef * (w 0 * bb m 0 + w 1 * bb m 1 + w 2 * bb m 2)))

/-- The additions of `add_to_d` — vec_04_bt.rs:146-163. -/
def addToD (ii0 ndim nnode : Nat) (c : ℝ) (t : Nat → ℝ) (b : Nat → Nat → ℝ) : List (Nat × ℝ) :=
  let s := sqrt2
  if ndim = 2 then
    (List.range nnode).flatMap fun m => [
      (ii0 + 0 + m * 2, c * (t 0 * b m 0 + t 3 * b m 1 / s)),
      (ii0 + 1 + m * 2, c * (t 3 * b m 0 / s + t 1 * b m 1))]
  else
    (List.range nnode).flatMap fun m => [
      (ii0 + 0 + m * 3, c * (t 0 * b m 0 + t 3 * b m 1 / s + t 5 * b m 2 / s)),
      (ii0 + 1 + m * 3, c * (t 3 * b m 0 / s + t 1 * b m 1 + t 4 * b m 2 / s)),
      (ii0 + 2 + m * 3, c * (t 5 * b m 0 / s + t 4 * b m 1 / s + t 2 * b m 2))]

/-- The additions of `add_to_d_axisymmetric` — vec_04_bt.rs:167-177. -/
def addToDAxisymmetric (ii0 nnode : Nat) (c r : ℝ) (t nn : Nat → ℝ) (b : Nat → Nat → ℝ) : List (Nat × ℝ) :=
  let s := sqrt2
  (List.range nnode).flatMap fun m => [
    (ii0 + 0 + m * 2, c * r * (t 0 * b m 0 + t 3 * b m 1 / s) + c * nn m * t 2),
    (ii0 + 1 + m * 2, c * r * (t 3 * b m 0 / s + t 1 * b m 1))]

/-- `vec_04_bt` — vec_04_bt.rs:93-142. -/
def vec04Bt (inv : MatInverse) (dv : Vec) (args : CommonArgs) (fnSig : Nat → (Nat → ℝ) → (Nat → Nat → ℝ) → Res (Nat → ℝ)) : Vec × Res Scratchpad :=
  let nnode := args.pad.kind.nnode
  let d := args.pad.spaceNdim
  if dv.dim < args.ii0 + nnode * d then (dv, .err "d.len() must be ≥ ii0 + nnode ⋅ space_ndim")
  else if args.axisymmetric && d != 2 then (dv, .err "axisymmetric requires space_ndim = 2")
  else runVec dv args.clear args.gauss.npoint args.pad fun p pad => do
    let iota := args.gauss.coords p
    let weight := args.gauss.weight p
    let pad := pad.calcInterp iota
    let (detJac, pad) ← pad.calcGradient inv iota
    let sig ← fnSig p pad.interp pad.gradient
    let c := detJac * weight * args.alpha
    .ok (pad, if args.axisymmetric then addToDAxisymmetric args.ii0 nnode c (radius pad) sig pad.interp pad.gradient
              else addToD args.ii0 d nnode c sig pad.gradient)

/-- `mat_01_nsn` — mat_01_nsn.rs:48-102. -/
def mat01Nsn (inv : MatInverse) (kk : Mat) (args : CommonArgs) (fnS : Nat → (Nat → ℝ) → (Nat → Nat → ℝ) → Res ℝ) : Mat × Res Scratchpad :=
  let nnode := args.pad.kind.nnode
  let ii0 := args.ii0
  let jj0 := args.jj0
  if kk.nrow < ii0 + nnode then (kk, .err "nrow(K) must be ≥ ii0 + nnode")
  else if kk.ncol < jj0 + nnode then (kk, .err "ncol(K) must be ≥ jj0 + nnode")
  else runMat kk args.clear args.gauss.npoint args.pad fun p pad => do
    let iota := args.gauss.coords p
    let weight := args.gauss.weight p
    let pad := pad.calcInterp iota
    let (detJac, pad) ← pad.calcGradient inv iota
    let nn := pad.interp
    let s ← fnS p nn pad.gradient
    let c := if args.axisymmetric then s * detJac * weight * args.alpha * radius pad else s * detJac * weight * args.alpha
    .ok (pad, (List.range nnode).flatMap fun m => (List.range nnode).map fun n => ((ii0 + m, jj0 + n), nn m * c * nn n))

/-- `mat_01_nsn_bry` — mat_01_nsn_bry.rs:48-111 (`unwrap` of the normal vector, line 86). -/
def mat01NsnBry (kk : Mat) (args : CommonArgs) (fnS : Nat → (Nat → ℝ) → (Nat → ℝ) → Res ℝ) : Mat × Res Scratchpad :=
  let nnode := args.pad.kind.nnode
  let d := args.pad.spaceNdim
  let ii0 := args.ii0
  let jj0 := args.jj0
  if d = 2 ∧ args.pad.kind.ndim ≠ 1 then (kk, .err "in 2D, geometry ndim must be equal to 1 (a line)")
  else if d = 3 ∧ args.pad.kind.ndim ≠ 2 then (kk, .err "in 3D, geometry ndim must be equal to 2 (a surface)")
  else if kk.nrow < ii0 + nnode then (kk, .err "nrow(K) must be ≥ ii0 + nnode")
  else if kk.ncol < jj0 + nnode then (kk, .err "ncol(K) must be ≥ jj0 + nnode")
  else runMat kk args.clear args.gauss.npoint args.pad fun p pad => do
    let iota := args.gauss.coords p
    let weight := args.gauss.weight p
    let pad := pad.calcInterp iota
    let (magN, un, pad) ← (match pad.calcNormalVector d iota with | .ok r => .ok r | _ => .panic)
    let nn := pad.interp
    let s ← fnS p un nn
    let c := if args.axisymmetric then s * magN * weight * args.alpha * radius pad else s * magN * weight * args.alpha
    .ok (pad, (List.range nnode).flatMap fun m => (List.range nnode).map fun n => ((ii0 + m, jj0 + n), nn m * c * nn n))

/-- `mat_02_bvn` — mat_02_bvn.rs:48-121. -/
def mat02Bvn (inv : MatInverse) (kk : Mat) (args : CommonArgs) (fnV : Nat → (Nat → ℝ) → (Nat → Nat → ℝ) → Res (Nat → ℝ)) : Mat × Res Scratchpad :=
  let nnode := args.pad.kind.nnode
  let d := args.pad.spaceNdim
  let ii0 := args.ii0
  let jj0 := args.jj0
  if kk.nrow < ii0 + nnode then (kk, .err "nrow(K) must be ≥ ii0 + nnode")
  else if kk.ncol < jj0 + nnode then (kk, .err "ncol(K) must be ≥ jj0 + nnode")
  else runMat kk args.clear args.gauss.npoint args.pad fun p pad => do
    let iota := args.gauss.coords p
    let weight := args.gauss.weight p
    let pad := pad.calcInterp iota
    let (detJac, pad) ← pad.calcGradient inv iota
    let nn := pad.interp
    let bb := pad.gradient
    let v ← fnV p nn bb
    let c := if args.axisymmetric then detJac * weight * args.alpha * radius pad else detJac * weight * args.alpha
    .ok (pad,
      if d = 2 then
        (List.range nnode).flatMap fun m => (List.range nnode).map fun n =>
          ((ii0 + m, jj0 + n), c * (bb m 0 * v 0 + bb m 1 * v 1) * nn n)
      else
        (List.range nnode).flatMap fun m => (List.range nnode).map fun n =>
          ((ii0 + m, jj0 + n), c * (bb m 0 * v 0 + bb m 1 * v 1 + bb m 2 * v 2) * nn n))

/-- `mat_03_btb` — mat_03_btb.rs:50-131. -/
def mat03Btb (inv : MatInverse) (kk : Mat) (args : CommonArgs) (fnT : Nat → (Nat → ℝ) → (Nat → Nat → ℝ) → Res (Nat → ℝ)) : Mat × Res Scratchpad :=
  let nnode := args.pad.kind.nnode
  let d := args.pad.spaceNdim
  let ii0 := args.ii0
  let jj0 := args.jj0
  if kk.nrow < ii0 + nnode then (kk, .err "nrow(K) must be ≥ ii0 + nnode")
  else if kk.ncol < jj0 + nnode then (kk, .err "ncol(K) must be ≥ jj0 + nnode")
  else
    let s := sqrt2
    runMat kk args.clear args.gauss.npoint args.pad fun p pad => do
    let iota := args.gauss.coords p
    let weight := args.gauss.weight p
    let pad := pad.calcInterp iota
    let (detJac, pad) ← pad.calcGradient inv iota
    let nn := pad.interp
    let bb := pad.gradient
    let t ← fnT p nn bb
    let c := if args.axisymmetric then detJac * weight * args.alpha * radius pad else detJac * weight * args.alpha
    .ok (pad,
      if d = 2 then
        (List.range nnode).flatMap fun m => (List.range nnode).map fun n =>
          ((ii0 + m, jj0 + n),
            c * (bb n 1 * (t 1 * bb m 1 + (t 3 * bb m 0) / s)
                + bb n 0 * (t 0 * bb m 0 + (t 3 * bb m 1) / s)))
      else
        (List.range nnode).flatMap fun m => (List.range nnode).map fun n =>
          ((ii0 + m, jj0 + n),
            c * (bb n 2 * (t 2 * bb m 2 + (t 5 * bb m 0) / s + (t 4 * bb m 1) / s)
                + bb n 1 * (t 1 * bb m 1 + (t 3 * bb m 0) / s + (t 4 * bb m 2) / s)
                + bb n 0 * (t 0 * bb m 0 + (t 3 * bb m 1) / s + (t 5 * bb m 2) / s))))

/-- `mat_04_nsb` — mat_04_nsb.rs:66-139. -/
def mat04Nsb (inv : MatInverse) (kk : Mat) (padB : Scratchpad) (args : CommonArgs)
    (fnS : Nat → (Nat → ℝ) → (Nat → ℝ) → (Nat → Nat → ℝ) → Res ℝ) : Mat × Res (Scratchpad × Scratchpad) :=
  let nnodeB := padB.kind.nnode
  let nnode := args.pad.kind.nnode
  let d := args.pad.spaceNdim
  let ii0 := args.ii0
  let jj0 := args.jj0
  if kk.nrow < ii0 + nnodeB then (kk, .err "nrow(K) must be ≥ ii0 + pad_b.nnode")
  else if kk.ncol < jj0 + nnode * d then (kk, .err "ncol(K) must be ≥ jj0 + pad.nnode ⋅ space_ndim")
  else runMat kk args.clear args.gauss.npoint (args.pad, padB) fun p pads => do
    let iota := args.gauss.coords p
    let weight := args.gauss.weight p
    let padB := pads.2.calcInterp iota
    let pad := pads.1.calcInterp iota
    let (detJac, pad) ← pad.calcGradient inv iota
    let nnb := padB.interp
    let nn := pad.interp
    let bb := pad.gradient
    let s ← fnS p nnb nn bb
    let c := if args.axisymmetric then s * detJac * weight * args.alpha * radius pad else s * detJac * weight * args.alpha
    .ok ((pad, padB),
      if d = 2 then
        (List.range nnodeB).flatMap fun m => (List.range nnode).flatMap fun n => [
          ((ii0 + m, jj0 + 0 + n * 2), nnb m * c * bb n 0),
          ((ii0 + m, jj0 + 1 + n * 2), nnb m * c * bb n 1)]
      else
        (List.range nnodeB).flatMap fun m => (List.range nnode).flatMap fun n => [
          ((ii0 + m, jj0 + 0 + n * 3), nnb m * c * bb n 0),
          ((ii0 + m, jj0 + 1 + n * 3), nnb m * c * bb n 1),
          ((ii0 + m, jj0 + 2 + n * 3), nnb m * c * bb n 2)])

/-- `mat_05_btn` — mat_05_btn.rs:68-166. (Reading a column of `pad_b.gradient` that does not exist, if the two pads have
different space dimensions, is not modelled.) -/
def mat05Btn (inv : MatInverse) (kk : Mat) (padB : Scratchpad) (args : CommonArgs)
    (fnT : Nat → (Nat → Nat → ℝ) → (Nat → ℝ) → (Nat → Nat → ℝ) → Res (Nat → ℝ)) : Mat × Res (Scratchpad × Scratchpad) :=
  let nnodeB := padB.kind.nnode
  let nnode := args.pad.kind.nnode
  let d := args.pad.spaceNdim
  let ii0 := args.ii0
  let jj0 := args.jj0
  if kk.nrow < ii0 + nnodeB then (kk, .err "nrow(K) must be ≥ ii0 + pad_b.nnode")
  else if kk.ncol < jj0 + nnode * d then (kk, .err "ncol(K) must be ≥ jj0 + pad.nnode ⋅ space_ndim")
  else
    let s := sqrt2
    runMat kk args.clear args.gauss.npoint (args.pad, padB) fun p pads => do
    let iota := args.gauss.coords p
    let weight := args.gauss.weight p
    let (_, padB) ← pads.2.calcGradient inv iota
    let pad := pads.1.calcInterp iota
    let (detJac, pad) ← pad.calcGradient inv iota
    let ggb := padB.gradient
    let nn := pad.interp
    let bb := pad.gradient
    let t ← fnT p ggb nn bb
    let c := if args.axisymmetric then detJac * weight * args.alpha * radius pad else detJac * weight * args.alpha
    .ok ((pad, padB),
      if d = 2 then
        (List.range nnodeB).flatMap fun m => (List.range nnode).flatMap fun n => [
          ((ii0 + m, jj0 + 0 + n * 2), c * (ggb m 0 * t 0 + ggb m 1 * t 3 / s) * nn n),
          ((ii0 + m, jj0 + 1 + n * 2), c * (ggb m 0 * t 3 / s + ggb m 1 * t 1) * nn n)]
      else
        (List.range nnodeB).flatMap fun m => (List.range nnode).flatMap fun n => [
          ((ii0 + m, jj0 + 0 + n * 3), c * (ggb m 0 * t 0 + ggb m 1 * t 3 / s + ggb m 2 * t 5 / s) * nn n),
          ((ii0 + m, jj0 + 1 + n * 3), c * (ggb m 0 * t 3 / s + ggb m 1 * t 1 + ggb m 2 * t 4 / s) * nn n),
          ((ii0 + m, jj0 + 2 + n * 3), c * (ggb m 0 * t 5 / s + ggb m 1 * t 4 / s + ggb m 2 * t 2) * nn n)])

/-- `mat_06_nvn` — mat_06_nvn.rs:69-145. -/
def mat06Nvn (inv : MatInverse) (kk : Mat) (args : CommonArgs) (padB : Scratchpad)
    (fnV : Nat → (Nat → ℝ) → (Nat → Nat → ℝ) → (Nat → ℝ) → Res (Nat → ℝ)) : Mat × Res (Scratchpad × Scratchpad) :=
  let nnodeB := padB.kind.nnode
  let nnode := args.pad.kind.nnode
  let d := args.pad.spaceNdim
  let ii0 := args.ii0
  let jj0 := args.jj0
  if kk.nrow < ii0 + nnode * d then (kk, .err "nrow(K) must be ≥ ii0 + pad.nnode ⋅ space_ndim")
  else if kk.ncol < jj0 + nnodeB then (kk, .err "ncol(K) must be ≥ jj0 + pad_b.nnode")
  else runMat kk args.clear args.gauss.npoint (args.pad, padB) fun p pads => do
    let iota := args.gauss.coords p
    let weight := args.gauss.weight p
    let pad := pads.1.calcInterp iota
    let (detJac, pad) ← pad.calcGradient inv iota
    let padB := pads.2.calcInterp iota
    let nn := pad.interp
    let bb := pad.gradient
    let nnb := padB.interp
    let v ← fnV p nn bb nnb
    let c := if args.axisymmetric then detJac * weight * args.alpha * radius pad else detJac * weight * args.alpha
    .ok ((pad, padB),
      if d = 2 then
        (List.range nnode).flatMap fun m => (List.range nnodeB).flatMap fun n => [
          ((ii0 + 0 + m * 2, jj0 + n), c * nn m * v 0 * nnb n),
          ((ii0 + 1 + m * 2, jj0 + n), c * nn m * v 1 * nnb n)]
      else
        (List.range nnode).flatMap fun m => (List.range nnodeB).flatMap fun n => [
          ((ii0 + 0 + m * 3, jj0 + n), c * nn m * v 0 * nnb n),
          ((ii0 + 1 + m * 3, jj0 + n), c * nn m * v 1 * nnb n),
          ((ii0 + 2 + m * 3, jj0 + n), c * nn m * v 2 * nnb n)])

/-- `mat_07_bsn` — mat_07_bsn.rs:69-142. -/
def mat07Bsn (inv : MatInverse) (kk : Mat) (args : CommonArgs) (padB : Scratchpad)
    (fnS : Nat → (Nat → ℝ) → (Nat → Nat → ℝ) → (Nat → ℝ) → Res ℝ) : Mat × Res (Scratchpad × Scratchpad) :=
  let nnodeB := padB.kind.nnode
  let nnode := args.pad.kind.nnode
  let d := args.pad.spaceNdim
  let ii0 := args.ii0
  let jj0 := args.jj0
  if kk.nrow < ii0 + nnode * d then (kk, .err "nrow(K) must be ≥ ii0 + pad.nnode ⋅ space_ndim")
  else if kk.ncol < jj0 + nnodeB then (kk, .err "ncol(K) must be ≥ jj0 + pad_b.nnode")
  else runMat kk args.clear args.gauss.npoint (args.pad, padB) fun p pads => do
    let iota := args.gauss.coords p
    let weight := args.gauss.weight p
    let pad := pads.1.calcInterp iota
    let (detJac, pad) ← pad.calcGradient inv iota
    let padB := pads.2.calcInterp iota
    let nn := pad.interp
    let bb := pad.gradient
    let nnb := padB.interp
    let s ← fnS p nn bb nnb
    let c := if args.axisymmetric then s * detJac * weight * args.alpha * radius pad else s * detJac * weight * args.alpha
    .ok ((pad, padB),
      if d = 2 then
        (List.range nnode).flatMap fun m => (List.range nnodeB).flatMap fun n => [
          ((ii0 + 0 + m * 2, jj0 + n), bb m 0 * c * nnb n),
          ((ii0 + 1 + m * 2, jj0 + n), bb m 1 * c * nnb n)]
      else
        (List.range nnode).flatMap fun m => (List.range nnodeB).flatMap fun n => [
          ((ii0 + 0 + m * 3, jj0 + n), bb m 0 * c * nnb n),
          ((ii0 + 1 + m * 3, jj0 + n), bb m 1 * c * nnb n),
          ((ii0 + 2 + m * 3, jj0 + n), bb m 2 * c * nnb n)])

/-- `mat_08_ntn` — mat_08_ntn.rs:56-137. -/
def mat08Ntn (inv : MatInverse) (kk : Mat) (args : CommonArgs) (fnT : Nat → (Nat → ℝ) → (Nat → Nat → ℝ) → Res (Nat → ℝ)) : Mat × Res Scratchpad :=
  let nnode := args.pad.kind.nnode
  let d := args.pad.spaceNdim
  let ii0 := args.ii0
  let jj0 := args.jj0
  if kk.nrow < ii0 + nnode * d then (kk, .err "nrow(K) must be ≥ ii0 + nnode ⋅ space_ndim")
  else if kk.ncol < jj0 + nnode * d then (kk, .err "ncol(K) must be ≥ jj0 + nnode ⋅ space_ndim")
  else
    let s := sqrt2
    runMat kk args.clear args.gauss.npoint args.pad fun p pad => do
    let iota := args.gauss.coords p
    let weight := args.gauss.weight p
    let pad := pad.calcInterp iota
    let (detJac, pad) ← pad.calcGradient inv iota
    let nn := pad.interp
    let bb := pad.gradient
    let t ← fnT p nn bb
    let c := if args.axisymmetric then detJac * weight * args.alpha * radius pad else detJac * weight * args.alpha
    .ok (pad,
      if d = 2 then
        (List.range nnode).flatMap fun m => (List.range nnode).flatMap fun n => [
          ((ii0 + 0 + m * 2, jj0 + 0 + n * 2), c * nn m * t 0 * nn n),
          ((ii0 + 0 + m * 2, jj0 + 1 + n * 2), c * nn m * t 3 * nn n / s),
          ((ii0 + 1 + m * 2, jj0 + 0 + n * 2), c * nn m * t 3 * nn n / s),
          ((ii0 + 1 + m * 2, jj0 + 1 + n * 2), c * nn m * t 1 * nn n)]
      else
        (List.range nnode).flatMap fun m => (List.range nnode).flatMap fun n => [
          ((ii0 + 0 + m * 3, jj0 + 0 + n * 3), c * nn m * t 0 * nn n),
          ((ii0 + 0 + m * 3, jj0 + 1 + n * 3), c * nn m * t 3 * nn n / s),
          ((ii0 + 0 + m * 3, jj0 + 2 + n * 3), c * nn m * t 5 * nn n / s),
          ((ii0 + 1 + m * 3, jj0 + 0 + n * 3), c * nn m * t 3 * nn n / s),
          ((ii0 + 1 + m * 3, jj0 + 1 + n * 3), c * nn m * t 1 * nn n),
          ((ii0 + 1 + m * 3, jj0 + 2 + n * 3), c * nn m * t 4 * nn n / s),
          ((ii0 + 2 + m * 3, jj0 + 0 + n * 3), c * nn m * t 5 * nn n / s),
          ((ii0 + 2 + m * 3, jj0 + 1 + n * 3), c * nn m * t 4 * nn n / s),
          ((ii0 + 2 + m * 3, jj0 + 2 + n * 3), c * nn m * t 2 * nn n)])

/-- `mat_09_nvb` — mat_09_nvb.rs:54-133. -/
def mat09Nvb (inv : MatInverse) (kk : Mat) (args : CommonArgs) (fnV : Nat → (Nat → ℝ) → (Nat → Nat → ℝ) → Res (Nat → ℝ)) : Mat × Res Scratchpad :=
  let nnode := args.pad.kind.nnode
  let d := args.pad.spaceNdim
  let ii0 := args.ii0
  let jj0 := args.jj0
  if kk.nrow < ii0 + nnode * d then (kk, .err "nrow(K) must be ≥ ii0 + nnode ⋅ space_ndim")
  else if kk.ncol < jj0 + nnode * d then (kk, .err "ncol(K) must be ≥ jj0 + nnode ⋅ space_ndim")
  else runMat kk args.clear args.gauss.npoint args.pad fun p pad => do
    let iota := args.gauss.coords p
    let weight := args.gauss.weight p
    let pad := pad.calcInterp iota
    let (detJac, pad) ← pad.calcGradient inv iota
    let nn := pad.interp
    let bb := pad.gradient
    let v ← fnV p nn bb
    let c := if args.axisymmetric then detJac * weight * args.alpha * radius pad else detJac * weight * args.alpha
    .ok (pad,
      if d = 2 then
        (List.range nnode).flatMap fun m => (List.range nnode).flatMap fun n => [
          ((ii0 + 0 + m * 2, jj0 + 0 + n * 2), c * nn m * v 0 * bb n 0),
          ((ii0 + 0 + m * 2, jj0 + 1 + n * 2), c * nn m * v 0 * bb n 1),
          ((ii0 + 1 + m * 2, jj0 + 0 + n * 2), c * nn m * v 1 * bb n 0),
          ((ii0 + 1 + m * 2, jj0 + 1 + n * 2), c * nn m * v 1 * bb n 1)]
      else
        (List.range nnode).flatMap fun m => (List.range nnode).flatMap fun n => [
          ((ii0 + 0 + m * 3, jj0 + 0 + n * 3), c * nn m * v 0 * bb n 0),
          ((ii0 + 0 + m * 3, jj0 + 1 + n * 3), c * nn m * v 0 * bb n 1),
          ((ii0 + 0 + m * 3, jj0 + 2 + n * 3), c * nn m * v 0 * bb n 2),
          ((ii0 + 1 + m * 3, jj0 + 0 + n * 3), c * nn m * v 1 * bb n 0),
          ((ii0 + 1 + m * 3, jj0 + 1 + n * 3), c * nn m * v 1 * bb n 1),
          ((ii0 + 1 + m * 3, jj0 + 2 + n * 3), c * nn m * v 1 * bb n 2),
          ((ii0 + 2 + m * 3, jj0 + 0 + n * 3), c * nn m * v 2 * bb n 0),
          ((ii0 + 2 + m * 3, jj0 + 1 + n * 3), c * nn m * v 2 * bb n 1),
          ((ii0 + 2 + m * 3, jj0 + 2 + n * 3), c * nn m * v 2 * bb n 2)])

/-- The additions of `add_to_kk` — mat_10_bdb.rs:179-208. -/
def addToKk (ii0 jj0 ndim nnode : Nat) (c : ℝ) (d : Nat → Nat → ℝ) (b : Nat → Nat → ℝ) : List ((Nat × Nat) × ℝ) :=
  let s := sqrt2
  if ndim = 2 then
    (List.range nnode).flatMap fun m => (List.range nnode).flatMap fun n => [
      ((ii0 + 0 + m * 2, jj0 + 0 + n * 2), c * (b m 1*b n 1*d 3 3 + s*b m 1*b n 0*d 3 0 + s*b m 0*b n 1*d 0 3 + 2*b m 0*b n 0*d 0 0) / 2),
      ((ii0 + 0 + m * 2, jj0 + 1 + n * 2), c * (b m 1*b n 0*d 3 3 + s*b m 1*b n 1*d 3 1 + s*b m 0*b n 0*d 0 3 + 2*b m 0*b n 1*d 0 1) / 2),
      ((ii0 + 1 + m * 2, jj0 + 0 + n * 2), c * (b m 0*b n 1*d 3 3 + s*b m 0*b n 0*d 3 0 + s*b m 1*b n 1*d 1 3 + 2*b m 1*b n 0*d 1 0) / 2),
      ((ii0 + 1 + m * 2, jj0 + 1 + n * 2), c * (b m 0*b n 0*d 3 3 + s*b m 0*b n 1*d 3 1 + s*b m 1*b n 0*d 1 3 + 2*b m 1*b n 1*d 1 1) / 2)]
  else
    (List.range nnode).flatMap fun m => (List.range nnode).flatMap fun n => [
      ((ii0 + 0 + m * 3, jj0 + 0 + n * 3), c * (b m 2*b n 2*d 5 5 + b m 2*b n 1*d 5 3 + s*b m 2*b n 0*d 5 0 + b m 1*b n 2*d 3 5 + b m 1*b n 1*d 3 3 + s*b m 1*b n 0*d 3 0 + s*b m 0*b n 2*d 0 5 + s*b m 0*b n 1*d 0 3 + 2*b m 0*b n 0*d 0 0) / 2),
      ((ii0 + 0 + m * 3, jj0 + 1 + n * 3), c * (b m 2*b n 2*d 5 4 + b m 2*b n 0*d 5 3 + s*b m 2*b n 1*d 5 1 + b m 1*b n 2*d 3 4 + b m 1*b n 0*d 3 3 + s*b m 1*b n 1*d 3 1 + s*b m 0*b n 2*d 0 4 + s*b m 0*b n 0*d 0 3 + 2*b m 0*b n 1*d 0 1) / 2),
      ((ii0 + 0 + m * 3, jj0 + 2 + n * 3), c * (b m 2*b n 0*d 5 5 + b m 2*b n 1*d 5 4 + s*b m 2*b n 2*d 5 2 + b m 1*b n 0*d 3 5 + b m 1*b n 1*d 3 4 + s*b m 1*b n 2*d 3 2 + s*b m 0*b n 0*d 0 5 + s*b m 0*b n 1*d 0 4 + 2*b m 0*b n 2*d 0 2) / 2),
      ((ii0 + 1 + m * 3, jj0 + 0 + n * 3), c * (b m 2*b n 2*d 4 5 + b m 2*b n 1*d 4 3 + s*b m 2*b n 0*d 4 0 + b m 0*b n 2*d 3 5 + b m 0*b n 1*d 3 3 + s*b m 0*b n 0*d 3 0 + s*b m 1*b n 2*d 1 5 + s*b m 1*b n 1*d 1 3 + 2*b m 1*b n 0*d 1 0) / 2),
      ((ii0 + 1 + m * 3, jj0 + 1 + n * 3), c * (b m 2*b n 2*d 4 4 + b m 2*b n 0*d 4 3 + s*b m 2*b n 1*d 4 1 + b m 0*b n 2*d 3 4 + b m 0*b n 0*d 3 3 + s*b m 0*b n 1*d 3 1 + s*b m 1*b n 2*d 1 4 + s*b m 1*b n 0*d 1 3 + 2*b m 1*b n 1*d 1 1) / 2),
      ((ii0 + 1 + m * 3, jj0 + 2 + n * 3), c * (b m 2*b n 0*d 4 5 + b m 2*b n 1*d 4 4 + s*b m 2*b n 2*d 4 2 + b m 0*b n 0*d 3 5 + b m 0*b n 1*d 3 4 + s*b m 0*b n 2*d 3 2 + s*b m 1*b n 0*d 1 5 + s*b m 1*b n 1*d 1 4 + 2*b m 1*b n 2*d 1 2) / 2),
      ((ii0 + 2 + m * 3, jj0 + 0 + n * 3), c * (b m 0*b n 2*d 5 5 + b m 0*b n 1*d 5 3 + s*b m 0*b n 0*d 5 0 + b m 1*b n 2*d 4 5 + b m 1*b n 1*d 4 3 + s*b m 1*b n 0*d 4 0 + s*b m 2*b n 2*d 2 5 + s*b m 2*b n 1*d 2 3 + 2*b m 2*b n 0*d 2 0) / 2),
      ((ii0 + 2 + m * 3, jj0 + 1 + n * 3), c * (b m 0*b n 2*d 5 4 + b m 0*b n 0*d 5 3 + s*b m 0*b n 1*d 5 1 + b m 1*b n 2*d 4 4 + b m 1*b n 0*d 4 3 + s*b m 1*b n 1*d 4 1 + s*b m 2*b n 2*d 2 4 + s*b m 2*b n 0*d 2 3 + 2*b m 2*b n 1*d 2 1) / 2),
      ((ii0 + 2 + m * 3, jj0 + 2 + n * 3), c * (b m 0*b n 0*d 5 5 + b m 0*b n 1*d 5 4 + s*b m 0*b n 2*d 5 2 + b m 1*b n 0*d 4 5 + b m 1*b n 1*d 4 4 + s*b m 1*b n 2*d 4 2 + s*b m 2*b n 0*d 2 5 + s*b m 2*b n 1*d 2 4 + 2*b m 2*b n 2*d 2 2) / 2)]

/-- The additions of `add_to_kk_axisymmetric` — mat_10_bdb.rs:213-233. -/
def addToKkAxisymmetric (ii0 jj0 nnode : Nat) (c r : ℝ) (d : Nat → Nat → ℝ) (nn : Nat → ℝ) (b : Nat → Nat → ℝ) : List ((Nat × Nat) × ℝ) :=
  let s := sqrt2
  (List.range nnode).flatMap fun m => (List.range nnode).flatMap fun n => [
      ((ii0 + 0 + m * 2, jj0 + 0 + n * 2), c * r * (b m 1*b n 1*d 3 3 + s*b m 1*b n 0*d 3 0 + s*b m 0*b n 1*d 0 3 + 2*b m 0*b n 0*d 0 0) / 2 + c * (r*nn n*(2*d 0 2*b m 0 + s*d 3 2*b m 1) + nn m*(2*nn n*d 2 2 + 2*r*d 2 0*b n 0 + s*r*d 2 3*b n 1)) / (2*r)),
      ((ii0 + 0 + m * 2, jj0 + 1 + n * 2), c * r * (b m 1*b n 0*d 3 3 + s*b m 1*b n 1*d 3 1 + s*b m 0*b n 0*d 0 3 + 2*b m 0*b n 1*d 0 1) / 2 + c * (nn m*(s*d 2 3*b n 0 + 2*d 2 1*b n 1)) / 2),
      ((ii0 + 1 + m * 2, jj0 + 0 + n * 2), c * r * (b m 0*b n 1*d 3 3 + s*b m 0*b n 0*d 3 0 + s*b m 1*b n 1*d 1 3 + 2*b m 1*b n 0*d 1 0) / 2 + c * (nn n*(s*d 3 2*b m 0 + 2*d 1 2*b m 1)) / 2),
      ((ii0 + 1 + m * 2, jj0 + 1 + n * 2), c * r * (b m 0*b n 0*d 3 3 + s*b m 0*b n 1*d 3 1 + s*b m 1*b n 0*d 1 3 + 2*b m 1*b n 1*d 1 1) / 2)]

/-- `mat_10_bdb` — mat_10_bdb.rs:121-174. -/
def mat10Bdb (inv : MatInverse) (kk : Mat) (args : CommonArgs) (fnD : Nat → (Nat → ℝ) → (Nat → Nat → ℝ) → Res (Nat → Nat → ℝ)) :
    Mat × Res Scratchpad :=
  let nnode := args.pad.kind.nnode
  let d := args.pad.spaceNdim
  if kk.nrow < args.ii0 + nnode * d then (kk, .err "nrow(K) must be ≥ ii0 + nnode ⋅ space_ndim")
  else if kk.ncol < args.jj0 + nnode * d then (kk, .err "ncol(K) must be ≥ jj0 + nnode ⋅ space_ndim")
  else if args.axisymmetric && d != 2 then (kk, .err "axisymmetric requires space_ndim = 2")
  else runMat kk args.clear args.gauss.npoint args.pad fun p pad => do
    let iota := args.gauss.coords p
    let weight := args.gauss.weight p
    let pad := pad.calcInterp iota
    let (detJac, pad) ← pad.calcGradient inv iota
    let dd ← fnD p pad.interp pad.gradient
    let c := detJac * weight * args.alpha
    .ok (pad, if args.axisymmetric then addToKkAxisymmetric args.ii0 args.jj0 nnode c (radius pad) dd pad.interp pad.gradient
              else addToKk args.ii0 args.jj0 d nnode c dd pad.gradient)

/-- `calc_bb_matrix` — mat_10_bdb.rs:238-278; entry (`row`, component `a` of node `i`), i.e. column `a + i * space_ndim`, of the matrix, and
the radius. The entries that are not set keep the value zero given by `Matrix::new` (line 326). -/
def calcBbMatrix (pad : Scratchpad) (axisymmetric : Bool) : (Nat → Nat → Nat → ℝ) × ℝ :=
  let bb := pad.gradient
  let nn := pad.interp
  if pad.spaceNdim = 3 then
    (fun row a i => match row, a with
      | 0, 0 => bb i 0
      | 1, 1 => bb i 1
      | 2, 2 => bb i 2
      | 3, 0 => bb i 1 / sqrt2
      | 4, 1 => bb i 2 / sqrt2
      | 5, 2 => bb i 0 / sqrt2
      | 3, 1 => bb i 0 / sqrt2
      | 4, 2 => bb i 1 / sqrt2
      | 5, 0 => bb i 2 / sqrt2
      | _, _ => 0, 1)
  else if axisymmetric then
    (fun row a i => match row, a with
      | 0, 0 => bb i 0
      | 1, 1 => bb i 1
      | 2, 0 => nn i / radius pad
      | 3, 0 => bb i 1 / sqrt2
      | 3, 1 => bb i 0 / sqrt2
      | _, _ => 0, radius pad)
  else
    (fun row a i => match row, a with
      | 0, 0 => bb i 0
      | 1, 1 => bb i 1
      | 3, 0 => bb i 1 / sqrt2
      | 3, 1 => bb i 0 / sqrt2
      | _, _ => 0, 1)

/-- The additions of `add_to_stiff_mat` — mat_10_bdb.rs:288-301; `bb` has `m` rows and `n` columns (an assertion on the size of `kk`). -/
def addToStiffMat (kk : Mat) (alpha : ℝ) (m n : Nat) (bb dd : Nat → Nat → ℝ) : Res (List ((Nat × Nat) × ℝ)) :=
  if kk.nrow = n ∧ kk.ncol = n then
    .ok ((List.range n).flatMap fun i => (List.range n).flatMap fun j => (List.range m).flatMap fun k => (List.range m).map fun l =>
      ((i, j), alpha * bb k i * dd k l * bb l j))
  else .panic

/-- `mat_10_bdb_alt` — mat_10_bdb.rs:304-354. -/
def mat10BdbAlt (inv : MatInverse) (kk : Mat) (args : CommonArgs) (fnD : Nat → (Nat → ℝ) → (Nat → Nat → ℝ) → Res (Nat → Nat → ℝ)) :
    Mat × Res Scratchpad :=
  let nnode := args.pad.kind.nnode
  let d := args.pad.spaceNdim
  if kk.nrow < args.ii0 + nnode * d then (kk, .err "nrow(K) must be ≥ ii0 + nnode ⋅ space_ndim")
  else if kk.ncol < args.jj0 + nnode * d then (kk, .err "ncol(K) must be ≥ jj0 + nnode ⋅ space_ndim")
  else if args.axisymmetric && d != 2 then (kk, .err "axisymmetric requires space_ndim = 2")
  else runMat kk args.clear args.gauss.npoint args.pad fun p pad => do
    let iota := args.gauss.coords p
    let weight := args.gauss.weight p
    let pad := pad.calcInterp iota
    let (detJac, pad) ← pad.calcGradient inv iota
    let dd ← fnD p pad.interp pad.gradient
    let (bbMat, rad) := calcBbMatrix pad args.axisymmetric
    let coef := detJac * weight * args.alpha * rad
    let l ← addToStiffMat kk coef (2 * d) (nnode * d) (fun row col => bbMat row (col % d) (col / d)) dd
    .ok (pad, l)

end Integ
end
end Gemlab
