import Verif.Model.Integ

/-!
# Model of the analytical integrals, `/repo/src/integ/analytical_{tri3,tet4,qua4,qua8}.rs`

GENERATED by `tools/gen_analytical.py` from the Rust source, statement by statement. A `Vector` or `Vec<f64>` is the list of its
entries, a `Matrix` the list of its rows, a symmetric `Tensor2` its Mandel vector (4 components in 2D, 6 in 3D); arithmetic is exact
(division by a zero area gives 0 here and infinities in the code: the theorems assume that the area is not zero).
The elastic modulus (`russell_tensor::LinElasticity`) is not modelled: its Mandel matrix is an argument of `mat10Bdb`.
-/
namespace Gemlab.Analytical
set_option linter.unusedVariables false
open Gemlab.Integ
noncomputable section

/-- Entry of a `Matrix` given by its rows. -/
def _root_.List.at (t : List (List ℝ)) (i j : Nat) : ℝ := (t.getD i []).getD j 0

/-- `Tensor2::as_matrix` (and `Tensor2::get`) of a symmetric tensor given by its Mandel vector (`russell_tensor`). -/
def asMatrix (tt : Nat → ℝ) (i j : Nat) : ℝ :=
  match i, j with
  | 0, 0 => tt 0
  | 1, 1 => tt 1
  | 2, 2 => tt 2
  | 0, 1 => tt 3 / sqrt2
  | 1, 0 => tt 3 / sqrt2
  | 1, 2 => tt 4 / sqrt2
  | 2, 1 => tt 4 / sqrt2
  | 0, 2 => tt 5 / sqrt2
  | 2, 0 => tt 5 / sqrt2
  | _, _ => 0

/-- `mat_t_mat_mul(c, 1.0, a, b, 0.0)` with `a` of `n` rows and `r` columns and `b` of `n` rows and `s` columns (`russell_lab`). -/
def matTMatMul (n r s : Nat) (a : List (List ℝ)) (b : Nat → Nat → ℝ) : List (List ℝ) :=
  (List.range r).map fun i => (List.range s).map fun j => ∑ k ∈ Finset.range n, a.at k i * b k j

/-- `mat_mat_mul(c, alpha, a, b, 0.0)` with `a` of `r` rows and `n` columns and `b` of `n` rows and `s` columns (`russell_lab`). -/
def matMatMul (n r s : Nat) (alpha : ℝ) (a b : List (List ℝ)) : List (List ℝ) :=
  (List.range r).map fun i => (List.range s).map fun j => alpha * ∑ k ∈ Finset.range n, a.at i k * b.at k j

/-- `AnalyticalTri3` — analytical_tri3.rs:8-35. -/
structure AnalyticalTri3 where
  area : ℝ
  bb : List (List ℝ)
  bbe : List (List ℝ)
  ll : List ℝ
  x0 : ℝ
  x1 : ℝ
  x2 : ℝ

/-- `AnalyticalTri3::new`, for a pad of the right kind — analytical_tri3.rs:39-91. -/
def AnalyticalTri3.compute (pad : Scratchpad) : AnalyticalTri3 :=
  let x0 : ℝ := (pad.xxt 0 0)
  let y0 : ℝ := (pad.xxt 1 0)
  let x1 : ℝ := (pad.xxt 0 1)
  let y1 : ℝ := (pad.xxt 1 1)
  let x2 : ℝ := (pad.xxt 0 2)
  let y2 : ℝ := (pad.xxt 1 2)
  let a0 : ℝ := y1 - y2
  let a1 : ℝ := y2 - y0
  let a2 : ℝ := y0 - y1
  let b0 : ℝ := x2 - x1
  let b1 : ℝ := x0 - x2
  let b2 : ℝ := x1 - x0
  let f0 : ℝ := x1 * y2 - x2 * y1
  let f1 : ℝ := x2 * y0 - x0 * y2
  let f2 : ℝ := x0 * y1 - x1 * y0
  let area : ℝ := (f0 + f1 + f2) / 2
  let r : ℝ := 2 * area
  let s : ℝ := r * sqrt2
  let bb : List (List ℝ) :=
    [[a0/r, b0/r],
     [a1/r, b1/r],
     [a2/r, b2/r] ]
  let bbe : List (List ℝ) :=
    [[a0/r, 0, a1/r, 0, a2/r, 0],
     [ 0, b0/r, 0, b1/r, 0, b2/r],
     [ 0, 0, 0, 0, 0, 0],
     [b0/s, a0/s, b1/s, a1/s, b2/s, a2/s] ]
  let ll : List ℝ := [ Real.sqrt ((x0 - x1) * (x0 - x1) + (y0 - y1) * (y0 - y1)), Real.sqrt ((x1 - x2) * (x1 - x2) + (y1 - y2) * (y1 - y2)), Real.sqrt ((x2 - x0) * (x2 - x0) + (y2 - y0) * (y2 - y0)) ]
  { area := area, bb := bb, bbe := bbe, ll := ll, x0 := x0, x1 := x1, x2 := x2 }

/-- `AnalyticalTri3::new` (another kind is a panic) — analytical_tri3.rs:39-91. -/
def AnalyticalTri3.new (pad : Scratchpad) : Res AnalyticalTri3 :=
  if pad.kind = .tri3 then .ok (AnalyticalTri3.compute pad) else .panic

namespace AnalyticalTri3

/-- `AnalyticalTri3::vec_01_ns` — analytical_tri3.rs:94-106. -/
def vec01Ns (self : AnalyticalTri3) (s : ℝ) (axisymmetric : Bool) : List ℝ :=
  if axisymmetric then
    let c : ℝ := s * self.area / 12
    [c * (2 * self.x0 + self.x1 + self.x2),
     c * (self.x0 + 2 * self.x1 + self.x2),
     c * (self.x0 + self.x1 + 2 * self.x2)]
  else
    let c : ℝ := s * self.area / 3
    [c, c, c]

/-- The `match side` of `AnalyticalTri3::vec_01_ns_bry` — analytical_tri3.rs:113-118. -/
def vec01NsBrySide (self : AnalyticalTri3) (side : Nat) : Res (ℝ × ℝ) :=
  match side with
  | 0 => .ok (self.x1, self.x0)
  | 1 => .ok (self.x2, self.x1)
  | 2 => .ok (self.x0, self.x2)
  | _ => .panic

/-- `AnalyticalTri3::vec_01_ns_bry` (an invalid side is a panic, by `panic!` or by `self.ll[side]`) — analytical_tri3.rs:111-125. -/
def vec01NsBry (self : AnalyticalTri3) (side : Nat) (s : ℝ) (axisymmetric : Bool) : Res (List ℝ) :=
  if axisymmetric then do
    let (a0, a1) ← self.vec01NsBrySide side
    let l ← Res.idx self.ll side
    let c : ℝ := s * l / 6
    return [c * (2 * a0 + a1), c * (a0 + 2 * a1)]
  else do
    let l ← Res.idx self.ll side
    let c : ℝ := s * l / 2
    return [c, c]

/-- `AnalyticalTri3::vec_02_nv` — analytical_tri3.rs:143-152. -/
def vec02Nv (self : AnalyticalTri3) (v0 : ℝ) (v1 : ℝ) : List ℝ :=
  [v0 * self.area / 3,
   v1 * self.area / 3,
   v0 * self.area / 3,
   v1 * self.area / 3,
   v0 * self.area / 3,
   v1 * self.area / 3]

/-- `AnalyticalTri3::vec_03_bv` — analytical_tri3.rs:161-167. -/
def vec03Bv (self : AnalyticalTri3) (w0 : ℝ) (w1 : ℝ) : List ℝ :=
  [(w0 * (self.bb.at 0 0) + w1 * (self.bb.at 0 1)) * self.area,
   (w0 * (self.bb.at 1 0) + w1 * (self.bb.at 1 1)) * self.area,
   (w0 * (self.bb.at 2 0) + w1 * (self.bb.at 2 1)) * self.area]

/-- `AnalyticalTri3::vec_03_bv_bilinear` — analytical_tri3.rs:182-190. -/
def vec03BvBilinear (self : AnalyticalTri3) (pad : Scratchpad) : List ℝ :=
  let x0 : ℝ := (pad.xxt 0 0)
  let x1 : ℝ := (pad.xxt 0 1)
  let x2 : ℝ := (pad.xxt 0 2)
  let y0 : ℝ := (pad.xxt 1 0)
  let y1 : ℝ := (pad.xxt 1 1)
  let y2 : ℝ := (pad.xxt 1 2)
  [((x0 + x1 + x2) * (self.bb.at 0 0) + (y0 + y1 + y2) * (self.bb.at 0 1)) * self.area / 3,
   ((x0 + x1 + x2) * (self.bb.at 1 0) + (y0 + y1 + y2) * (self.bb.at 1 1)) * self.area / 3,
   ((x0 + x1 + x2) * (self.bb.at 2 0) + (y0 + y1 + y2) * (self.bb.at 2 1)) * self.area / 3]

/-- `AnalyticalTri3::vec_04_bt` — analytical_tri3.rs:194-221. -/
def vec04Bt (self : AnalyticalTri3) (tt : Nat → ℝ) (axisymmetric : Bool) : List ℝ :=
  let x0 : ℝ := self.x0
  let x1 : ℝ := self.x1
  let x2 : ℝ := self.x2
  let b00 : ℝ := (self.bb.at 0 0)
  let b01 : ℝ := (self.bb.at 0 1)
  let b10 : ℝ := (self.bb.at 1 0)
  let b11 : ℝ := (self.bb.at 1 1)
  let b20 : ℝ := (self.bb.at 2 0)
  let b21 : ℝ := (self.bb.at 2 1)
  let t0 : ℝ := (tt 0)
  let t1 : ℝ := (tt 1)
  let t2 : ℝ := (tt 2)
  let t3 : ℝ := (tt 3)
  if axisymmetric then
    let c : ℝ := self.area / 3
    [c * (b00 * t0 + b01 * t3 / sqrt2) * (x0 + x1 + x2) + c * t2,
     c * (b01 * t1 + b00 * t3 / sqrt2) * (x0 + x1 + x2),
     c * (b10 * t0 + b11 * t3 / sqrt2) * (x0 + x1 + x2) + c * t2,
     c * (b11 * t1 + b10 * t3 / sqrt2) * (x0 + x1 + x2),
     c * (b20 * t0 + b21 * t3 / sqrt2) * (x0 + x1 + x2) + c * t2,
     c * (b21 * t1 + b20 * t3 / sqrt2) * (x0 + x1 + x2)]
  else
    let c : ℝ := self.area
    [c * (b00 * t0 + b01 * t3 / sqrt2),
     c * (b01 * t1 + b00 * t3 / sqrt2),
     c * (b10 * t0 + b11 * t3 / sqrt2),
     c * (b11 * t1 + b10 * t3 / sqrt2),
     c * (b20 * t0 + b21 * t3 / sqrt2),
     c * (b21 * t1 + b20 * t3 / sqrt2)]

/-- `AnalyticalTri3::mat_01_nsn` — analytical_tri3.rs:224-227. -/
def mat01Nsn (self : AnalyticalTri3) (s : ℝ) (th : ℝ) : List (List ℝ) :=
  let c : ℝ := th * s * self.area / 12
  [[2 * c, c, c],
   [c, 2 * c, c],
   [c, c, 2 * c]]

/-- The `match side` of `AnalyticalTri3::mat_01_nsn_bry` — analytical_tri3.rs:234-239. -/
def mat01NsnBrySide (self : AnalyticalTri3) (side : Nat) : Res (ℝ × ℝ) :=
  match side with
  | 0 => .ok (self.x1, self.x0)
  | 1 => .ok (self.x2, self.x1)
  | 2 => .ok (self.x0, self.x2)
  | _ => .panic

/-- `AnalyticalTri3::mat_01_nsn_bry` (an invalid side is a panic, by `panic!` or by `self.ll[side]`) — analytical_tri3.rs:232-249. -/
def mat01NsnBry (self : AnalyticalTri3) (side : Nat) (s : ℝ) (axisymmetric : Bool) : Res (List (List ℝ)) :=
  if axisymmetric then do
    let (a0, a1) ← self.mat01NsnBrySide side
    let l ← Res.idx self.ll side
    let c : ℝ := s * l / 12
    return [[c * (3 * a0 + a1), c * (a0 + a1)],
       [c * (a0 + a1), c * (a0 + 3 * a1)]]
  else do
    let l ← Res.idx self.ll side
    let c : ℝ := s * l / 6
    return [[2 * c, c],
       [c, 2 * c]]

/-- `AnalyticalTri3::mat_02_bvn` — analytical_tri3.rs:253-261. -/
def mat02Bvn (self : AnalyticalTri3) (v0 : ℝ) (v1 : ℝ) : List (List ℝ) :=
  let aa : ℝ := self.area
  let g := self.bb
  [[aa*((g.at 0 0)*v0 + (g.at 0 1)*v1)/3, aa*((g.at 0 0)*v0 + (g.at 0 1)*v1)/3, aa*((g.at 0 0)*v0 + (g.at 0 1)*v1)/3],
   [aa*((g.at 1 0)*v0 + (g.at 1 1)*v1)/3, aa*((g.at 1 0)*v0 + (g.at 1 1)*v1)/3, aa*((g.at 1 0)*v0 + (g.at 1 1)*v1)/3],
   [aa*((g.at 2 0)*v0 + (g.at 2 1)*v1)/3, aa*((g.at 2 0)*v0 + (g.at 2 1)*v1)/3, aa*((g.at 2 0)*v0 + (g.at 2 1)*v1)/3]]

/-- `AnalyticalTri3::mat_02_bvn_bilinear` — analytical_tri3.rs:265-278. -/
def mat02BvnBilinear (self : AnalyticalTri3) (pad : Scratchpad) : List (List ℝ) :=
  let aa : ℝ := self.area
  let b00 : ℝ := (self.bb.at 0 0)
  let b01 : ℝ := (self.bb.at 0 1)
  let b10 : ℝ := (self.bb.at 1 0)
  let b11 : ℝ := (self.bb.at 1 1)
  let b20 : ℝ := (self.bb.at 2 0)
  let b21 : ℝ := (self.bb.at 2 1)
  let x0 : ℝ := (pad.xxt 0 0)
  let y0 : ℝ := (pad.xxt 1 0)
  let x1 : ℝ := (pad.xxt 0 1)
  let y1 : ℝ := (pad.xxt 1 1)
  let x2 : ℝ := (pad.xxt 0 2)
  let y2 : ℝ := (pad.xxt 1 2)
  [[(aa*(2*b00*x0 + b00*x1 + b00*x2 + 2*b01*y0 + b01*y1 + b01*y2))/12,(aa*(b00*x0 + 2*b00*x1 + b00*x2 + b01*y0 + 2*b01*y1 + b01*y2))/12, (aa*(b00*x0 + b00*x1 + 2*b00*x2 + b01*y0 + b01*y1 + 2*b01*y2))/12],
   [(aa*(2*b10*x0 + b10*x1 + b10*x2 + 2*b11*y0 + b11*y1 + b11*y2))/12,(aa*(b10*x0 + 2*b10*x1 + b10*x2 + b11*y0 + 2*b11*y1 + b11*y2))/12, (aa*(b10*x0 + b10*x1 + 2*b10*x2 + b11*y0 + b11*y1 + 2*b11*y2))/12],
   [(aa*(2*b20*x0 + b20*x1 + b20*x2 + 2*b21*y0 + b21*y1 + b21*y2))/12,(aa*(b20*x0 + 2*b20*x1 + b20*x2 + b21*y0 + 2*b21*y1 + b21*y2))/12, (aa*(b20*x0 + b20*x1 + 2*b20*x2 + b21*y0 + b21*y1 + 2*b21*y2))/12]]

/-- `AnalyticalTri3::mat_03_btb` — analytical_tri3.rs:281-297. -/
def mat03Btb (self : AnalyticalTri3) (kx : ℝ) (ky : ℝ) (axisymmetric : Bool) : List (List ℝ) :=
  let c : ℝ := if axisymmetric then (self.area * (self.x0 + self.x1 + self.x2) / 3) else (self.area)
  let b00 : ℝ := (self.bb.at 0 0)
  let b01 : ℝ := (self.bb.at 0 1)
  let b10 : ℝ := (self.bb.at 1 0)
  let b11 : ℝ := (self.bb.at 1 1)
  let b20 : ℝ := (self.bb.at 2 0)
  let b21 : ℝ := (self.bb.at 2 1)
  let k00 : ℝ := c * (b00 * b00 * kx + b01 * b01 * ky)
  let k11 : ℝ := c * (b10 * b10 * kx + b11 * b11 * ky)
  let k01 : ℝ := c * (b00 * b10 * kx + b01 * b11 * ky)
  let k12 : ℝ := c * (b10 * b20 * kx + b11 * b21 * ky)
  let k02 : ℝ := c * (b00 * b20 * kx + b01 * b21 * ky)
  let k22 : ℝ := c * (b20 * b20 * kx + b21 * b21 * ky)
  [[k00, k01, k02],
   [k01, k11, k12],
   [k02, k12, k22]]

/-- `AnalyticalTri3::mat_08_ntn` — analytical_tri3.rs:300-310. -/
def mat08Ntn (self : AnalyticalTri3) (rho : ℝ) (th : ℝ) : List (List ℝ) :=
  let c : ℝ := th * rho * self.area / 12
  [[c * 2, c * 0, c * 1, c * 0, c * 1, c * 0],
   [c * 0, c * 2, c * 0, c * 1, c * 0, c * 1],
   [c * 1, c * 0, c * 2, c * 0, c * 1, c * 0],
   [c * 0, c * 1, c * 0, c * 2, c * 0, c * 1],
   [c * 1, c * 0, c * 1, c * 0, c * 2, c * 0],
   [c * 0, c * 1, c * 0, c * 1, c * 0, c * 2]]

/-- `AnalyticalTri3::mat_09_nvb` — analytical_tri3.rs:314-327. -/
def mat09Nvb (self : AnalyticalTri3) (v0 : ℝ) (v1 : ℝ) : List (List ℝ) :=
  let b00 : ℝ := (self.bb.at 0 0)
  let b01 : ℝ := (self.bb.at 0 1)
  let b10 : ℝ := (self.bb.at 1 0)
  let b11 : ℝ := (self.bb.at 1 1)
  let b20 : ℝ := (self.bb.at 2 0)
  let b21 : ℝ := (self.bb.at 2 1)
  let c : ℝ := self.area / 3
  [[c*b00*v0, c*b01*v0, c*b10*v0, c*b11*v0, c*b20*v0, c*b21*v0],
   [c*b00*v1, c*b01*v1, c*b10*v1, c*b11*v1, c*b20*v1, c*b21*v1],
   [c*b00*v0, c*b01*v0, c*b10*v0, c*b11*v0, c*b20*v0, c*b21*v0],
   [c*b00*v1, c*b01*v1, c*b10*v1, c*b11*v1, c*b20*v1, c*b21*v1],
   [c*b00*v0, c*b01*v0, c*b10*v0, c*b11*v0, c*b20*v0, c*b21*v0],
   [c*b00*v1, c*b01*v1, c*b10*v1, c*b11*v1, c*b20*v1, c*b21*v1]]

/-- `AnalyticalTri3::mat_10_bdb`, `dd` being the modulus computed from `young`, `poisson` and `plane_stress` — analytical_tri3.rs:336-346. -/
def mat10Bdb (self : AnalyticalTri3) (dd : Nat → Nat → ℝ) (th : ℝ) : List (List ℝ) :=
  let bb_t_dd := matTMatMul 4 6 4 self.bbe dd
  matMatMul 4 6 6 (th * self.area) bb_t_dd self.bbe

end AnalyticalTri3

/-- `AnalyticalTet4` — analytical_tet4.rs:8-27. -/
structure AnalyticalTet4 where
  volume : ℝ
  bb : List (List ℝ)
  bbe : List (List ℝ)

/-- `AnalyticalTet4::new`, for a pad of the right kind — analytical_tet4.rs:31-132. -/
def AnalyticalTet4.compute (pad : Scratchpad) : AnalyticalTet4 :=
  let x1 : ℝ := (pad.xxt 0 0)
  let x2 : ℝ := (pad.xxt 0 1)
  let x3 : ℝ := (pad.xxt 0 2)
  let x4 : ℝ := (pad.xxt 0 3)
  let y1 : ℝ := (pad.xxt 1 0)
  let y2 : ℝ := (pad.xxt 1 1)
  let y3 : ℝ := (pad.xxt 1 2)
  let y4 : ℝ := (pad.xxt 1 3)
  let z1 : ℝ := (pad.xxt 2 0)
  let z2 : ℝ := (pad.xxt 2 1)
  let z3 : ℝ := (pad.xxt 2 2)
  let z4 : ℝ := (pad.xxt 2 3)
  let x12 : ℝ := x1 - x2
  let x13 : ℝ := x1 - x3
  let x14 : ℝ := x1 - x4
  let x23 : ℝ := x2 - x3
  let x24 : ℝ := x2 - x4
  let x34 : ℝ := x3 - x4
  let x21 : ℝ := -x12
  let x31 : ℝ := -x13
  let x32 : ℝ := -x23
  let x42 : ℝ := -x24
  let x43 : ℝ := -x34
  let y12 : ℝ := y1 - y2
  let y13 : ℝ := y1 - y3
  let y14 : ℝ := y1 - y4
  let y23 : ℝ := y2 - y3
  let y24 : ℝ := y2 - y4
  let y34 : ℝ := y3 - y4
  let y21 : ℝ := -y12
  let y31 : ℝ := -y13
  let y32 : ℝ := -y23
  let y42 : ℝ := -y24
  let y43 : ℝ := -y34
  let z12 : ℝ := z1 - z2
  let z13 : ℝ := z1 - z3
  let z14 : ℝ := z1 - z4
  let z23 : ℝ := z2 - z3
  let z24 : ℝ := z2 - z4
  let z34 : ℝ := z3 - z4
  let z21 : ℝ := -z12
  let z31 : ℝ := -z13
  let z32 : ℝ := -z23
  let z42 : ℝ := -z24
  let z43 : ℝ := -z34
  let jj_det : ℝ := x21 * (y23 * z34 - y34 * z23) + x32 * (y34 * z12 - y12 * z34) + x43 * (y12 * z23 - y23 * z12)
  let a1 : ℝ := y42 * z32 - y32 * z42
  let b1 : ℝ := x32 * z42 - x42 * z32
  let c1 : ℝ := x42 * y32 - x32 * y42
  let a2 : ℝ := y31 * z43 - y34 * z13
  let b2 : ℝ := x43 * z31 - x13 * z34
  let c2 : ℝ := x31 * y43 - x34 * y13
  let a3 : ℝ := y24 * z14 - y14 * z24
  let b3 : ℝ := x14 * z24 - x24 * z14
  let c3 : ℝ := x24 * y14 - x14 * y24
  let a4 : ℝ := y13 * z21 - y12 * z31
  let b4 : ℝ := x21 * z13 - x31 * z12
  let c4 : ℝ := x13 * y21 - x12 * y31
  let r : ℝ := jj_det
  let s : ℝ := r * sqrt2
  let bb : List (List ℝ) :=
    [[a1/r, b1/r, c1/r],
     [a2/r, b2/r, c2/r],
     [a3/r, b3/r, c3/r],
     [a4/r, b4/r, c4/r] ]
  let bbe : List (List ℝ) :=
    [[a1/r, 0, 0, a2/r, 0, 0, a3/r, 0, 0, a4/r, 0, 0],
     [ 0, b1/r, 0, 0, b2/r, 0, 0, b3/r, 0, 0, b4/r, 0],
     [ 0, 0, c1/r, 0, 0, c2/r, 0, 0, c3/r, 0, 0, c4/r],
     [b1/s, a1/s, 0, b2/s, a2/s, 0, b3/s, a3/s, 0, b4/s, a4/s, 0],
     [ 0, c1/s, b1/s, 0, c2/s, b2/s, 0, c3/s, b3/s, 0, c4/s, b4/s],
     [c1/s, 0, a1/s, c2/s, 0, a2/s, c3/s, 0, a3/s, c4/s, 0, a4/s] ]
  { volume := jj_det / 6, bb := bb, bbe := bbe }

/-- `AnalyticalTet4::new` (another kind is a panic) — analytical_tet4.rs:31-132. -/
def AnalyticalTet4.new (pad : Scratchpad) : Res AnalyticalTet4 :=
  if pad.kind = .tet4 then .ok (AnalyticalTet4.compute pad) else .panic

namespace AnalyticalTet4

/-- `AnalyticalTet4::vec_01_ns` — analytical_tet4.rs:141-148. -/
def vec01Ns (self : AnalyticalTet4) (cs : ℝ) : List ℝ :=
  [ cs * self.volume / 4, cs * self.volume / 4, cs * self.volume / 4, cs * self.volume / 4 ]

/-- `AnalyticalTet4::vec_01_ns_linear_along_z` — analytical_tet4.rs:156-169. -/
def vec01NsLinearAlongZ (self : AnalyticalTet4) (pad : Scratchpad) : List ℝ :=
  let z1 : ℝ := (pad.xxt 2 0)
  let z2 : ℝ := (pad.xxt 2 1)
  let z3 : ℝ := (pad.xxt 2 2)
  let z4 : ℝ := (pad.xxt 2 3)
  [(self.volume * (2 * z1 + z2 + z3 + z4)) / 20,
   (self.volume * (z1 + 2 * z2 + z3 + z4)) / 20,
   (self.volume * (z1 + z2 + 2 * z3 + z4)) / 20,
   (self.volume * (z1 + z2 + z3 + 2 * z4)) / 20]

/-- `AnalyticalTet4::vec_02_nv` — analytical_tet4.rs:180-195. -/
def vec02Nv (self : AnalyticalTet4) (v0 : ℝ) (v1 : ℝ) (v2 : ℝ) : List ℝ :=
  [v0 * self.volume / 4,
   v1 * self.volume / 4,
   v2 * self.volume / 4,
   v0 * self.volume / 4,
   v1 * self.volume / 4,
   v2 * self.volume / 4,
   v0 * self.volume / 4,
   v1 * self.volume / 4,
   v2 * self.volume / 4,
   v0 * self.volume / 4,
   v1 * self.volume / 4,
   v2 * self.volume / 4]

/-- `AnalyticalTet4::vec_03_bv` — analytical_tet4.rs:205-212. -/
def vec03Bv (self : AnalyticalTet4) (w0 : ℝ) (w1 : ℝ) (w2 : ℝ) : List ℝ :=
  [(w0 * (self.bb.at 0 0) + w1 * (self.bb.at 0 1) + w2 * (self.bb.at 0 2)) * self.volume,
   (w0 * (self.bb.at 1 0) + w1 * (self.bb.at 1 1) + w2 * (self.bb.at 1 2)) * self.volume,
   (w0 * (self.bb.at 2 0) + w1 * (self.bb.at 2 1) + w2 * (self.bb.at 2 2)) * self.volume,
   (w0 * (self.bb.at 3 0) + w1 * (self.bb.at 3 1) + w2 * (self.bb.at 3 2)) * self.volume]

/-- `AnalyticalTet4::vec_04_bt` — analytical_tet4.rs:226-246. -/
def vec04Bt (self : AnalyticalTet4) (tt : Nat → ℝ) : List ℝ :=
  let c : ℝ := self.volume
  let mat := asMatrix tt
  let a00 : ℝ := (mat 0 0)
  let a01 : ℝ := (mat 0 1)
  let a02 : ℝ := (mat 0 2)
  let a11 : ℝ := (mat 1 1)
  let a12 : ℝ := (mat 1 2)
  let a22 : ℝ := (mat 2 2)
  [c * (a00 * (self.bb.at 0 0) + a01 * (self.bb.at 0 1) + a02 * (self.bb.at 0 2)),
   c * (a01 * (self.bb.at 0 0) + a11 * (self.bb.at 0 1) + a12 * (self.bb.at 0 2)),
   c * (a02 * (self.bb.at 0 0) + a12 * (self.bb.at 0 1) + a22 * (self.bb.at 0 2)),
   c * (a00 * (self.bb.at 1 0) + a01 * (self.bb.at 1 1) + a02 * (self.bb.at 1 2)),
   c * (a01 * (self.bb.at 1 0) + a11 * (self.bb.at 1 1) + a12 * (self.bb.at 1 2)),
   c * (a02 * (self.bb.at 1 0) + a12 * (self.bb.at 1 1) + a22 * (self.bb.at 1 2)),
   c * (a00 * (self.bb.at 2 0) + a01 * (self.bb.at 2 1) + a02 * (self.bb.at 2 2)),
   c * (a01 * (self.bb.at 2 0) + a11 * (self.bb.at 2 1) + a12 * (self.bb.at 2 2)),
   c * (a02 * (self.bb.at 2 0) + a12 * (self.bb.at 2 1) + a22 * (self.bb.at 2 2)),
   c * (a00 * (self.bb.at 3 0) + a01 * (self.bb.at 3 1) + a02 * (self.bb.at 3 2)),
   c * (a01 * (self.bb.at 3 0) + a11 * (self.bb.at 3 1) + a12 * (self.bb.at 3 2)),
   c * (a02 * (self.bb.at 3 0) + a12 * (self.bb.at 3 1) + a22 * (self.bb.at 3 2))]

/-- `AnalyticalTet4::mat_01_nsn` — analytical_tet4.rs:250-258. -/
def mat01Nsn (self : AnalyticalTet4) (s : ℝ) : List (List ℝ) :=
  let c : ℝ := self.volume / 20
  [[2 * s * c, s * c, s * c, s * c],
   [s * c, 2 * s * c, s * c, s * c],
   [s * c, s * c, 2 * s * c, s * c],
   [s * c, s * c, s * c, 2 * s * c]]

/-- `AnalyticalTet4::mat_02_bvn` — analytical_tet4.rs:262-274. -/
def mat02Bvn (self : AnalyticalTet4) (v0 : ℝ) (v1 : ℝ) (v2 : ℝ) : List (List ℝ) :=
  let c : ℝ := self.volume / 4
  let b00 : ℝ := (self.bb.at 0 0)
  let b01 : ℝ := (self.bb.at 0 1)
  let b02 : ℝ := (self.bb.at 0 2)
  let b10 : ℝ := (self.bb.at 1 0)
  let b11 : ℝ := (self.bb.at 1 1)
  let b12 : ℝ := (self.bb.at 1 2)
  let b20 : ℝ := (self.bb.at 2 0)
  let b21 : ℝ := (self.bb.at 2 1)
  let b22 : ℝ := (self.bb.at 2 2)
  let b30 : ℝ := (self.bb.at 3 0)
  let b31 : ℝ := (self.bb.at 3 1)
  let b32 : ℝ := (self.bb.at 3 2)
  [[c*(b00*v0 + b01*v1 + b02*v2), c*(b00*v0 + b01*v1 + b02*v2), c*(b00*v0 + b01*v1 + b02*v2), c*(b00*v0 + b01*v1 + b02*v2)],
   [c*(b10*v0 + b11*v1 + b12*v2), c*(b10*v0 + b11*v1 + b12*v2), c*(b10*v0 + b11*v1 + b12*v2), c*(b10*v0 + b11*v1 + b12*v2)],
   [c*(b20*v0 + b21*v1 + b22*v2), c*(b20*v0 + b21*v1 + b22*v2), c*(b20*v0 + b21*v1 + b22*v2), c*(b20*v0 + b21*v1 + b22*v2)],
   [c*(b30*v0 + b31*v1 + b32*v2), c*(b30*v0 + b31*v1 + b32*v2), c*(b30*v0 + b31*v1 + b32*v2), c*(b30*v0 + b31*v1 + b32*v2)]]

/-- `AnalyticalTet4::mat_03_btb` — analytical_tet4.rs:278-294. -/
def mat03Btb (self : AnalyticalTet4) (tt : Nat → ℝ) : List (List ℝ) :=
  let c : ℝ := self.volume
  let mat := asMatrix tt
  let a00 : ℝ := (mat 0 0)
  let a01 : ℝ := (mat 0 1)
  let a02 : ℝ := (mat 0 2)
  let a10 : ℝ := (mat 1 0)
  let a11 : ℝ := (mat 1 1)
  let a12 : ℝ := (mat 1 2)
  let a20 : ℝ := (mat 2 0)
  let a21 : ℝ := (mat 2 1)
  let a22 : ℝ := (mat 2 2)
  let b00 : ℝ := (self.bb.at 0 0)
  let b01 : ℝ := (self.bb.at 0 1)
  let b02 : ℝ := (self.bb.at 0 2)
  let b10 : ℝ := (self.bb.at 1 0)
  let b11 : ℝ := (self.bb.at 1 1)
  let b12 : ℝ := (self.bb.at 1 2)
  let b20 : ℝ := (self.bb.at 2 0)
  let b21 : ℝ := (self.bb.at 2 1)
  let b22 : ℝ := (self.bb.at 2 2)
  let b30 : ℝ := (self.bb.at 3 0)
  let b31 : ℝ := (self.bb.at 3 1)
  let b32 : ℝ := (self.bb.at 3 2)
  [[c*b00*(a00*b00 + a10*b01 + a20*b02) + c*b01*(a01*b00 + a11*b01 + a21*b02) + c*b02*(a02*b00 + a12*b01 + a22*b02), c*b10*(a00*b00 + a10*b01 + a20*b02) + c*b11*(a01*b00 + a11*b01 + a21*b02) + c*b12*(a02*b00 + a12*b01 + a22*b02), c*b20*(a00*b00 + a10*b01 + a20*b02) + c*b21*(a01*b00 + a11*b01 + a21*b02) + c*b22*(a02*b00 + a12*b01 + a22*b02), c*b30*(a00*b00 + a10*b01 + a20*b02) + c*b31*(a01*b00 + a11*b01 + a21*b02) + c*b32*(a02*b00 + a12*b01 + a22*b02)],
   [c*b00*(a00*b10 + a10*b11 + a20*b12) + c*b01*(a01*b10 + a11*b11 + a21*b12) + c*b02*(a02*b10 + a12*b11 + a22*b12), c*b10*(a00*b10 + a10*b11 + a20*b12) + c*b11*(a01*b10 + a11*b11 + a21*b12) + c*b12*(a02*b10 + a12*b11 + a22*b12), c*b20*(a00*b10 + a10*b11 + a20*b12) + c*b21*(a01*b10 + a11*b11 + a21*b12) + c*b22*(a02*b10 + a12*b11 + a22*b12), c*b30*(a00*b10 + a10*b11 + a20*b12) + c*b31*(a01*b10 + a11*b11 + a21*b12) + c*b32*(a02*b10 + a12*b11 + a22*b12)],
   [c*b00*(a00*b20 + a10*b21 + a20*b22) + c*b01*(a01*b20 + a11*b21 + a21*b22) + c*b02*(a02*b20 + a12*b21 + a22*b22), c*b10*(a00*b20 + a10*b21 + a20*b22) + c*b11*(a01*b20 + a11*b21 + a21*b22) + c*b12*(a02*b20 + a12*b21 + a22*b22), c*b20*(a00*b20 + a10*b21 + a20*b22) + c*b21*(a01*b20 + a11*b21 + a21*b22) + c*b22*(a02*b20 + a12*b21 + a22*b22), c*b30*(a00*b20 + a10*b21 + a20*b22) + c*b31*(a01*b20 + a11*b21 + a21*b22) + c*b32*(a02*b20 + a12*b21 + a22*b22)],
   [c*b00*(a00*b30 + a10*b31 + a20*b32) + c*b01*(a01*b30 + a11*b31 + a21*b32) + c*b02*(a02*b30 + a12*b31 + a22*b32), c*b10*(a00*b30 + a10*b31 + a20*b32) + c*b11*(a01*b30 + a11*b31 + a21*b32) + c*b12*(a02*b30 + a12*b31 + a22*b32), c*b20*(a00*b30 + a10*b31 + a20*b32) + c*b21*(a01*b30 + a11*b31 + a21*b32) + c*b22*(a02*b30 + a12*b31 + a22*b32), c*b30*(a00*b30 + a10*b31 + a20*b32) + c*b31*(a01*b30 + a11*b31 + a21*b32) + c*b32*(a02*b30 + a12*b31 + a22*b32)]]

/-- `AnalyticalTet4::mat_04_nsb` — analytical_tet4.rs:298-310. -/
def mat04Nsb (self : AnalyticalTet4) (s : ℝ) : List (List ℝ) :=
  let c : ℝ := self.volume / 4
  let b00 : ℝ := (self.bb.at 0 0)
  let b01 : ℝ := (self.bb.at 0 1)
  let b02 : ℝ := (self.bb.at 0 2)
  let b10 : ℝ := (self.bb.at 1 0)
  let b11 : ℝ := (self.bb.at 1 1)
  let b12 : ℝ := (self.bb.at 1 2)
  let b20 : ℝ := (self.bb.at 2 0)
  let b21 : ℝ := (self.bb.at 2 1)
  let b22 : ℝ := (self.bb.at 2 2)
  let b30 : ℝ := (self.bb.at 3 0)
  let b31 : ℝ := (self.bb.at 3 1)
  let b32 : ℝ := (self.bb.at 3 2)
  [[c*b00*s, c*b01*s, c*b02*s, c*b10*s, c*b11*s, c*b12*s, c*b20*s, c*b21*s, c*b22*s, c*b30*s, c*b31*s, c*b32*s],
   [c*b00*s, c*b01*s, c*b02*s, c*b10*s, c*b11*s, c*b12*s, c*b20*s, c*b21*s, c*b22*s, c*b30*s, c*b31*s, c*b32*s],
   [c*b00*s, c*b01*s, c*b02*s, c*b10*s, c*b11*s, c*b12*s, c*b20*s, c*b21*s, c*b22*s, c*b30*s, c*b31*s, c*b32*s],
   [c*b00*s, c*b01*s, c*b02*s, c*b10*s, c*b11*s, c*b12*s, c*b20*s, c*b21*s, c*b22*s, c*b30*s, c*b31*s, c*b32*s]]

/-- `AnalyticalTet4::mat_05_btn` — analytical_tet4.rs:314-330. -/
def mat05Btn (self : AnalyticalTet4) (tt : Nat → ℝ) : List (List ℝ) :=
  let c : ℝ := self.volume / 4
  let mat := asMatrix tt
  let t00 : ℝ := (mat 0 0)
  let t01 : ℝ := (mat 0 1)
  let t02 : ℝ := (mat 0 2)
  let t11 : ℝ := (mat 1 1)
  let t12 : ℝ := (mat 1 2)
  let t22 : ℝ := (mat 2 2)
  let b00 : ℝ := (self.bb.at 0 0)
  let b01 : ℝ := (self.bb.at 0 1)
  let b02 : ℝ := (self.bb.at 0 2)
  let b10 : ℝ := (self.bb.at 1 0)
  let b11 : ℝ := (self.bb.at 1 1)
  let b12 : ℝ := (self.bb.at 1 2)
  let b20 : ℝ := (self.bb.at 2 0)
  let b21 : ℝ := (self.bb.at 2 1)
  let b22 : ℝ := (self.bb.at 2 2)
  let b30 : ℝ := (self.bb.at 3 0)
  let b31 : ℝ := (self.bb.at 3 1)
  let b32 : ℝ := (self.bb.at 3 2)
  [[c*(b00*t00 + b01*t01 + b02*t02), c*(b00*t01 + b01*t11 + b02*t12), c*(b00*t02 + b01*t12 + b02*t22), c*(b00*t00 + b01*t01 + b02*t02), c*(b00*t01 + b01*t11 + b02*t12), c*(b00*t02 + b01*t12 + b02*t22), c*(b00*t00 + b01*t01 + b02*t02), c*(b00*t01 + b01*t11 + b02*t12), c*(b00*t02 + b01*t12 + b02*t22), c*(b00*t00 + b01*t01 + b02*t02), c*(b00*t01 + b01*t11 + b02*t12), c*(b00*t02 + b01*t12 + b02*t22)],
   [c*(b10*t00 + b11*t01 + b12*t02), c*(b10*t01 + b11*t11 + b12*t12), c*(b10*t02 + b11*t12 + b12*t22), c*(b10*t00 + b11*t01 + b12*t02), c*(b10*t01 + b11*t11 + b12*t12), c*(b10*t02 + b11*t12 + b12*t22), c*(b10*t00 + b11*t01 + b12*t02), c*(b10*t01 + b11*t11 + b12*t12), c*(b10*t02 + b11*t12 + b12*t22), c*(b10*t00 + b11*t01 + b12*t02), c*(b10*t01 + b11*t11 + b12*t12), c*(b10*t02 + b11*t12 + b12*t22)],
   [c*(b20*t00 + b21*t01 + b22*t02), c*(b20*t01 + b21*t11 + b22*t12), c*(b20*t02 + b21*t12 + b22*t22), c*(b20*t00 + b21*t01 + b22*t02), c*(b20*t01 + b21*t11 + b22*t12), c*(b20*t02 + b21*t12 + b22*t22), c*(b20*t00 + b21*t01 + b22*t02), c*(b20*t01 + b21*t11 + b22*t12), c*(b20*t02 + b21*t12 + b22*t22), c*(b20*t00 + b21*t01 + b22*t02), c*(b20*t01 + b21*t11 + b22*t12), c*(b20*t02 + b21*t12 + b22*t22)],
   [c*(b30*t00 + b31*t01 + b32*t02), c*(b30*t01 + b31*t11 + b32*t12), c*(b30*t02 + b31*t12 + b32*t22), c*(b30*t00 + b31*t01 + b32*t02), c*(b30*t01 + b31*t11 + b32*t12), c*(b30*t02 + b31*t12 + b32*t22), c*(b30*t00 + b31*t01 + b32*t02), c*(b30*t01 + b31*t11 + b32*t12), c*(b30*t02 + b31*t12 + b32*t22), c*(b30*t00 + b31*t01 + b32*t02), c*(b30*t01 + b31*t11 + b32*t12), c*(b30*t02 + b31*t12 + b32*t22)]]

/-- `AnalyticalTet4::mat_06_nvn` — analytical_tet4.rs:334-350. -/
def mat06Nvn (self : AnalyticalTet4) (v0 : ℝ) (v1 : ℝ) (v2 : ℝ) : List (List ℝ) :=
  let c : ℝ := self.volume / 20
  [[c*2*v0, c*v0, c*v0, c*v0],
   [c*2*v1, c*v1, c*v1, c*v1],
   [c*2*v2, c*v2, c*v2, c*v2],
   [c*v0, c*2*v0, c*v0, c*v0],
   [c*v1, c*2*v1, c*v1, c*v1],
   [c*v2, c*2*v2, c*v2, c*v2],
   [c*v0, c*v0, c*2*v0, c*v0],
   [c*v1, c*v1, c*2*v1, c*v1],
   [c*v2, c*v2, c*2*v2, c*v2],
   [c*v0, c*v0, c*v0, c*2*v0],
   [c*v1, c*v1, c*v1, c*2*v1],
   [c*v2, c*v2, c*v2, c*2*v2]]

/-- `AnalyticalTet4::mat_07_bsn` — analytical_tet4.rs:354-374. -/
def mat07Bsn (self : AnalyticalTet4) (s : ℝ) : List (List ℝ) :=
  let c : ℝ := self.volume / 4
  let b00 : ℝ := (self.bb.at 0 0)
  let b01 : ℝ := (self.bb.at 0 1)
  let b02 : ℝ := (self.bb.at 0 2)
  let b10 : ℝ := (self.bb.at 1 0)
  let b11 : ℝ := (self.bb.at 1 1)
  let b12 : ℝ := (self.bb.at 1 2)
  let b20 : ℝ := (self.bb.at 2 0)
  let b21 : ℝ := (self.bb.at 2 1)
  let b22 : ℝ := (self.bb.at 2 2)
  let b30 : ℝ := (self.bb.at 3 0)
  let b31 : ℝ := (self.bb.at 3 1)
  let b32 : ℝ := (self.bb.at 3 2)
  [[c*b00*s, c*b00*s, c*b00*s, c*b00*s],
   [c*b01*s, c*b01*s, c*b01*s, c*b01*s],
   [c*b02*s, c*b02*s, c*b02*s, c*b02*s],
   [c*b10*s, c*b10*s, c*b10*s, c*b10*s],
   [c*b11*s, c*b11*s, c*b11*s, c*b11*s],
   [c*b12*s, c*b12*s, c*b12*s, c*b12*s],
   [c*b20*s, c*b20*s, c*b20*s, c*b20*s],
   [c*b21*s, c*b21*s, c*b21*s, c*b21*s],
   [c*b22*s, c*b22*s, c*b22*s, c*b22*s],
   [c*b30*s, c*b30*s, c*b30*s, c*b30*s],
   [c*b31*s, c*b31*s, c*b31*s, c*b31*s],
   [c*b32*s, c*b32*s, c*b32*s, c*b32*s]]

/-- `AnalyticalTet4::mat_08_ntn` — analytical_tet4.rs:378-398. -/
def mat08Ntn (self : AnalyticalTet4) (sig : Nat → ℝ) : List (List ℝ) :=
  let vv : ℝ := self.volume
  let mat := asMatrix sig
  let a00 : ℝ := (mat 0 0)
  let a01 : ℝ := (mat 0 1)
  let a02 : ℝ := (mat 0 2)
  let a10 : ℝ := (mat 1 0)
  let a11 : ℝ := (mat 1 1)
  let a12 : ℝ := (mat 1 2)
  let a20 : ℝ := (mat 2 0)
  let a21 : ℝ := (mat 2 1)
  let a22 : ℝ := (mat 2 2)
  [[a00*vv/10, a01*vv/10, a02*vv/10, a00*vv/20, a01*vv/20, a02*vv/20, a00*vv/20, a01*vv/20, a02*vv/20, a00*vv/20, a01*vv/20, a02*vv/20],
   [a10*vv/10, a11*vv/10, a12*vv/10, a10*vv/20, a11*vv/20, a12*vv/20, a10*vv/20, a11*vv/20, a12*vv/20, a10*vv/20, a11*vv/20, a12*vv/20],
   [a20*vv/10, a21*vv/10, a22*vv/10, a20*vv/20, a21*vv/20, a22*vv/20, a20*vv/20, a21*vv/20, a22*vv/20, a20*vv/20, a21*vv/20, a22*vv/20],
   [a00*vv/20, a01*vv/20, a02*vv/20, a00*vv/10, a01*vv/10, a02*vv/10, a00*vv/20, a01*vv/20, a02*vv/20, a00*vv/20, a01*vv/20, a02*vv/20],
   [a10*vv/20, a11*vv/20, a12*vv/20, a10*vv/10, a11*vv/10, a12*vv/10, a10*vv/20, a11*vv/20, a12*vv/20, a10*vv/20, a11*vv/20, a12*vv/20],
   [a20*vv/20, a21*vv/20, a22*vv/20, a20*vv/10, a21*vv/10, a22*vv/10, a20*vv/20, a21*vv/20, a22*vv/20, a20*vv/20, a21*vv/20, a22*vv/20],
   [a00*vv/20, a01*vv/20, a02*vv/20, a00*vv/20, a01*vv/20, a02*vv/20, a00*vv/10, a01*vv/10, a02*vv/10, a00*vv/20, a01*vv/20, a02*vv/20],
   [a10*vv/20, a11*vv/20, a12*vv/20, a10*vv/20, a11*vv/20, a12*vv/20, a10*vv/10, a11*vv/10, a12*vv/10, a10*vv/20, a11*vv/20, a12*vv/20],
   [a20*vv/20, a21*vv/20, a22*vv/20, a20*vv/20, a21*vv/20, a22*vv/20, a20*vv/10, a21*vv/10, a22*vv/10, a20*vv/20, a21*vv/20, a22*vv/20],
   [a00*vv/20, a01*vv/20, a02*vv/20, a00*vv/20, a01*vv/20, a02*vv/20, a00*vv/20, a01*vv/20, a02*vv/20, a00*vv/10, a01*vv/10, a02*vv/10],
   [a10*vv/20, a11*vv/20, a12*vv/20, a10*vv/20, a11*vv/20, a12*vv/20, a10*vv/20, a11*vv/20, a12*vv/20, a10*vv/10, a11*vv/10, a12*vv/10],
   [a20*vv/20, a21*vv/20, a22*vv/20, a20*vv/20, a21*vv/20, a22*vv/20, a20*vv/20, a21*vv/20, a22*vv/20, a20*vv/10, a21*vv/10, a22*vv/10]]

/-- `AnalyticalTet4::mat_09_nvb` — analytical_tet4.rs:402-422. -/
def mat09Nvb (self : AnalyticalTet4) (v0 : ℝ) (v1 : ℝ) (v2 : ℝ) : List (List ℝ) :=
  let c : ℝ := self.volume / 4
  let b00 : ℝ := (self.bb.at 0 0)
  let b01 : ℝ := (self.bb.at 0 1)
  let b02 : ℝ := (self.bb.at 0 2)
  let b10 : ℝ := (self.bb.at 1 0)
  let b11 : ℝ := (self.bb.at 1 1)
  let b12 : ℝ := (self.bb.at 1 2)
  let b20 : ℝ := (self.bb.at 2 0)
  let b21 : ℝ := (self.bb.at 2 1)
  let b22 : ℝ := (self.bb.at 2 2)
  let b30 : ℝ := (self.bb.at 3 0)
  let b31 : ℝ := (self.bb.at 3 1)
  let b32 : ℝ := (self.bb.at 3 2)
  [[c*b00*v0, c*b01*v0, c*b02*v0, c*b10*v0, c*b11*v0, c*b12*v0, c*b20*v0, c*b21*v0, c*b22*v0, c*b30*v0, c*b31*v0, c*b32*v0],
   [c*b00*v1, c*b01*v1, c*b02*v1, c*b10*v1, c*b11*v1, c*b12*v1, c*b20*v1, c*b21*v1, c*b22*v1, c*b30*v1, c*b31*v1, c*b32*v1],
   [c*b00*v2, c*b01*v2, c*b02*v2, c*b10*v2, c*b11*v2, c*b12*v2, c*b20*v2, c*b21*v2, c*b22*v2, c*b30*v2, c*b31*v2, c*b32*v2],
   [c*b00*v0, c*b01*v0, c*b02*v0, c*b10*v0, c*b11*v0, c*b12*v0, c*b20*v0, c*b21*v0, c*b22*v0, c*b30*v0, c*b31*v0, c*b32*v0],
   [c*b00*v1, c*b01*v1, c*b02*v1, c*b10*v1, c*b11*v1, c*b12*v1, c*b20*v1, c*b21*v1, c*b22*v1, c*b30*v1, c*b31*v1, c*b32*v1],
   [c*b00*v2, c*b01*v2, c*b02*v2, c*b10*v2, c*b11*v2, c*b12*v2, c*b20*v2, c*b21*v2, c*b22*v2, c*b30*v2, c*b31*v2, c*b32*v2],
   [c*b00*v0, c*b01*v0, c*b02*v0, c*b10*v0, c*b11*v0, c*b12*v0, c*b20*v0, c*b21*v0, c*b22*v0, c*b30*v0, c*b31*v0, c*b32*v0],
   [c*b00*v1, c*b01*v1, c*b02*v1, c*b10*v1, c*b11*v1, c*b12*v1, c*b20*v1, c*b21*v1, c*b22*v1, c*b30*v1, c*b31*v1, c*b32*v1],
   [c*b00*v2, c*b01*v2, c*b02*v2, c*b10*v2, c*b11*v2, c*b12*v2, c*b20*v2, c*b21*v2, c*b22*v2, c*b30*v2, c*b31*v2, c*b32*v2],
   [c*b00*v0, c*b01*v0, c*b02*v0, c*b10*v0, c*b11*v0, c*b12*v0, c*b20*v0, c*b21*v0, c*b22*v0, c*b30*v0, c*b31*v0, c*b32*v0],
   [c*b00*v1, c*b01*v1, c*b02*v1, c*b10*v1, c*b11*v1, c*b12*v1, c*b20*v1, c*b21*v1, c*b22*v1, c*b30*v1, c*b31*v1, c*b32*v1],
   [c*b00*v2, c*b01*v2, c*b02*v2, c*b10*v2, c*b11*v2, c*b12*v2, c*b20*v2, c*b21*v2, c*b22*v2, c*b30*v2, c*b31*v2, c*b32*v2]]

/-- `AnalyticalTet4::mat_10_bdb`, `dd` being the modulus computed from `young` and `poisson` — analytical_tet4.rs:431-441. -/
def mat10Bdb (self : AnalyticalTet4) (dd : Nat → Nat → ℝ) : List (List ℝ) :=
  let bb_t_dd := matTMatMul 6 12 6 self.bbe dd
  matMatMul 6 12 12 self.volume bb_t_dd self.bbe

end AnalyticalTet4

/-- `AnalyticalQua4` and `AnalyticalQua4::new` (half side lengths) — analytical_qua4.rs:4-7, 13-15. -/
structure AnalyticalQua4 where
  a : ℝ
  b : ℝ

namespace AnalyticalQua4

/-- `AnalyticalQua4::mat_01_nsn` — analytical_qua4.rs:21-29. -/
def mat01Nsn (self : AnalyticalQua4) (s : ℝ) (th : ℝ) : List (List ℝ) :=
  let c : ℝ := th * s * self.a * self.b / 9
  [[c * 4, c * 2, c * 1, c * 2],
   [c * 2, c * 4, c * 2, c * 1],
   [c * 1, c * 2, c * 4, c * 2],
   [c * 2, c * 1, c * 2, c * 4]]

/-- `AnalyticalQua4::mat_03_btb` — analytical_qua4.rs:36-45. -/
def mat03Btb (self : AnalyticalQua4) (kx : ℝ) (ky : ℝ) : List (List ℝ) :=
  let a : ℝ := self.a
  let b : ℝ := self.b
  [[ (b*kx)/(3*a) + (a*ky)/(3*b), -(b*kx)/(3*a) + (a*ky)/(6*b), -(b*kx)/(6*a) - (a*ky)/(6*b), (b*kx)/(6*a) - (a*ky)/(3*b)],
   [-(b*kx)/(3*a) + (a*ky)/(6*b), (b*kx)/(3*a) + (a*ky)/(3*b), (b*kx)/(6*a) - (a*ky)/(3*b), -(b*kx)/(6*a) - (a*ky)/(6*b)],
   [-(b*kx)/(6*a) - (a*ky)/(6*b), (b*kx)/(6*a) - (a*ky)/(3*b), (b*kx)/(3*a) + (a*ky)/(3*b), -(b*kx)/(3*a) + (a*ky)/(6*b)],
   [ (b*kx)/(6*a) - (a*ky)/(3*b), -(b*kx)/(6*a) - (a*ky)/(6*b), -(b*kx)/(3*a) + (a*ky)/(6*b), (b*kx)/(3*a) + (a*ky)/(3*b)]]

end AnalyticalQua4

/-- `AnalyticalQua8` and `AnalyticalQua8::new` (half side lengths) — analytical_qua8.rs:5-8, 14-16. -/
structure AnalyticalQua8 where
  a : ℝ
  b : ℝ

namespace AnalyticalQua8

/-- `AnalyticalQua8::mat_01_nsn` — analytical_qua8.rs:23-36. -/
def mat01Nsn (self : AnalyticalQua8) (s : ℝ) (th : ℝ) : List (List ℝ) :=
  let c : ℝ := -th * s * self.a * self.b
  [[(-(2/15))*c , (-(2/45))*c , (-(1/15))*c , (-(2/45))*c , (2*c)/15 , (8*c)/45 , (8*c)/45 , (2*c)/15],
   [(-(2/45))*c , (-(2/15))*c , (-(2/45))*c , (-(1/15))*c , (2*c)/15 , (2*c)/15 , (8*c)/45 , (8*c)/45],
   [(-(1/15))*c , (-(2/45))*c , (-(2/15))*c , (-(2/45))*c , (8*c)/45 , (2*c)/15 , (2*c)/15 , (8*c)/45],
   [(-(2/45))*c , (-(1/15))*c , (-(2/45))*c , (-(2/15))*c , (8*c)/45 , (8*c)/45 , (2*c)/15 , (2*c)/15],
   [(2*c)/15 , (2*c)/15 , (8*c)/45 , (8*c)/45 , (-(32/45))*c , (-(4/9))*c , (-(16/45))*c , (-(4/9))*c],
   [(8*c)/45 , (2*c)/15 , (2*c)/15 , (8*c)/45 , (-(4/9))*c , (-(32/45))*c , (-(4/9))*c , (-(16/45))*c],
   [(8*c)/45 , (8*c)/45 , (2*c)/15 , (2*c)/15 , (-(16/45))*c , (-(4/9))*c , (-(32/45))*c , (-(4/9))*c],
   [(2*c)/15 , (8*c)/45 , (8*c)/45 , (2*c)/15 , (-(4/9))*c , (-(16/45))*c , (-(4/9))*c , (-(32/45))*c]]

/-- `AnalyticalQua8::mat_03_btb` — analytical_qua8.rs:43-57. -/
def mat03Btb (self : AnalyticalQua8) (kx : ℝ) (ky : ℝ) : List (List ℝ) :=
  let a : ℝ := self.a
  let b : ℝ := self.b
  [[(26*b*kx)/(45*a) + (26*a*ky)/(45*b) , (14*b*kx)/(45*a) + (17*a*ky)/(90*b) , (23*b*kx)/(90*a) + (23*a*ky)/(90*b) , (17*b*kx)/(90*a) + (14*a*ky)/(45*b) , (-8*b*kx)/(9*a) + (a*ky)/(15*b) , -(b*kx)/(15*a) - (4*a*ky)/(9*b) , (-4*b*kx)/(9*a) - (a*ky)/(15*b) , (b*kx)/(15*a) - (8*a*ky)/(9*b)],
   [(14*b*kx)/(45*a) + (17*a*ky)/(90*b) , (26*b*kx)/(45*a) + (26*a*ky)/(45*b) , (17*b*kx)/(90*a) + (14*a*ky)/(45*b) , (23*b*kx)/(90*a) + (23*a*ky)/(90*b) , (-8*b*kx)/(9*a) + (a*ky)/(15*b) , (b*kx)/(15*a) - (8*a*ky)/(9*b) , (-4*b*kx)/(9*a) - (a*ky)/(15*b) , -(b*kx)/(15*a) - (4*a*ky)/(9*b)],
   [(23*b*kx)/(90*a) + (23*a*ky)/(90*b) , (17*b*kx)/(90*a) + (14*a*ky)/(45*b) , (26*b*kx)/(45*a) + (26*a*ky)/(45*b) , (14*b*kx)/(45*a) + (17*a*ky)/(90*b) , (-4*b*kx)/(9*a) - (a*ky)/(15*b) , (b*kx)/(15*a) - (8*a*ky)/(9*b) , (-8*b*kx)/(9*a) + (a*ky)/(15*b) , -(b*kx)/(15*a) - (4*a*ky)/(9*b)],
   [(17*b*kx)/(90*a) + (14*a*ky)/(45*b) , (23*b*kx)/(90*a) + (23*a*ky)/(90*b) , (14*b*kx)/(45*a) + (17*a*ky)/(90*b) , (26*b*kx)/(45*a) + (26*a*ky)/(45*b) , (-4*b*kx)/(9*a) - (a*ky)/(15*b) , -(b*kx)/(15*a) - (4*a*ky)/(9*b) , (-8*b*kx)/(9*a) + (a*ky)/(15*b) , (b*kx)/(15*a) - (8*a*ky)/(9*b)],
   [(-8*b*kx)/(9*a) + (a*ky)/(15*b) , (-8*b*kx)/(9*a) + (a*ky)/(15*b) , (-4*b*kx)/(9*a) - (a*ky)/(15*b) , (-4*b*kx)/(9*a) - (a*ky)/(15*b) , (16*b*kx)/(9*a) + (8*a*ky)/(15*b) , 0 , (8*b*kx)/(9*a) - (8*a*ky)/(15*b) , 0],
   [-(b*kx)/(15*a) - (4*a*ky)/(9*b) , (b*kx)/(15*a) - (8*a*ky)/(9*b) , (b*kx)/(15*a) - (8*a*ky)/(9*b) , -(b*kx)/(15*a) - (4*a*ky)/(9*b) , 0 , (8*b*kx)/(15*a) + (16*a*ky)/(9*b) , 0 , (-8*b*kx)/(15*a) + (8*a*ky)/(9*b)],
   [(-4*b*kx)/(9*a) - (a*ky)/(15*b) , (-4*b*kx)/(9*a) - (a*ky)/(15*b) , (-8*b*kx)/(9*a) + (a*ky)/(15*b) , (-8*b*kx)/(9*a) + (a*ky)/(15*b) , (8*b*kx)/(9*a) - (8*a*ky)/(15*b) , 0 , (16*b*kx)/(9*a) + (8*a*ky)/(15*b) , 0],
   [(b*kx)/(15*a) - (8*a*ky)/(9*b) , -(b*kx)/(15*a) - (4*a*ky)/(9*b) , -(b*kx)/(15*a) - (4*a*ky)/(9*b) , (b*kx)/(15*a) - (8*a*ky)/(9*b) , 0 , (-8*b*kx)/(15*a) + (8*a*ky)/(9*b) , 0 , (8*b*kx)/(15*a) + (16*a*ky)/(9*b)]]

/-- `AnalyticalQua8::mat_04_nsb` — analytical_qua8.rs:61-71. -/
def mat04Nsb (self : AnalyticalQua8) (s : ℝ) : List (List ℝ) :=
  let a : ℝ := self.a
  let b : ℝ := self.b
  let c : ℝ := s / 18
  [[-7*b*c, -7*a*c, -b*c, -2*a*c, -2*b*c, -2*a*c, -2*b*c, -a*c, 8*b*c, -6*a*c, 6*b*c, 4*a*c, 4*b*c, 6*a*c, -6*b*c, 8*a*c],
   [ b*c, -2*a*c, 7*b*c, -7*a*c, 2*b*c, -a*c, 2*b*c, -2*a*c, -8*b*c, -6*a*c, 6*b*c, 8*a*c, -4*b*c, 6*a*c, -6*b*c, 4*a*c],
   [ 2*b*c, 2*a*c, 2*b*c, a*c, 7*b*c, 7*a*c, b*c, 2*a*c, -4*b*c, -6*a*c, 6*b*c, -8*a*c, -8*b*c, 6*a*c, -6*b*c, -4*a*c],
   [-2*b*c, a*c, -2*b*c, 2*a*c, -b*c, 2*a*c, -7*b*c, 7*a*c, 4*b*c, -6*a*c, 6*b*c, -4*a*c, 8*b*c, 6*a*c, -6*b*c, -8*a*c]]

/-- `AnalyticalQua8::mat_05_btn` — analytical_qua8.rs:75-86. -/
def mat05Btn (self : AnalyticalQua8) (tt : Nat → ℝ) : List (List ℝ) :=
  let a : ℝ := self.a
  let b : ℝ := self.b
  let t00 : ℝ := (asMatrix tt 0 0)
  let t01 : ℝ := (asMatrix tt 0 1)
  let t10 : ℝ := (asMatrix tt 1 0)
  let t11 : ℝ := (asMatrix tt 1 1)
  [[(b*t00 + a*t10)/18,(b*t01 + a*t11)/18,(b*t00 + 2*a*t10)/18,(b*t01 + 2*a*t11)/18,(b*t00 + a*t10)/9,(b*t01 + a*t11)/9,(2*b*t00 + a*t10)/18,(2*b*t01 + a*t11)/18, (-4*b*t00 - 3*a*t10)/9,(-4*b*t01 - 3*a*t11)/9,(-3*b*t00 - 2*a*t10)/9,(-3*b*t01 - 2*a*t11)/9,(-2*b*t00 - 3*a*t10)/9,(-2*b*t01 - 3*a*t11)/9,(-3*b*t00 - 4*a*t10)/9, (-3*b*t01 - 4*a*t11)/9],
   [(-(b*t00) + 2*a*t10)/18,(-(b*t01) + 2*a*t11)/18,(-(b*t00) + a*t10)/18,(-(b*t01) + a*t11)/18,(-2*b*t00 + a*t10)/18,(-2*b*t01 + a*t11)/18, (-(b*t00) + a*t10)/9,(-(b*t01) + a*t11)/9,(4*b*t00 - 3*a*t10)/9,(4*b*t01 - 3*a*t11)/9,(3*b*t00 - 4*a*t10)/9,(3*b*t01 - 4*a*t11)/9,(2*b*t00 - 3*a*t10)/9,(2*b*t01 - 3*a*t11)/9, (3*b*t00 - 2*a*t10)/9,(3*b*t01 - 2*a*t11)/9],
   [(-(b*t00) - a*t10)/9,(-(b*t01) - a*t11)/9,(-2*b*t00 - a*t10)/18,(-2*b*t01 - a*t11)/18,(-(b*t00) - a*t10)/18,(-(b*t01) - a*t11)/18, (-(b*t00) - 2*a*t10)/18,(-(b*t01) - 2*a*t11)/18,(2*b*t00 + 3*a*t10)/9,(2*b*t01 + 3*a*t11)/9,(3*b*t00 + 4*a*t10)/9,(3*b*t01 + 4*a*t11)/9,(4*b*t00 + 3*a*t10)/9,(4*b*t01 + 3*a*t11)/9, (3*b*t00 + 2*a*t10)/9,(3*b*t01 + 2*a*t11)/9],
   [(2*b*t00 - a*t10)/18,(2*b*t01 - a*t11)/18,(b*t00 - a*t10)/9,(b*t01 - a*t11)/9,(b*t00 - 2*a*t10)/18,(b*t01 - 2*a*t11)/18, (b*t00 - a*t10)/18,(b*t01 - a*t11)/18,(-2*b*t00 + 3*a*t10)/9,(-2*b*t01 + 3*a*t11)/9,(-3*b*t00 + 2*a*t10)/9,(-3*b*t01 + 2*a*t11)/9,(-4*b*t00 + 3*a*t10)/9,(-4*b*t01 + 3*a*t11)/9, (-3*b*t00 + 4*a*t10)/9,(-3*b*t01 + 4*a*t11)/9]]

/-- `AnalyticalQua8::mat_06_nvn` — analytical_qua8.rs:90-110. -/
def mat06Nvn (self : AnalyticalQua8) (v0 : ℝ) (v1 : ℝ) : List (List ℝ) :=
  let c : ℝ := self.a * self.b / 9
  [[ 0, -v0*c, -v0*c, -v0*c],
   [ 0, -v1*c, -v1*c, -v1*c],
   [ -v0*c, 0, -v0*c, -v0*c],
   [ -v1*c, 0, -v1*c, -v1*c],
   [ -v0*c, -v0*c, 0, -v0*c],
   [ -v1*c, -v1*c, 0, -v1*c],
   [ -v0*c, -v0*c, -v0*c, 0],
   [ -v1*c, -v1*c, -v1*c, 0],
   [4*v0*c, 4*v0*c, 2*v0*c, 2*v0*c],
   [4*v1*c, 4*v1*c, 2*v1*c, 2*v1*c],
   [2*v0*c, 4*v0*c, 4*v0*c, 2*v0*c],
   [2*v1*c, 4*v1*c, 4*v1*c, 2*v1*c],
   [2*v0*c, 2*v0*c, 4*v0*c, 4*v0*c],
   [2*v1*c, 2*v1*c, 4*v1*c, 4*v1*c],
   [4*v0*c, 2*v0*c, 2*v0*c, 4*v0*c],
   [4*v1*c, 2*v1*c, 2*v1*c, 4*v1*c]]

/-- `AnalyticalQua8::mat_07_bsn` — analytical_qua8.rs:114-136. -/
def mat07Bsn (self : AnalyticalQua8) (s : ℝ) : List (List ℝ) :=
  let a : ℝ := self.a
  let b : ℝ := self.b
  let c : ℝ := s / 18
  [[-7*b*c, b*c, 2*b*c, -2*b*c],
   [-7*a*c, -2*a*c, 2*a*c, a*c],
   [ -b*c, 7*b*c, 2*b*c, -2*b*c],
   [-2*a*c, -7*a*c, a*c, 2*a*c],
   [-2*b*c, 2*b*c, 7*b*c, -b*c],
   [-2*a*c, -a*c, 7*a*c, 2*a*c],
   [-2*b*c, 2*b*c, b*c, -7*b*c],
   [ -a*c, -2*a*c, 2*a*c, 7*a*c],
   [ 8*b*c, -8*b*c, -4*b*c, 4*b*c],
   [-6*a*c, -6*a*c, -6*a*c, -6*a*c],
   [ 6*b*c, 6*b*c, 6*b*c, 6*b*c],
   [ 4*a*c, 8*a*c, -8*a*c, -4*a*c],
   [ 4*b*c, -4*b*c, -8*b*c, 8*b*c],
   [ 6*a*c, 6*a*c, 6*a*c, 6*a*c],
   [-6*b*c, -6*b*c, -6*b*c, -6*b*c],
   [ 8*a*c, 4*a*c, -4*a*c, -8*a*c]]

end AnalyticalQua8

end
end Gemlab.Analytical
