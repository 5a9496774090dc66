import Verif.Lib.PolyExpr
import Verif.Model.GeoKind

/-!
# Model of the interpolation functions and their coded derivatives, `/repo/src/shapes/{lin,tri,qua,tet,hex}*.rs`

GENERATED by `tools/gen_shapes.py` from the Rust source, statement by statement: each `let` is kept, `interp[m] = e` gives
entry `m` of the list, `deriv.set(m, i, e)` gives entry `[m][i]` of the table (the generator checks that every entry is
assigned exactly once). Expressions are terms of `PE`, evaluated in exact arithmetic (`1.0 / 3.0` is the rational 1/3).
-/
namespace Gemlab.Shapes
set_option linter.unusedVariables false

/-- `Lin2::calc_interp` — lin2.rs:44-49. -/
def lin2Interp : List PE :=
  let r : PE := (PE.x 0)
  [ (PE.c (1/2)) * (1 - r),
    (PE.c (1/2)) * (1 + r) ]

/-- `Lin2::calc_deriv` — lin2.rs:61-64. -/
def lin2Deriv : List (List PE) :=
  [ [- (PE.c (1/2))],
    [(PE.c (1/2))] ]

/-- `Lin3::calc_interp` — lin3.rs:49-55. -/
def lin3Interp : List PE :=
  let r : PE := (PE.x 0)
  [ (PE.c (1/2)) * (r * r - r),
    (PE.c (1/2)) * (r * r + r),
    1 - r * r ]

/-- `Lin3::calc_deriv` — lin3.rs:67-73. -/
def lin3Deriv : List (List PE) :=
  let r : PE := (PE.x 0)
  [ [r - (PE.c (1/2))],
    [r + (PE.c (1/2))],
    [- 2 * r] ]

/-- `Lin4::calc_interp` — lin4.rs:48-55. -/
def lin4Interp : List PE :=
  let r : PE := (PE.x 0)
  [ (- 9 * r * r * r + 9 * r * r + r - 1) / 16,
    (9 * r * r * r + 9 * r * r - r - 1) / 16,
    (27 * r * r * r - 9 * r * r - 27 * r + 9) / 16,
    (- 27 * r * r * r - 9 * r * r + 27 * r + 9) / 16 ]

/-- `Lin4::calc_deriv` — lin4.rs:67-74. -/
def lin4Deriv : List (List PE) :=
  let r : PE := (PE.x 0)
  [ [1 / 16 * (- 27 * r * r + 18 * r + 1)],
    [1 / 16 * (27 * r * r + 18 * r - 1)],
    [1 / 16 * (81 * r * r - 18 * r - 27)],
    [1 / 16 * (- 81 * r * r - 18 * r + 27)] ]

/-- `Lin5::calc_interp` — lin5.rs:50-58. -/
def lin5Interp : List PE :=
  let r : PE := (PE.x 0)
  [ (r - 1) * (1 - 2 * r) * r * (- 1 - 2 * r) / 6,
    (1 - 2 * r) * r * (- 1 - 2 * r) * (1 + r) / 6,
    (1 - r) * (1 - 2 * r) * (- 1 - 2 * r) * (- 1 - r),
    4 * (1 - r) * (1 - 2 * r) * r * (- 1 - r) / 3,
    4 * (1 - r) * r * (- 1 - 2 * r) * (- 1 - r) / 3 ]

/-- `Lin5::calc_deriv` — lin5.rs:70-115. -/
def lin5Deriv : List (List PE) :=
  let r : PE := (PE.x 0)
  [ [- ((1 - 2 * r) * (r - 1) * r) / 3 - ((- 2 * r - 1) * (r - 1) * r) / 3 + ((- 2 * r - 1) * (1 - 2 * r) * r) / 6 + ((- 2 * r - 1) * (1 - 2 * r) * (r - 1)) / 6],
    [- ((1 - 2 * r) * r * (r + 1)) / 3 - ((- 2 * r - 1) * r * (r + 1)) / 3 + ((- 2 * r - 1) * (1 - 2 * r) * (r + 1)) / 6 + ((- 2 * r - 1) * (1 - 2 * r) * r) / 6],
    [- 2 * (1 - 2 * r) * (- r - 1) * (1 - r) - 2 * (- 2 * r - 1) * (- r - 1) * (1 - r) - (- 2 * r - 1) * (1 - 2 * r) * (1 - r) - (- 2 * r - 1) * (1 - 2 * r) * (- r - 1)],
    [- (8 * (- r - 1) * (1 - r) * r) / 3 - (4 * (1 - 2 * r) * (1 - r) * r) / 3 - (4 * (1 - 2 * r) * (- r - 1) * r) / 3 + (4 * (1 - 2 * r) * (- r - 1) * (1 - r)) / 3],
    [- (8 * (- r - 1) * (1 - r) * r) / 3 - (4 * (- 2 * r - 1) * (1 - r) * r) / 3 - (4 * (- 2 * r - 1) * (- r - 1) * r) / 3 + (4 * (- 2 * r - 1) * (- r - 1) * (1 - r)) / 3] ]

/-- `Tri3::calc_interp` — tri3.rs:94-100. -/
def tri3Interp : List PE :=
  let r : PE := (PE.x 0)
  let s : PE := (PE.x 1)
  [ 1 - r - s,
    r,
    s ]

/-- `Tri3::calc_deriv` — tri3.rs:112-120. -/
def tri3Deriv : List (List PE) :=
  [ [- 1, - 1],
    [1, 0],
    [0, 1] ]

/-- `Tri6::calc_interp` — tri6.rs:101-110. -/
def tri6Interp : List PE :=
  let r : PE := (PE.x 0)
  let s : PE := (PE.x 1)
  [ 1 - (r + s) * (3 - 2 * (r + s)),
    r * (2 * r - 1),
    s * (2 * s - 1),
    4 * r * (1 - (r + s)),
    4 * r * s,
    4 * s * (1 - (r + s)) ]

/-- `Tri6::calc_deriv` — tri6.rs:122-138. -/
def tri6Deriv : List (List PE) :=
  let r : PE := (PE.x 0)
  let s : PE := (PE.x 1)
  [ [- 3 + 4 * (r + s), - 3 + 4 * (r + s)],
    [4 * r - 1, 0],
    [0, 4 * s - 1],
    [4 - 8 * r - 4 * s, - 4 * r],
    [4 * s, 4 * r],
    [- 4 * s, 4 - 4 * r - 8 * s] ]

/-- `Tri10::calc_interp` — tri10.rs:109-127. -/
def tri10Interp : List PE :=
  let r : PE := (PE.x 0)
  let s : PE := (PE.x 1)
  let z : PE := 1 - r - s
  let t1 : PE := s * (3 * s - 1)
  let t2 : PE := z * (3 * z - 1)
  let t3 : PE := r * (3 * r - 1)
  [ (PE.c (1/2)) * t2 * (3 * z - 2),
    (PE.c (1/2)) * t3 * (3 * r - 2),
    (PE.c (1/2)) * t1 * (3 * s - 2),
    (PE.c (9/2)) * r * t2,
    (PE.c (9/2)) * s * t3,
    (PE.c (9/2)) * z * t1,
    (PE.c (9/2)) * z * t3,
    (PE.c (9/2)) * r * t1,
    (PE.c (9/2)) * s * t2,
    27 * s * z * r ]

/-- `Tri10::calc_deriv` — tri10.rs:139-177. -/
def tri10Deriv : List (List PE) :=
  let r : PE := (PE.x 0)
  let s : PE := (PE.x 1)
  let z : PE := 1 - r - s
  let q0 : PE := (PE.c (9/2)) * (6 * z - 1)
  let q1 : PE := (PE.c (9/2)) * s * (3 * s - 1)
  let q2 : PE := (PE.c (9/2)) * z * (3 * z - 1)
  let q3 : PE := (PE.c (9/2)) * r * (3 * r - 1)
  let q4 : PE := (PE.c (9/2)) * (6 * s - 1)
  let q5 : PE := (PE.c (9/2)) * (6 * r - 1)
  let q6 : PE := q0 * s
  let q7 : PE := q0 * r
  let q8 : PE := - (PE.c (1/2)) * (27 * z * z - 18 * z + 2)
  let q9 : PE := (PE.c (1/2)) * (27 * s * s - 18 * s + 2)
  let q10 : PE := (PE.c (1/2)) * (27 * r * r - 18 * r + 2)
  [ [q8, q8],
    [q10, 0],
    [0, q9],
    [q2 - q7, - q7],
    [s * q5, q3],
    [- q1, z * q4 - q1],
    [z * q5 - q3, - q3],
    [q1, r * q4],
    [- q6, q2 - q6],
    [27 * s * (z - r), 27 * r * (z - s)] ]

/-- `Tri15::calc_interp` — tri15.rs:128-159. -/
def tri15Interp : List PE :=
  let r : PE := (PE.x 0)
  let s : PE := (PE.x 1)
  let pt1 : PE := 128 / 3
  let pt2 : PE := 32 / 3
  let cc : PE := 1 - r - s
  let t1 : PE := r - (PE.c (1/4))
  let t2 : PE := r - (PE.c (1/2))
  let t3 : PE := r - (PE.c (3/4))
  let t4 : PE := s - (PE.c (1/4))
  let t5 : PE := s - (PE.c (1/2))
  let t6 : PE := s - (PE.c (3/4))
  let t7 : PE := cc - (PE.c (1/4))
  let t8 : PE := cc - (PE.c (1/2))
  let t9 : PE := cc - (PE.c (3/4))
  [ pt2 * cc * t7 * t8 * t9,
    pt2 * r * t1 * t2 * t3,
    pt2 * s * t4 * t5 * t6,
    64 * cc * r * t1 * t7,
    64 * r * s * t1 * t4,
    64 * s * cc * t4 * t7,
    pt1 * cc * r * t7 * t8,
    pt1 * cc * r * t1 * t2,
    pt1 * r * s * t1 * t2,
    pt1 * r * s * t4 * t5,
    pt1 * s * cc * t4 * t5,
    pt1 * s * cc * t7 * t8,
    128 * r * s * cc * t7,
    128 * r * s * t1 * cc,
    128 * r * s * cc * t4 ]

/-- `Tri15::calc_deriv` — tri15.rs:171-218. -/
def tri15Deriv : List (List PE) :=
  let r : PE := (PE.x 0)
  let s : PE := (PE.x 1)
  let pt1 : PE := 128 / 3
  let pt2 : PE := 32 / 3
  let cc : PE := 1 - r - s
  let t1 : PE := r - (PE.c (1/4))
  let t2 : PE := r - (PE.c (1/2))
  let t3 : PE := r - (PE.c (3/4))
  let t4 : PE := s - (PE.c (1/4))
  let t5 : PE := s - (PE.c (1/2))
  let t6 : PE := s - (PE.c (3/4))
  let t7 : PE := cc - (PE.c (1/4))
  let t8 : PE := cc - (PE.c (1/2))
  let t9 : PE := cc - (PE.c (3/4))
  [ [- pt2 * (t8 * t9 * (t7 + cc) + cc * t7 * (t8 + t9)), - pt2 * (t8 * t9 * (t7 + cc) + cc * t7 * (t8 + t9))],
    [pt2 * (t2 * t3 * (t1 + r) + r * t1 * (t3 + t2)), 0],
    [0, pt2 * (t5 * t6 * (t4 + s) + s * t4 * (t6 + t5))],
    [64 * (cc * t7 * (t1 + r) - r * t1 * (t7 + cc)), - 64 * r * t1 * (t7 + cc)],
    [64 * s * t4 * (t1 + r), 64 * r * t1 * (t4 + s)],
    [- 64 * s * t4 * (t7 + cc), 64 * (cc * t7 * (t4 + s) - s * t4 * (t7 + cc))],
    [pt1 * (cc * t7 * t8 - r * (t8 * (t7 + cc) + cc * t7)), - pt1 * r * (t8 * (t7 + cc) + cc * t7)],
    [pt1 * (cc * (t2 * (t1 + r) + r * t1) - r * t1 * t2), - pt1 * r * t1 * t2],
    [pt1 * s * (t2 * (t1 + r) + r * t1), pt1 * r * t1 * t2],
    [pt1 * s * t4 * t5, pt1 * r * (t5 * (t4 + s) + s * t4)],
    [- pt1 * s * t4 * t5, pt1 * ((cc * (t5 * (t4 + s) + s * t4)) - s * t4 * t5)],
    [- pt1 * s * (t8 * (t7 + cc) + cc * t7), pt1 * (cc * t7 * t8 - s * (t8 * (t7 + cc) + cc * t7))],
    [128 * s * (cc * t7 - r * (t7 + cc)), 128 * r * (cc * t7 - s * (cc + t7))],
    [128 * s * (cc * (t1 + r) - r * t1), 128 * r * t1 * (cc - s)],
    [128 * s * t4 * (cc - r), 128 * r * (cc * (t4 + s) - s * t4)] ]

/-- `Qua4::calc_interp` — qua4.rs:89-96. -/
def qua4Interp : List PE :=
  let r : PE := (PE.x 0)
  let s : PE := (PE.x 1)
  [ (1 - r - s + r * s) / 4,
    (1 + r - s - r * s) / 4,
    (1 + r + s + r * s) / 4,
    (1 - r + s - r * s) / 4 ]

/-- `Qua4::calc_deriv` — qua4.rs:108-122. -/
def qua4Deriv : List (List PE) :=
  let r : PE := (PE.x 0)
  let s : PE := (PE.x 1)
  [ [(- 1 + s) / 4, (- 1 + r) / 4],
    [(1 - s) / 4, (- 1 - r) / 4],
    [(1 + s) / 4, (1 + r) / 4],
    [(- 1 - s) / 4, (1 - r) / 4] ]

/-- `Qua8::calc_interp` — qua8.rs:106-117. -/
def qua8Interp : List PE :=
  let r : PE := (PE.x 0)
  let s : PE := (PE.x 1)
  [ (1 - r) * (1 - s) * (- r - s - 1) / 4,
    (1 + r) * (1 - s) * (r - s - 1) / 4,
    (1 + r) * (1 + s) * (r + s - 1) / 4,
    (1 - r) * (1 + s) * (- r + s - 1) / 4,
    (1 - s) * (1 - r * r) / 2,
    (1 + r) * (1 - s * s) / 2,
    (1 + s) * (1 - r * r) / 2,
    (1 - r) * (1 - s * s) / 2 ]

/-- `Qua8::calc_deriv` — qua8.rs:129-149. -/
def qua8Deriv : List (List PE) :=
  let r : PE := (PE.x 0)
  let s : PE := (PE.x 1)
  [ [- (1 - s) * (- r - r - s) / 4, - (1 - r) * (- s - s - r) / 4],
    [(1 - s) * (r + r - s) / 4, - (1 + r) * (- s - s + r) / 4],
    [(1 + s) * (r + r + s) / 4, (1 + r) * (s + s + r) / 4],
    [- (1 + s) * (- r - r + s) / 4, (1 - r) * (s + s - r) / 4],
    [- (1 - s) * r, - (1 - r * r) / 2],
    [(1 - s * s) / 2, - (1 + r) * s],
    [- (1 + s) * r, (1 - r * r) / 2],
    [- (1 - s * s) / 2, - (1 - r) * s] ]

/-- `Qua9::calc_interp` — qua9.rs:105-119. -/
def qua9Interp : List PE :=
  let r : PE := (PE.x 0)
  let s : PE := (PE.x 1)
  [ r * (r - 1) * s * (s - 1) / 4,
    r * (r + 1) * s * (s - 1) / 4,
    r * (r + 1) * s * (s + 1) / 4,
    r * (r - 1) * s * (s + 1) / 4,
    - (r * r - 1) * s * (s - 1) / 2,
    - r * (r + 1) * (s * s - 1) / 2,
    - (r * r - 1) * s * (s + 1) / 2,
    - r * (r - 1) * (s * s - 1) / 2,
    (r * r - 1) * (s * s - 1) ]

/-- `Qua9::calc_deriv` — qua9.rs:131-156. -/
def qua9Deriv : List (List PE) :=
  let r : PE := (PE.x 0)
  let s : PE := (PE.x 1)
  [ [(r + r - 1) * s * (s - 1) / 4, r * (r - 1) * (s + s - 1) / 4],
    [(r + r + 1) * s * (s - 1) / 4, r * (r + 1) * (s + s - 1) / 4],
    [(r + r + 1) * s * (s + 1) / 4, r * (r + 1) * (s + s + 1) / 4],
    [(r + r - 1) * s * (s + 1) / 4, r * (r - 1) * (s + s + 1) / 4],
    [- (r + r) * s * (s - 1) / 2, - (r * r - 1) * (s + s - 1) / 2],
    [- (r + r + 1) * (s * s - 1) / 2, - r * (r + 1) * (s + s) / 2],
    [- (r + r) * s * (s + 1) / 2, - (r * r - 1) * (s + s + 1) / 2],
    [- (r + r - 1) * (s * s - 1) / 2, - r * (r - 1) * (s + s) / 2],
    [2 * r * (s * s - 1), 2 * s * (r * r - 1)] ]

/-- `Qua12::calc_interp` — qua12.rs:130-150. -/
def qua12Interp : List PE :=
  let r : PE := (PE.x 0)
  let s : PE := (PE.x 1)
  let rm : PE := 1 - r
  let rp : PE := 1 + r
  let sm : PE := 1 - s
  let sp : PE := 1 + s
  [ rm * sm * (9 * (r * r + s * s) - 10) / 32,
    rp * sm * (9 * (r * r + s * s) - 10) / 32,
    rp * sp * (9 * (r * r + s * s) - 10) / 32,
    rm * sp * (9 * (r * r + s * s) - 10) / 32,
    9 * (1 - r * r) * (1 - 3 * r) * sm / 32,
    9 * (1 - s * s) * (1 - 3 * s) * rp / 32,
    9 * (1 - r * r) * (1 + 3 * r) * sp / 32,
    9 * (1 - s * s) * (1 + 3 * s) * rm / 32,
    9 * (1 - r * r) * (1 + 3 * r) * sm / 32,
    9 * (1 - s * s) * (1 + 3 * s) * rp / 32,
    9 * (1 - r * r) * (1 - 3 * r) * sp / 32,
    9 * (1 - s * s) * (1 - 3 * s) * rm / 32 ]

/-- `Qua12::calc_deriv` — qua12.rs:162-195. -/
def qua12Deriv : List (List PE) :=
  let r : PE := (PE.x 0)
  let s : PE := (PE.x 1)
  let rm : PE := 1 - r
  let rp : PE := 1 + r
  let sm : PE := 1 - s
  let sp : PE := 1 + s
  [ [sm * (9 * (2 * r - 3 * r * r - s * s) + 10) / 32, rm * (9 * (2 * s - 3 * s * s - r * r) + 10) / 32],
    [sm * (9 * (2 * r + 3 * r * r + s * s) - 10) / 32, rp * (9 * (2 * s - 3 * s * s - r * r) + 10) / 32],
    [sp * (9 * (2 * r + 3 * r * r + s * s) - 10) / 32, rp * (9 * (2 * s + 3 * s * s + r * r) - 10) / 32],
    [sp * (9 * (2 * r - 3 * r * r - s * s) + 10) / 32, rm * (9 * (2 * s + 3 * s * s + r * r) - 10) / 32],
    [9 * sm * (9 * r * r - 2 * r - 3) / 32, - 9 * (1 - r * r) * (1 - 3 * r) / 32],
    [9 * (1 - s * s) * (1 - 3 * s) / 32, 9 * rp * (9 * s * s - 2 * s - 3) / 32],
    [9 * sp * (- 9 * r * r - 2 * r + 3) / 32, 9 * (1 - r * r) * (1 + 3 * r) / 32],
    [- 9 * (1 - s * s) * (1 + 3 * s) / 32, 9 * rm * (- 9 * s * s - 2 * s + 3) / 32],
    [9 * sm * (- 9 * r * r - 2 * r + 3) / 32, - 9 * (1 - r * r) * (1 + 3 * r) / 32],
    [9 * (1 - s * s) * (1 + 3 * s) / 32, 9 * rp * (- 9 * s * s - 2 * s + 3) / 32],
    [9 * sp * (9 * r * r - 2 * r - 3) / 32, 9 * (1 - r * r) * (1 - 3 * r) / 32],
    [- 9 * (1 - s * s) * (1 - 3 * s) / 32, 9 * rm * (9 * s * s - 2 * s - 3) / 32] ]

/-- `Qua16::calc_interp` — qua16.rs:128-159. -/
def qua16Interp : List PE :=
  let r : PE := (PE.x 0)
  let s : PE := (PE.x 1)
  let nn_r0 : PE := (- 9 * r * r * r + 9 * r * r + r - 1) / 16
  let nn_r1 : PE := (9 * r * r * r + 9 * r * r - r - 1) / 16
  let nn_r2 : PE := (27 * r * r * r - 9 * r * r - 27 * r + 9) / 16
  let nn_r3 : PE := (- 27 * r * r * r - 9 * r * r + 27 * r + 9) / 16
  let nn_s0 : PE := (- 9 * s * s * s + 9 * s * s + s - 1) / 16
  let nn_s1 : PE := (9 * s * s * s + 9 * s * s - s - 1) / 16
  let nn_s2 : PE := (27 * s * s * s - 9 * s * s - 27 * s + 9) / 16
  let nn_s3 : PE := (- 27 * s * s * s - 9 * s * s + 27 * s + 9) / 16
  [ nn_r0 * nn_s0,
    nn_r1 * nn_s0,
    nn_r1 * nn_s1,
    nn_r0 * nn_s1,
    nn_r2 * nn_s0,
    nn_r1 * nn_s2,
    nn_r3 * nn_s1,
    nn_r0 * nn_s3,
    nn_r3 * nn_s0,
    nn_r1 * nn_s3,
    nn_r2 * nn_s1,
    nn_r0 * nn_s2,
    nn_r2 * nn_s2,
    nn_r3 * nn_s2,
    nn_r3 * nn_s3,
    nn_r2 * nn_s3 ]

/-- `Qua16::calc_deriv` — qua16.rs:171-231. -/
def qua16Deriv : List (List PE) :=
  let r : PE := (PE.x 0)
  let s : PE := (PE.x 1)
  let nn_r0 : PE := (- 9 * r * r * r + 9 * r * r + r - 1) / 16
  let nn_r1 : PE := (9 * r * r * r + 9 * r * r - r - 1) / 16
  let nn_r2 : PE := (27 * r * r * r - 9 * r * r - 27 * r + 9) / 16
  let nn_r3 : PE := (- 27 * r * r * r - 9 * r * r + 27 * r + 9) / 16
  let nn_s0 : PE := (- 9 * s * s * s + 9 * s * s + s - 1) / 16
  let nn_s1 : PE := (9 * s * s * s + 9 * s * s - s - 1) / 16
  let nn_s2 : PE := (27 * s * s * s - 9 * s * s - 27 * s + 9) / 16
  let nn_s3 : PE := (- 27 * s * s * s - 9 * s * s + 27 * s + 9) / 16
  let dnn_dr0 : PE := (- 27 * r * r + 18 * r + 1) / 16
  let dnn_dr1 : PE := (27 * r * r + 18 * r - 1) / 16
  let dnn_dr2 : PE := (81 * r * r - 18 * r - 27) / 16
  let dnn_dr3 : PE := (- 81 * r * r - 18 * r + 27) / 16
  let dnn_ds0 : PE := (- 27 * s * s + 18 * s + 1) / 16
  let dnn_ds1 : PE := (27 * s * s + 18 * s - 1) / 16
  let dnn_ds2 : PE := (81 * s * s - 18 * s - 27) / 16
  let dnn_ds3 : PE := (- 81 * s * s - 18 * s + 27) / 16
  [ [dnn_dr0 * nn_s0, nn_r0 * dnn_ds0],
    [dnn_dr1 * nn_s0, nn_r1 * dnn_ds0],
    [dnn_dr1 * nn_s1, nn_r1 * dnn_ds1],
    [dnn_dr0 * nn_s1, nn_r0 * dnn_ds1],
    [dnn_dr2 * nn_s0, nn_r2 * dnn_ds0],
    [dnn_dr1 * nn_s2, nn_r1 * dnn_ds2],
    [dnn_dr3 * nn_s1, nn_r3 * dnn_ds1],
    [dnn_dr0 * nn_s3, nn_r0 * dnn_ds3],
    [dnn_dr3 * nn_s0, nn_r3 * dnn_ds0],
    [dnn_dr1 * nn_s3, nn_r1 * dnn_ds3],
    [dnn_dr2 * nn_s1, nn_r2 * dnn_ds1],
    [dnn_dr0 * nn_s2, nn_r0 * dnn_ds2],
    [dnn_dr2 * nn_s2, nn_r2 * dnn_ds2],
    [dnn_dr3 * nn_s2, nn_r3 * dnn_ds2],
    [dnn_dr3 * nn_s3, nn_r3 * dnn_ds3],
    [dnn_dr2 * nn_s3, nn_r2 * dnn_ds3] ]

/-- `Qua17::calc_interp` — qua17.rs:162-194. -/
def qua17Interp : List PE :=
  let r : PE := (PE.x 0)
  let s : PE := (PE.x 1)
  let a : PE := 2 / 3
  let rr : PE := r * r
  let ss : PE := s * s
  let rs : PE := r * s
  let rp : PE := 1 + r
  let rm : PE := 1 - r
  let sp : PE := 1 + s
  let sm : PE := 1 - s
  [ rm * sm * (- 4 * r * (rr - 1) - 4 * s * (ss - 1) + 3 * rs) / 12,
    rp * sm * (4 * r * (rr - 1) - 4 * s * (ss - 1) - 3 * rs) / 12,
    rp * sp * (4 * r * (rr - 1) + 4 * s * (ss - 1) + 3 * rs) / 12,
    rm * sp * (- 4 * r * (rr - 1) + 4 * s * (ss - 1) - 3 * rs) / 12,
    (PE.c (1/2)) * rm * rp * (- s - 4 * rr) * sm,
    (PE.c (1/2)) * sm * sp * (r - 4 * ss) * rp,
    (PE.c (1/2)) * rm * rp * (s - 4 * rr) * sp,
    (PE.c (1/2)) * sm * sp * (- r - 4 * ss) * rm,
    rm * rp * sm * sp,
    - a * r * sm * rm * rp * (1 - 2 * r),
    a * r * sm * rm * rp * (1 + 2 * r),
    - a * s * rp * sm * sp * (1 - 2 * s),
    a * s * rp * sm * sp * (1 + 2 * s),
    a * r * sp * rm * rp * (1 + 2 * r),
    - a * r * sp * rm * rp * (1 - 2 * r),
    a * s * sm * sp * (1 + 2 * s) * rm,
    - a * s * rm * sm * sp * (1 - 2 * s) ]

/-- `Qua17::calc_deriv` — qua17.rs:206-292. -/
def qua17Deriv : List (List PE) :=
  let r : PE := (PE.x 0)
  let s : PE := (PE.x 1)
  let a : PE := 2 / 3
  let rr : PE := r * r
  let ss : PE := s * s
  let rs : PE := r * s
  let rp : PE := 1 + r
  let rm : PE := 1 - r
  let sp : PE := 1 + s
  let sm : PE := 1 - s
  let b : PE := 1 / 12
  let r1 : PE := r - 1
  let rrr : PE := rr * r
  let sss : PE := ss * s
  [ [b * sm * (16 * rrr - 12 * rr - 6 * rs - 8 * r + 4 * sss - s + 4), b * rm * (16 * sss - 12 * ss - 6 * rs - 8 * s + 4 * rrr - r + 4)],
    [b * sm * (16 * rrr + 12 * rr - 6 * rs - 8 * r - 4 * sss + s - 4), - b * rp * (- 16 * sss + 12 * ss - 6 * rs + 8 * s + 4 * rrr - r - 4)],
    [b * sp * (16 * rrr + 12 * rr + 6 * rs - 8 * r + 4 * sss - s - 4), b * rp * (16 * sss + 12 * ss + 6 * rs - 8 * s + 4 * rrr - r - 4)],
    [b * sp * (16 * rrr - 12 * rr + 6 * rs - 8 * r - 4 * sss + s + 4), b * r1 * (- 16 * sss - 12 * ss + 6 * rs + 8 * s + 4 * rrr - r + 4)],
    [r * sm * (8 * rr + s - 4), - (PE.c (1/2)) * r1 * rp * (2 * s - 1 + 4 * rr)],
    [(PE.c (1/2)) * sm * sp * (2 * r - 4 * ss + 1), - s * rp * (- 8 * ss + r + 4)],
    [r * sp * (8 * rr - s - 4), (PE.c (1/2)) * r1 * rp * (- 2 * s + 4 * rr - 1)],
    [(PE.c (1/2)) * sm * sp * (2 * r - 1 + 4 * ss), - s * r1 * (8 * ss + r - 4)],
    [- 2 * r * sm * sp, 2 * s * r1 * rp],
    [- a * (1 - 4 * r - 3 * rr + 8 * rrr) * sm, a * r * r1 * rp * (2 * r - 1)],
    [a * (1 + 4 * r - 3 * rr - 8 * rrr) * sm, a * r * r1 * rp * (1 + 2 * r)],
    [a * s * sm * sp * (- 1 + 2 * s), - a * (1 - 4 * s - 3 * ss + 8 * sss) * rp],
    [a * s * sm * sp * (1 + 2 * s), - a * (- 1 - 4 * s + 3 * ss + 8 * sss) * rp],
    [- a * (- 1 - 4 * r + 3 * rr + 8 * rrr) * sp, - a * r * r1 * rp * (1 + 2 * r)],
    [- a * (1 - 4 * r - 3 * rr + 8 * rrr) * sp, - a * r * r1 * rp * (2 * r - 1)],
    [- a * s * sm * sp * (1 + 2 * s), a * (- 1 - 4 * s + 3 * ss + 8 * sss) * r1],
    [a * s * sm * sp * (1 - 2 * s), a * (1 - 4 * s - 3 * ss + 8 * sss) * r1] ]

/-- `Tet4::calc_interp` — tet4.rs:166-173. -/
def tet4Interp : List PE :=
  let r : PE := (PE.x 0)
  let s : PE := (PE.x 1)
  let t : PE := (PE.x 2)
  [ 1 - r - s - t,
    r,
    s,
    t ]

/-- `Tet4::calc_deriv` — tet4.rs:185-200. -/
def tet4Deriv : List (List PE) :=
  [ [- 1, - 1, - 1],
    [1, 0, 0],
    [0, 1, 0],
    [0, 0, 1] ]

/-- `Tet10::calc_interp` — tet10.rs:172-187. -/
def tet10Interp : List PE :=
  let r : PE := (PE.x 0)
  let s : PE := (PE.x 1)
  let t : PE := (PE.x 2)
  let u : PE := 1 - r - s - t
  [ u * (2 * u - 1),
    r * (2 * r - 1),
    s * (2 * s - 1),
    t * (2 * t - 1),
    4 * u * r,
    4 * r * s,
    4 * s * u,
    4 * u * t,
    4 * r * t,
    4 * s * t ]

/-- `Tet10::calc_deriv` — tet10.rs:199-234. -/
def tet10Deriv : List (List PE) :=
  let r : PE := (PE.x 0)
  let s : PE := (PE.x 1)
  let t : PE := (PE.x 2)
  [ [4 * (r + s + t) - 3, 4 * (r + s + t) - 3, 4 * (r + s + t) - 3],
    [4 * r - 1, 0, 0],
    [0, 4 * s - 1, 0],
    [0, 0, 4 * t - 1],
    [4 - 8 * r - 4 * s - 4 * t, - 4 * r, - 4 * r],
    [4 * s, 4 * r, 0],
    [- 4 * s, 4 - 4 * r - 8 * s - 4 * t, - 4 * s],
    [- 4 * t, - 4 * t, 4 - 4 * r - 4 * s - 8 * t],
    [4 * t, 0, 4 * r],
    [0, 4 * t, 4 * s] ]

/-- `Tet20::calc_interp` — tet20.rs:187-212. -/
def tet20Interp : List PE :=
  let r : PE := (PE.x 0)
  let s : PE := (PE.x 1)
  let t : PE := (PE.x 2)
  let u : PE := 1 - r - s - t
  [ (3 * u - 1) * (3 * u - 2) * u / 2,
    (3 * r - 1) * (3 * r - 2) * r / 2,
    (3 * s - 1) * (3 * s - 2) * s / 2,
    (3 * t - 1) * (3 * t - 2) * t / 2,
    9 * (3 * u - 1) * u * r / 2,
    9 * (3 * r - 1) * u * r / 2,
    9 * (3 * u - 1) * u * s / 2,
    9 * (3 * s - 1) * u * s / 2,
    9 * (3 * u - 1) * u * t / 2,
    9 * (3 * t - 1) * u * t / 2,
    9 * (3 * s - 1) * s * t / 2,
    9 * (3 * t - 1) * s * t / 2,
    9 * (3 * r - 1) * r * t / 2,
    9 * (3 * t - 1) * r * t / 2,
    9 * (3 * r - 1) * r * s / 2,
    9 * (3 * s - 1) * r * s / 2,
    27 * s * t * u,
    27 * r * t * u,
    27 * r * s * u,
    27 * r * s * t ]

/-- `Tet20::calc_deriv` — tet20.rs:224-354. -/
def tet20Deriv : List (List PE) :=
  let r : PE := (PE.x 0)
  let s : PE := (PE.x 1)
  let t : PE := (PE.x 2)
  let u : PE := 1 - r - s - t
  [ [(- 3 * u * (- 2 + 3 * u)) / 2 - (3 * u * (- 1 + 3 * u)) / 2 - ((- 2 + 3 * u) * (- 1 + 3 * u)) / 2, (- 3 * u * (- 2 + 3 * u)) / 2 - (3 * u * (- 1 + 3 * u)) / 2 - ((- 2 + 3 * u) * (- 1 + 3 * u)) / 2, (- 3 * u * (- 2 + 3 * u)) / 2 - (3 * u * (- 1 + 3 * u)) / 2 - ((- 2 + 3 * u) * (- 1 + 3 * u)) / 2],
    [(3 * r * (- 2 + 3 * r)) / 2 + (3 * r * (- 1 + 3 * r)) / 2 + ((- 2 + 3 * r) * (- 1 + 3 * r)) / 2, 0, 0],
    [0, (3 * s * (- 2 + 3 * s)) / 2 + (3 * s * (- 1 + 3 * s)) / 2 + ((- 2 + 3 * s) * (- 1 + 3 * s)) / 2, 0],
    [0, 0, (3 * t * (- 2 + 3 * t)) / 2 + (3 * t * (- 1 + 3 * t)) / 2 + ((- 2 + 3 * t) * (- 1 + 3 * t)) / 2],
    [(- 27 * r * u) / 2 - (9 * r * (- 1 + 3 * u)) / 2 + (9 * u * (- 1 + 3 * u)) / 2, (- 27 * r * u) / 2 - (9 * r * (- 1 + 3 * u)) / 2, (- 27 * r * u) / 2 - (9 * r * (- 1 + 3 * u)) / 2],
    [(- 9 * r * (- 1 + 3 * r)) / 2 + (27 * r * u) / 2 + (9 * (- 1 + 3 * r) * u) / 2, (- 9 * r * (- 1 + 3 * r)) / 2, (- 9 * r * (- 1 + 3 * r)) / 2],
    [(- 27 * s * u) / 2 - (9 * s * (- 1 + 3 * u)) / 2, (- 27 * s * u) / 2 - (9 * s * (- 1 + 3 * u)) / 2 + (9 * u * (- 1 + 3 * u)) / 2, (- 27 * s * u) / 2 - (9 * s * (- 1 + 3 * u)) / 2],
    [(- 9 * s * (- 1 + 3 * s)) / 2, (- 9 * s * (- 1 + 3 * s)) / 2 + (27 * s * u) / 2 + (9 * (- 1 + 3 * s) * u) / 2, (- 9 * s * (- 1 + 3 * s)) / 2],
    [(- 27 * t * u) / 2 - (9 * t * (- 1 + 3 * u)) / 2, (- 27 * t * u) / 2 - (9 * t * (- 1 + 3 * u)) / 2, (- 27 * t * u) / 2 - (9 * t * (- 1 + 3 * u)) / 2 + (9 * u * (- 1 + 3 * u)) / 2],
    [(- 9 * t * (- 1 + 3 * t)) / 2, (- 9 * t * (- 1 + 3 * t)) / 2, (- 9 * t * (- 1 + 3 * t)) / 2 + (27 * t * u) / 2 + (9 * (- 1 + 3 * t) * u) / 2],
    [0, (27 * s * t) / 2 + (9 * (- 1 + 3 * s) * t) / 2, (9 * s * (- 1 + 3 * s)) / 2],
    [0, (9 * t * (- 1 + 3 * t)) / 2, (27 * s * t) / 2 + (9 * s * (- 1 + 3 * t)) / 2],
    [(27 * r * t) / 2 + (9 * (- 1 + 3 * r) * t) / 2, 0, (9 * r * (- 1 + 3 * r)) / 2],
    [(9 * t * (- 1 + 3 * t)) / 2, 0, (27 * r * t) / 2 + (9 * r * (- 1 + 3 * t)) / 2],
    [(27 * r * s) / 2 + (9 * (- 1 + 3 * r) * s) / 2, (9 * r * (- 1 + 3 * r)) / 2, 0],
    [(9 * s * (- 1 + 3 * s)) / 2, (27 * r * s) / 2 + (9 * r * (- 1 + 3 * s)) / 2, 0],
    [- 27 * s * t, - 27 * s * t + 27 * t * u, - 27 * s * t + 27 * s * u],
    [- 27 * r * t + 27 * t * u, - 27 * r * t, - 27 * r * t + 27 * r * u],
    [- 27 * r * s + 27 * s * u, - 27 * r * s + 27 * r * u, - 27 * r * s],
    [27 * s * t, 27 * r * t, 27 * r * s] ]

/-- `Hex8::calc_interp` — hex8.rs:142-160. -/
def hex8Interp : List PE :=
  let r : PE := (PE.x 0)
  let s : PE := (PE.x 1)
  let t : PE := (PE.x 2)
  let rm : PE := 1 - r
  let sm : PE := 1 - s
  let tm : PE := 1 - t
  let rp : PE := 1 + r
  let sp : PE := 1 + s
  let tp : PE := 1 + t
  [ rm * sm * tm / 8,
    rp * sm * tm / 8,
    rp * sp * tm / 8,
    rm * sp * tm / 8,
    rm * sm * tp / 8,
    rp * sm * tp / 8,
    rp * sp * tp / 8,
    rm * sp * tp / 8 ]

/-- `Hex8::calc_deriv` — hex8.rs:172-211. -/
def hex8Deriv : List (List PE) :=
  let r : PE := (PE.x 0)
  let s : PE := (PE.x 1)
  let t : PE := (PE.x 2)
  let rm : PE := 1 - r
  let sm : PE := 1 - s
  let tm : PE := 1 - t
  let rp : PE := 1 + r
  let sp : PE := 1 + s
  let tp : PE := 1 + t
  [ [- sm * tm / 8, - rm * tm / 8, - rm * sm / 8],
    [sm * tm / 8, - rp * tm / 8, - rp * sm / 8],
    [sp * tm / 8, rp * tm / 8, - rp * sp / 8],
    [- sp * tm / 8, rm * tm / 8, - rm * sp / 8],
    [- sm * tp / 8, - rm * tp / 8, rm * sm / 8],
    [sm * tp / 8, - rp * tp / 8, rp * sm / 8],
    [sp * tp / 8, rp * tp / 8, rp * sp / 8],
    [- sp * tp / 8, rm * tp / 8, rm * sp / 8] ]

/-- `Hex20::calc_interp` — hex20.rs:159-192. -/
def hex20Interp : List PE :=
  let r : PE := (PE.x 0)
  let s : PE := (PE.x 1)
  let t : PE := (PE.x 2)
  let rm : PE := 1 - r
  let sm : PE := 1 - s
  let tm : PE := 1 - t
  let rp : PE := 1 + r
  let sp : PE := 1 + s
  let tp : PE := 1 + t
  let rr : PE := 1 - r * r
  let ss : PE := 1 - s * s
  let tt : PE := 1 - t * t
  [ rm * sm * tm * (- 2 - r - s - t) / 8,
    rp * sm * tm * (- 2 + r - s - t) / 8,
    rp * sp * tm * (- 2 + r + s - t) / 8,
    rm * sp * tm * (- 2 - r + s - t) / 8,
    rm * sm * tp * (- 2 - r - s + t) / 8,
    rp * sm * tp * (- 2 + r - s + t) / 8,
    rp * sp * tp * (- 2 + r + s + t) / 8,
    rm * sp * tp * (- 2 - r + s + t) / 8,
    rr * sm * tm / 4,
    rp * ss * tm / 4,
    rr * sp * tm / 4,
    rm * ss * tm / 4,
    rr * sm * tp / 4,
    rp * ss * tp / 4,
    rr * sp * tp / 4,
    rm * ss * tp / 4,
    rm * sm * tt / 4,
    rp * sm * tt / 4,
    rp * sp * tt / 4,
    rm * sp * tt / 4 ]

/-- `Hex20::calc_deriv` — hex20.rs:204-282. -/
def hex20Deriv : List (List PE) :=
  let r : PE := (PE.x 0)
  let s : PE := (PE.x 1)
  let t : PE := (PE.x 2)
  let rm : PE := 1 - r
  let sm : PE := 1 - s
  let tm : PE := 1 - t
  let rp : PE := 1 + r
  let sp : PE := 1 + s
  let tp : PE := 1 + t
  let rr : PE := 1 - r * r
  let ss : PE := 1 - s * s
  let tt : PE := 1 - t * t
  [ [- rm * sm * tm / 8 - sm * (- 2 - r - s - t) * tm / 8, - rm * sm * tm / 8 - rm * (- 2 - r - s - t) * tm / 8, - rm * sm * (- 2 - r - s - t) / 8 - rm * sm * tm / 8],
    [rp * sm * tm / 8 + sm * (- 2 + r - s - t) * tm / 8, - rp * sm * tm / 8 - rp * (- 2 + r - s - t) * tm / 8, - rp * sm * (- 2 + r - s - t) / 8 - rp * sm * tm / 8],
    [rp * sp * tm / 8 + sp * (- 2 + r + s - t) * tm / 8, rp * sp * tm / 8 + rp * (- 2 + r + s - t) * tm / 8, - rp * sp * (- 2 + r + s - t) / 8 - rp * sp * tm / 8],
    [- rm * sp * tm / 8 - sp * (- 2 - r + s - t) * tm / 8, rm * sp * tm / 8 + rm * (- 2 - r + s - t) * tm / 8, - rm * sp * (- 2 - r + s - t) / 8 - rm * sp * tm / 8],
    [- rm * sm * tp / 8 - sm * (- 2 - r - s + t) * tp / 8, - rm * sm * tp / 8 - rm * (- 2 - r - s + t) * tp / 8, rm * sm * (- 2 - r - s + t) / 8 + rm * sm * tp / 8],
    [rp * sm * tp / 8 + sm * (- 2 + r - s + t) * tp / 8, - rp * sm * tp / 8 - rp * (- 2 + r - s + t) * tp / 8, rp * sm * (- 2 + r - s + t) / 8 + rp * sm * tp / 8],
    [rp * sp * tp / 8 + sp * (- 2 + r + s + t) * tp / 8, rp * sp * tp / 8 + rp * (- 2 + r + s + t) * tp / 8, rp * sp * (- 2 + r + s + t) / 8 + rp * sp * tp / 8],
    [- rm * sp * tp / 8 - sp * (- 2 - r + s + t) * tp / 8, rm * sp * tp / 8 + rm * (- 2 - r + s + t) * tp / 8, rm * sp * (- 2 - r + s + t) / 8 + rm * sp * tp / 8],
    [- r * sm * tm / 2, - rr * tm / 4, - rr * sm / 4],
    [ss * tm / 4, - rp * s * tm / 2, - rp * ss / 4],
    [- r * sp * tm / 2, rr * tm / 4, - rr * sp / 4],
    [- ss * tm / 4, - rm * s * tm / 2, - rm * ss / 4],
    [- r * sm * tp / 2, - rr * tp / 4, rr * sm / 4],
    [ss * tp / 4, - rp * s * tp / 2, rp * ss / 4],
    [- r * sp * tp / 2, rr * tp / 4, rr * sp / 4],
    [- ss * tp / 4, - rm * s * tp / 2, rm * ss / 4],
    [- sm * tt / 4, - rm * tt / 4, - rm * sm * t / 2],
    [sm * tt / 4, - rp * tt / 4, - rp * sm * t / 2],
    [sp * tt / 4, rp * tt / 4, - rp * sp * t / 2],
    [- sp * tt / 4, rm * tt / 4, - rm * sp * t / 2] ]

/-- `Hex32::calc_interp` — hex32.rs:180-234. -/
def hex32Interp : List PE :=
  let r : PE := (PE.x 0)
  let s : PE := (PE.x 1)
  let t : PE := (PE.x 2)
  let rm : PE := 1 - r
  let sm : PE := 1 - s
  let tm : PE := 1 - t
  let rp : PE := 1 + r
  let sp : PE := 1 + s
  let tp : PE := 1 + t
  let r3m : PE := 1 - 3 * r
  let s3m : PE := 1 - 3 * s
  let t3m : PE := 1 - 3 * t
  let r3p : PE := 1 + 3 * r
  let s3p : PE := 1 + 3 * s
  let t3p : PE := 1 + 3 * t
  let rr : PE := 1 - r * r
  let ss : PE := 1 - s * s
  let tt : PE := 1 - t * t
  let rr9 : PE := 9 * r * r
  let ss9 : PE := 9 * s * s
  let tt9 : PE := 9 * t * t
  [ (rm * sm * tm * (- 19 + rr9 + ss9 + tt9)) / 64,
    (rp * sm * tm * (- 19 + rr9 + ss9 + tt9)) / 64,
    (rp * sp * tm * (- 19 + rr9 + ss9 + tt9)) / 64,
    (rm * sp * tm * (- 19 + rr9 + ss9 + tt9)) / 64,
    (rm * sm * tp * (- 19 + rr9 + ss9 + tt9)) / 64,
    (rp * sm * tp * (- 19 + rr9 + ss9 + tt9)) / 64,
    (rp * sp * tp * (- 19 + rr9 + ss9 + tt9)) / 64,
    (rm * sp * tp * (- 19 + rr9 + ss9 + tt9)) / 64,
    (9 * r3m * rr * sm * tm) / 64,
    (9 * r3p * rr * sm * tm) / 64,
    (9 * rp * s3m * ss * tm) / 64,
    (9 * rp * s3p * ss * tm) / 64,
    (9 * r3p * rr * sp * tm) / 64,
    (9 * r3m * rr * sp * tm) / 64,
    (9 * rm * s3p * ss * tm) / 64,
    (9 * rm * s3m * ss * tm) / 64,
    (9 * r3m * rr * sm * tp) / 64,
    (9 * r3p * rr * sm * tp) / 64,
    (9 * rp * s3m * ss * tp) / 64,
    (9 * rp * s3p * ss * tp) / 64,
    (9 * r3p * rr * sp * tp) / 64,
    (9 * r3m * rr * sp * tp) / 64,
    (9 * rm * s3p * ss * tp) / 64,
    (9 * rm * s3m * ss * tp) / 64,
    (9 * rm * sm * t3m * tt) / 64,
    (9 * rm * sm * t3p * tt) / 64,
    (9 * rp * sm * t3m * tt) / 64,
    (9 * rp * sm * t3p * tt) / 64,
    (9 * rp * sp * t3m * tt) / 64,
    (9 * rp * sp * t3p * tt) / 64,
    (9 * rm * sp * t3m * tt) / 64,
    (9 * rm * sp * t3p * tt) / 64 ]

/-- `Hex32::calc_deriv` — hex32.rs:246-465. -/
def hex32Deriv : List (List PE) :=
  let r : PE := (PE.x 0)
  let s : PE := (PE.x 1)
  let t : PE := (PE.x 2)
  let rm : PE := 1 - r
  let sm : PE := 1 - s
  let tm : PE := 1 - t
  let rp : PE := 1 + r
  let sp : PE := 1 + s
  let tp : PE := 1 + t
  let r3m : PE := 1 - 3 * r
  let s3m : PE := 1 - 3 * s
  let t3m : PE := 1 - 3 * t
  let r3p : PE := 1 + 3 * r
  let s3p : PE := 1 + 3 * s
  let t3p : PE := 1 + 3 * t
  let rr : PE := 1 - r * r
  let ss : PE := 1 - s * s
  let tt : PE := 1 - t * t
  let rr9 : PE := 9 * r * r
  let ss9 : PE := 9 * s * s
  let tt9 : PE := 9 * t * t
  [ [(9 * r * rm * sm * tm) / 32 - (sm * tm * (- 19 + rr9 + ss9 + tt9)) / 64, (9 * rm * s * sm * tm) / 32 - (rm * tm * (- 19 + rr9 + ss9 + tt9)) / 64, (9 * rm * sm * t * tm) / 32 - (rm * sm * (- 19 + rr9 + ss9 + tt9)) / 64],
    [(9 * r * rp * sm * tm) / 32 + (sm * tm * (- 19 + rr9 + ss9 + tt9)) / 64, (9 * rp * s * sm * tm) / 32 - (rp * tm * (- 19 + rr9 + ss9 + tt9)) / 64, (9 * rp * sm * t * tm) / 32 - (rp * sm * (- 19 + rr9 + ss9 + tt9)) / 64],
    [(9 * r * rp * sp * tm) / 32 + (sp * tm * (- 19 + rr9 + ss9 + tt9)) / 64, (9 * rp * s * sp * tm) / 32 + (rp * tm * (- 19 + rr9 + ss9 + tt9)) / 64, (9 * rp * sp * t * tm) / 32 - (rp * sp * (- 19 + rr9 + ss9 + tt9)) / 64],
    [(9 * r * rm * sp * tm) / 32 - (sp * tm * (- 19 + rr9 + ss9 + tt9)) / 64, (9 * rm * s * sp * tm) / 32 + (rm * tm * (- 19 + rr9 + ss9 + tt9)) / 64, (9 * rm * sp * t * tm) / 32 - (rm * sp * (- 19 + rr9 + ss9 + tt9)) / 64],
    [(9 * r * rm * sm * tp) / 32 - (sm * tp * (- 19 + rr9 + ss9 + tt9)) / 64, (9 * rm * s * sm * tp) / 32 - (rm * tp * (- 19 + rr9 + ss9 + tt9)) / 64, (9 * rm * sm * t * tp) / 32 + (rm * sm * (- 19 + rr9 + ss9 + tt9)) / 64],
    [(9 * r * rp * sm * tp) / 32 + (sm * tp * (- 19 + rr9 + ss9 + tt9)) / 64, (9 * rp * s * sm * tp) / 32 - (rp * tp * (- 19 + rr9 + ss9 + tt9)) / 64, (9 * rp * sm * t * tp) / 32 + (rp * sm * (- 19 + rr9 + ss9 + tt9)) / 64],
    [(9 * r * rp * sp * tp) / 32 + (sp * tp * (- 19 + rr9 + ss9 + tt9)) / 64, (9 * rp * s * sp * tp) / 32 + (rp * tp * (- 19 + rr9 + ss9 + tt9)) / 64, (9 * rp * sp * t * tp) / 32 + (rp * sp * (- 19 + rr9 + ss9 + tt9)) / 64],
    [(9 * r * rm * sp * tp) / 32 - (sp * tp * (- 19 + rr9 + ss9 + tt9)) / 64, (9 * rm * s * sp * tp) / 32 + (rm * tp * (- 19 + rr9 + ss9 + tt9)) / 64, (9 * rm * sp * t * tp) / 32 + (rm * sp * (- 19 + rr9 + ss9 + tt9)) / 64],
    [(- 9 * r * r3m * sm * tm) / 32 - (27 * rr * sm * tm) / 64, (- 9 * r3m * rr * tm) / 64, (- 9 * r3m * rr * sm) / 64],
    [(- 9 * r * r3p * sm * tm) / 32 + (27 * rr * sm * tm) / 64, (- 9 * r3p * rr * tm) / 64, (- 9 * r3p * rr * sm) / 64],
    [(9 * s3m * ss * tm) / 64, (- 9 * rp * s * s3m * tm) / 32 - (27 * rp * ss * tm) / 64, (- 9 * rp * s3m * ss) / 64],
    [(9 * s3p * ss * tm) / 64, (- 9 * rp * s * s3p * tm) / 32 + (27 * rp * ss * tm) / 64, (- 9 * rp * s3p * ss) / 64],
    [(- 9 * r * r3p * sp * tm) / 32 + (27 * rr * sp * tm) / 64, (9 * r3p * rr * tm) / 64, (- 9 * r3p * rr * sp) / 64],
    [(- 9 * r * r3m * sp * tm) / 32 - (27 * rr * sp * tm) / 64, (9 * r3m * rr * tm) / 64, (- 9 * r3m * rr * sp) / 64],
    [(- 9 * s3p * ss * tm) / 64, (- 9 * rm * s * s3p * tm) / 32 + (27 * rm * ss * tm) / 64, (- 9 * rm * s3p * ss) / 64],
    [(- 9 * s3m * ss * tm) / 64, (- 9 * rm * s * s3m * tm) / 32 - (27 * rm * ss * tm) / 64, (- 9 * rm * s3m * ss) / 64],
    [(- 9 * r * r3m * sm * tp) / 32 - (27 * rr * sm * tp) / 64, (- 9 * r3m * rr * tp) / 64, (9 * r3m * rr * sm) / 64],
    [(- 9 * r * r3p * sm * tp) / 32 + (27 * rr * sm * tp) / 64, (- 9 * r3p * rr * tp) / 64, (9 * r3p * rr * sm) / 64],
    [(9 * s3m * ss * tp) / 64, (- 9 * rp * s * s3m * tp) / 32 - (27 * rp * ss * tp) / 64, (9 * rp * s3m * ss) / 64],
    [(9 * s3p * ss * tp) / 64, (- 9 * rp * s * s3p * tp) / 32 + (27 * rp * ss * tp) / 64, (9 * rp * s3p * ss) / 64],
    [(- 9 * r * r3p * sp * tp) / 32 + (27 * rr * sp * tp) / 64, (9 * r3p * rr * tp) / 64, (9 * r3p * rr * sp) / 64],
    [(- 9 * r * r3m * sp * tp) / 32 - (27 * rr * sp * tp) / 64, (9 * r3m * rr * tp) / 64, (9 * r3m * rr * sp) / 64],
    [(- 9 * s3p * ss * tp) / 64, (- 9 * rm * s * s3p * tp) / 32 + (27 * rm * ss * tp) / 64, (9 * rm * s3p * ss) / 64],
    [(- 9 * s3m * ss * tp) / 64, (- 9 * rm * s * s3m * tp) / 32 - (27 * rm * ss * tp) / 64, (9 * rm * s3m * ss) / 64],
    [(- 9 * sm * t3m * tt) / 64, (- 9 * rm * t3m * tt) / 64, (- 9 * rm * sm * t * t3m) / 32 - (27 * rm * sm * tt) / 64],
    [(- 9 * sm * t3p * tt) / 64, (- 9 * rm * t3p * tt) / 64, (- 9 * rm * sm * t * t3p) / 32 + (27 * rm * sm * tt) / 64],
    [(9 * sm * t3m * tt) / 64, (- 9 * rp * t3m * tt) / 64, (- 9 * rp * sm * t * t3m) / 32 - (27 * rp * sm * tt) / 64],
    [(9 * sm * t3p * tt) / 64, (- 9 * rp * t3p * tt) / 64, (- 9 * rp * sm * t * t3p) / 32 + (27 * rp * sm * tt) / 64],
    [(9 * sp * t3m * tt) / 64, (9 * rp * t3m * tt) / 64, (- 9 * rp * sp * t * t3m) / 32 - (27 * rp * sp * tt) / 64],
    [(9 * sp * t3p * tt) / 64, (9 * rp * t3p * tt) / 64, (- 9 * rp * sp * t * t3p) / 32 + (27 * rp * sp * tt) / 64],
    [(- 9 * sp * t3m * tt) / 64, (9 * rm * t3m * tt) / 64, (- 9 * rm * sp * t * t3m) / 32 - (27 * rm * sp * tt) / 64],
    [(- 9 * sp * t3p * tt) / 64, (9 * rm * t3p * tt) / 64, (- 9 * rm * sp * t * t3p) / 32 + (27 * rm * sp * tt) / 64] ]

/-- First component of `GeoKind::functions` — enums.rs:1124-1152. -/
def interp : GeoKind → List PE
  | .lin2 => lin2Interp
  | .lin3 => lin3Interp
  | .lin4 => lin4Interp
  | .lin5 => lin5Interp
  | .tri3 => tri3Interp
  | .tri6 => tri6Interp
  | .tri10 => tri10Interp
  | .tri15 => tri15Interp
  | .qua4 => qua4Interp
  | .qua8 => qua8Interp
  | .qua9 => qua9Interp
  | .qua12 => qua12Interp
  | .qua16 => qua16Interp
  | .qua17 => qua17Interp
  | .tet4 => tet4Interp
  | .tet10 => tet10Interp
  | .tet20 => tet20Interp
  | .hex8 => hex8Interp
  | .hex20 => hex20Interp
  | .hex32 => hex32Interp

/-- Second component of `GeoKind::functions` — enums.rs:1124-1152. -/
def deriv : GeoKind → List (List PE)
  | .lin2 => lin2Deriv
  | .lin3 => lin3Deriv
  | .lin4 => lin4Deriv
  | .lin5 => lin5Deriv
  | .tri3 => tri3Deriv
  | .tri6 => tri6Deriv
  | .tri10 => tri10Deriv
  | .tri15 => tri15Deriv
  | .qua4 => qua4Deriv
  | .qua8 => qua8Deriv
  | .qua9 => qua9Deriv
  | .qua12 => qua12Deriv
  | .qua16 => qua16Deriv
  | .qua17 => qua17Deriv
  | .tet4 => tet4Deriv
  | .tet10 => tet10Deriv
  | .tet20 => tet20Deriv
  | .hex8 => hex8Deriv
  | .hex20 => hex20Deriv
  | .hex32 => hex32Deriv

end Gemlab.Shapes
