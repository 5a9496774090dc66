import Verif.Model.Res
import Mathlib.Analysis.SpecialFunctions.Pow.Real
import Mathlib.Analysis.SpecialFunctions.Trigonometric.Inverse

/-!
# Geometry functions (`/repo/src/geometry`)

Simplification: `f64` is replaced by the real numbers (no rounding, no NaN, no infinities); `f64::sqrt` is `Real.sqrt`.
Slices are lists; `at v i` stands for `v[i]`, used only after the length checks of the code (or under the panic condition
written explicitly).
-/
namespace Gemlab
noncomputable section
open Classical

/-- `v[i]` for a slice whose length has been checked. -/
def at' (v : List ℝ) (i : Nat) : ℝ := v.getD i 0

/-- `f64::EPSILON` = 2⁻⁵². -/
def f64Epsilon : ℝ := 1 / 2 ^ 52

/-- `point_point_distance`, `/repo/src/geometry/algorithms.rs:28-44`. -/
def pointPointDistance (a b : List ℝ) : Res ℝ :=
  if a.length < 2 ∨ a.length > 3 then .err "a.len() == ndim must be 2 or 3"
  else if b.length ≠ a.length then .err "b.len() must equal a.len() == ndim"
  else if a.length = 2 then
    .ok (Real.sqrt ((at' b 0 - at' a 0) * (at' b 0 - at' a 0) + (at' b 1 - at' a 1) * (at' b 1 - at' a 1)))
  else
    .ok (Real.sqrt ((at' b 0 - at' a 0) * (at' b 0 - at' a 0) + (at' b 1 - at' a 1) * (at' b 1 - at' a 1)
      + (at' b 2 - at' a 2) * (at' b 2 - at' a 2)))

/-- `point_line_distance`, `/repo/src/geometry/algorithms.rs:95-136`. -/
def pointLineDistance (a b c : List ℝ) : Res ℝ :=
  if a.length < 2 ∨ a.length > 3 then .err "a.len() == ndim must be 2 or 3"
  else if b.length ≠ a.length then .err "b.len() must equal a.len() == ndim"
  else if c.length ≠ a.length then .err "c.len() must equal a.len() == ndim"
  else if a.length = 2 then
    let nn := (at' b 0 - at' a 0) * (at' b 0 - at' a 0) + (at' b 1 - at' a 1) * (at' b 1 - at' a 1)
    if nn ≤ f64Epsilon then .err "a-to-b segment is too short"
    else
      let xn := (at' c 0 - at' a 0) * (at' b 0 - at' a 0) + (at' c 1 - at' a 1) * (at' b 1 - at' a 1)
      let q0 := (at' c 0 - at' a 0) - (at' b 0 - at' a 0) * xn / nn
      let q1 := (at' c 1 - at' a 1) - (at' b 1 - at' a 1) * xn / nn
      .ok (Real.sqrt (q0 * q0 + q1 * q1))
  else
    let nn := (at' b 0 - at' a 0) * (at' b 0 - at' a 0) + (at' b 1 - at' a 1) * (at' b 1 - at' a 1)
      + (at' b 2 - at' a 2) * (at' b 2 - at' a 2)
    if nn ≤ f64Epsilon then .err "a-to-b segment is too short"
    else
      let xn := (at' c 0 - at' a 0) * (at' b 0 - at' a 0) + (at' c 1 - at' a 1) * (at' b 1 - at' a 1)
        + (at' c 2 - at' a 2) * (at' b 2 - at' a 2)
      let q0 := (at' c 0 - at' a 0) - (at' b 0 - at' a 0) * xn / nn
      let q1 := (at' c 1 - at' a 1) - (at' b 1 - at' a 1) * xn / nn
      let q2 := (at' c 2 - at' a 2) - (at' b 2 - at' a 2) * xn / nn
      .ok (Real.sqrt (q0 * q0 + q1 * q1 + q2 * q2))

/-- `point_circle_distance`, `/repo/src/geometry/algorithms.rs:179-190` (the `unwrap` is modelled: an `Err` would panic). -/
def pointCircleDistance (center : List ℝ) (radius : ℝ) (p : List ℝ) : Res ℝ :=
  if center.length ≠ 2 then .err "center.len() == ndim must be 2"
  else if p.length ≠ center.length then .err "x.len() must equal center.len() == ndim"
  else
    match pointPointDistance center p with
    | .ok d => .ok (d - radius)
    | _ => .panic

/-- `point_cylinder_distance`, `/repo/src/geometry/algorithms.rs:233-247`. -/
def pointCylinderDistance (a b : List ℝ) (radius : ℝ) (p : List ℝ) : Res ℝ :=
  if a.length ≠ 3 then .err "axis_a.len() == ndim must be 3"
  else if b.length ≠ a.length then .err "axis_b.len() must equal center.len() == ndim"
  else if p.length ≠ a.length then .err "p.len() must equal center.len() == ndim"
  else do
    let d ← pointLineDistance a b p
    .ok (d - radius)

/-- `triangle_coords`, `/repo/src/geometry/triangle.rs:21-26` (pure: returns the content of `zeta`). The arguments are the
two coordinates of each point. A zero denominator gives zero here and a NaN or an infinity in the code; the theorems
assume that it is not zero. -/
def triangleCoords (xa xb xc xp : ℝ × ℝ) : ℝ × ℝ × ℝ :=
  let a2 := xa.1 * (xb.2 - xc.2) + xb.1 * (xc.2 - xa.2) + xc.1 * (xa.2 - xb.2)
  ((xp.1 * (xb.2 - xc.2) + xb.1 * (xc.2 - xp.2) + xc.1 * (xp.2 - xb.2)) / a2,
   (xa.1 * (xp.2 - xc.2) + xp.1 * (xc.2 - xa.2) + xc.1 * (xa.2 - xp.2)) / a2,
   (xa.1 * (xb.2 - xp.2) + xb.1 * (xp.2 - xa.2) + xp.1 * (xa.2 - xb.2)) / a2)

/-- `in_triangle`, `/repo/src/geometry/triangle.rs:40-46`. -/
def inTriangle (z : ℝ × ℝ × ℝ) : Bool := if z.1 < 0 ∨ z.2.1 < 0 ∨ z.2.2 < 0 then false else true

/-- `tetrahedron_coords`, `/repo/src/geometry/tetrahedron.rs:21-50` (same simplifications as `triangleCoords`). -/
def tetrahedronCoords (xa xb xc xd xp : ℝ × ℝ × ℝ) : ℝ × ℝ × ℝ × ℝ :=
  let x1 := xa.1; let y1 := xa.2.1; let z1 := xa.2.2
  let x2 := xb.1; let y2 := xb.2.1; let z2 := xb.2.2
  let x3 := xc.1; let y3 := xc.2.1; let z3 := xc.2.2
  let x4 := xd.1; let y4 := xd.2.1; let z4 := xd.2.2
  let x := xp.1; let y := xp.2.1; let z := xp.2.2
  let v6 := (x2 - x1) * ((y2 - y3) * (z3 - z4) - (y3 - y4) * (z2 - z3))
    + (x3 - x2) * ((y3 - y4) * (z1 - z2) - (y1 - y2) * (z3 - z4))
    + (x4 - x3) * ((y1 - y2) * (z2 - z3) - (y2 - y3) * (z1 - z2))
  (((x2 * (y3 * z4 - y4 * z3) + x3 * (y4 * z2 - y2 * z4) + x4 * (y2 * z3 - y3 * z2))
      + x * ((y4 - y2) * (z3 - z2) - (y3 - y2) * (z4 - z2))
      + y * ((x3 - x2) * (z4 - z2) - (x4 - x2) * (z3 - z2))
      + z * ((x4 - x2) * (y3 - y2) - (x3 - x2) * (y4 - y2))) / v6,
   ((x1 * (y4 * z3 - y3 * z4) + x3 * (y1 * z4 - y4 * z1) + x4 * (y3 * z1 - y1 * z3))
      + x * ((y3 - y1) * (z4 - z3) - (y3 - y4) * (z1 - z3))
      + y * ((x4 - x3) * (z3 - z1) - (x1 - x3) * (z3 - z4))
      + z * ((x3 - x1) * (y4 - y3) - (x3 - x4) * (y1 - y3))) / v6,
   ((x1 * (y2 * z4 - y4 * z2) + x2 * (y4 * z1 - y1 * z4) + x4 * (y1 * z2 - y2 * z1))
      + x * ((y2 - y4) * (z1 - z4) - (y1 - y4) * (z2 - z4))
      + y * ((x1 - x4) * (z2 - z4) - (x2 - x4) * (z1 - z4))
      + z * ((x2 - x4) * (y1 - y4) - (x1 - x4) * (y2 - y4))) / v6,
   ((x1 * (y3 * z2 - y2 * z3) + x2 * (y1 * z3 - y3 * z1) + x3 * (y2 * z1 - y1 * z2))
      + x * ((y1 - y3) * (z2 - z1) - (y1 - y2) * (z3 - z1))
      + y * ((x2 - x1) * (z1 - z3) - (x3 - x1) * (z1 - z2))
      + z * ((x1 - x3) * (y2 - y1) - (x1 - x2) * (y3 - y1))) / v6)

/-- `in_tetrahedron`, `/repo/src/geometry/tetrahedron.rs:64-70`. -/
def inTetrahedron (z : ℝ × ℝ × ℝ × ℝ) : Bool := if z.1 < 0 ∨ z.2.1 < 0 ∨ z.2.2.1 < 0 ∨ z.2.2.2 < 0 then false else true

/-- `Vector2d::from_points`, `/repo/src/geometry/entities.rs:47-52`. -/
def vecFromPoints (a b : ℝ × ℝ) : ℝ × ℝ := (b.1 - a.1, b.2 - a.2)

/-- `Vector2d::cross`, `/repo/src/geometry/entities.rs:57-59`. -/
def cross2 (u v : ℝ × ℝ) : ℝ := u.1 * v.2 - u.2 * v.1

/-- `Parallelogram2d::signed_area`, `/repo/src/geometry/entities.rs:86-88`. -/
def parallelogramSignedArea (u v : ℝ × ℝ) : ℝ := cross2 u v

/-- `Triangle2d::signed_area`, `/repo/src/geometry/entities.rs:115-125`. -/
def triangleSignedArea (a b c : ℝ × ℝ) : ℝ := cross2 (b.1 - a.1, b.2 - a.2) (c.1 - a.1, c.2 - a.2) / 2

/-- One of the three identical parts of `Triangle2d::internal_angles`, `/repo/src/geometry/entities.rs:142-150`: the
angle between two edge vectors (`f64::acos` is `Real.arccos`). -/
def vertexAngle (u v : ℝ × ℝ) : ℝ :=
  let dot := u.1 * v.1 + u.2 * v.2
  let lu := Real.sqrt (u.1 * u.1 + u.2 * u.2)
  let lv := Real.sqrt (v.1 * v.1 + v.2 * v.2)
  if lu > 0 ∧ lv > 0 then Real.arccos (dot / (lu * lv)) else 0

/-- `Triangle2d::internal_angles`, `/repo/src/geometry/entities.rs:133-173`. -/
def internalAngles (a b c : ℝ × ℝ) : ℝ × ℝ × ℝ :=
  (vertexAngle (vecFromPoints a b) (vecFromPoints a c),
   vertexAngle (vecFromPoints b a) (vecFromPoints b c),
   vertexAngle (vecFromPoints c a) (vecFromPoints c b))

end
end Gemlab
