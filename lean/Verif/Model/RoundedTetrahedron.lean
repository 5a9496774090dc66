import Verif.Model.Geometry

/-!
# `tetrahedron_coords` with rounding (`/repo/src/geometry/tetrahedron.rs`)

The same function as in `Model/Geometry`, but each arithmetic operation is followed by the rounding `fl`, as on a computer, in the order in which the
code evaluates the operations. Not modelled: overflow, underflow, infinities and NaN. `in_tetrahedron` does no arithmetic, so the model of
`Model/Geometry` is used.
-/
namespace Gemlab.Rounded
noncomputable section

variable (fl : ℝ → ℝ)

/-- `a * b - c * d` -/
def cross (a b c d : ℝ) : ℝ := fl (fl (a * b) - fl (c * d))

/-- `a * b + c * d + e * f` -/
def dot3 (a b c d e f : ℝ) : ℝ := fl (fl (fl (a * b) + fl (c * d)) + fl (e * f))

/-- `k + a * b + c * d + e * f` -/
def plane (k a b c d e f : ℝ) : ℝ := fl (fl (fl (k + fl (a * b)) + fl (c * d)) + fl (e * f))

/-- `tetrahedron_coords`, `/repo/src/geometry/tetrahedron.rs:21-50`. -/
def tetrahedronCoords (xa xb xc xd xp : ℝ × ℝ × ℝ) : ℝ × ℝ × ℝ × ℝ :=
  let x1 := xa.1; let y1 := xa.2.1; let z1 := xa.2.2
  let x2 := xb.1; let y2 := xb.2.1; let z2 := xb.2.2
  let x3 := xc.1; let y3 := xc.2.1; let z3 := xc.2.2
  let x4 := xd.1; let y4 := xd.2.1; let z4 := xd.2.2
  let x := xp.1; let y := xp.2.1; let z := xp.2.2
  let v6 := dot3 fl (fl (x2 - x1)) (cross fl (fl (y2 - y3)) (fl (z3 - z4)) (fl (y3 - y4)) (fl (z2 - z3)))
    (fl (x3 - x2)) (cross fl (fl (y3 - y4)) (fl (z1 - z2)) (fl (y1 - y2)) (fl (z3 - z4)))
    (fl (x4 - x3)) (cross fl (fl (y1 - y2)) (fl (z2 - z3)) (fl (y2 - y3)) (fl (z1 - z2)))
  (fl (plane fl (dot3 fl x2 (cross fl y3 z4 y4 z3) x3 (cross fl y4 z2 y2 z4) x4 (cross fl y2 z3 y3 z2))
      x (cross fl (fl (y4 - y2)) (fl (z3 - z2)) (fl (y3 - y2)) (fl (z4 - z2)))
      y (cross fl (fl (x3 - x2)) (fl (z4 - z2)) (fl (x4 - x2)) (fl (z3 - z2)))
      z (cross fl (fl (x4 - x2)) (fl (y3 - y2)) (fl (x3 - x2)) (fl (y4 - y2))) / v6),
   fl (plane fl (dot3 fl x1 (cross fl y4 z3 y3 z4) x3 (cross fl y1 z4 y4 z1) x4 (cross fl y3 z1 y1 z3))
      x (cross fl (fl (y3 - y1)) (fl (z4 - z3)) (fl (y3 - y4)) (fl (z1 - z3)))
      y (cross fl (fl (x4 - x3)) (fl (z3 - z1)) (fl (x1 - x3)) (fl (z3 - z4)))
      z (cross fl (fl (x3 - x1)) (fl (y4 - y3)) (fl (x3 - x4)) (fl (y1 - y3))) / v6),
   fl (plane fl (dot3 fl x1 (cross fl y2 z4 y4 z2) x2 (cross fl y4 z1 y1 z4) x4 (cross fl y1 z2 y2 z1))
      x (cross fl (fl (y2 - y4)) (fl (z1 - z4)) (fl (y1 - y4)) (fl (z2 - z4)))
      y (cross fl (fl (x1 - x4)) (fl (z2 - z4)) (fl (x2 - x4)) (fl (z1 - z4)))
      z (cross fl (fl (x2 - x4)) (fl (y1 - y4)) (fl (x1 - x4)) (fl (y2 - y4))) / v6),
   fl (plane fl (dot3 fl x1 (cross fl y3 z2 y2 z3) x2 (cross fl y1 z3 y3 z1) x3 (cross fl y2 z1 y1 z2))
      x (cross fl (fl (y1 - y3)) (fl (z2 - z1)) (fl (y1 - y2)) (fl (z3 - z1)))
      y (cross fl (fl (x2 - x1)) (fl (z1 - z3)) (fl (x3 - x1)) (fl (z1 - z2)))
      z (cross fl (fl (x1 - x3)) (fl (y2 - y1)) (fl (x1 - x2)) (fl (y3 - y1))) / v6))

end
end Gemlab.Rounded
