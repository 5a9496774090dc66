import Verif.Model.Geometry

/-!
# `triangle_coords` with rounding (`/repo/src/geometry/triangle.rs`)

The same function as in `Model/Geometry`, but each arithmetic operation is followed by the rounding `fl`, as on a computer, in the order in which the
code evaluates the operations. Not modelled: overflow, underflow, infinities and NaN. `in_triangle` does no arithmetic, so the model of
`Model/Geometry` is used.
-/
namespace Gemlab.Rounded
noncomputable section

variable (fl : ℝ → ℝ)

/-- `triangle_coords`, `/repo/src/geometry/triangle.rs:21-26`. -/
def triangleCoords (xa xb xc xp : ℝ × ℝ) : ℝ × ℝ × ℝ :=
  let a2 := fl (fl (fl (xa.1 * fl (xb.2 - xc.2)) + fl (xb.1 * fl (xc.2 - xa.2))) + fl (xc.1 * fl (xa.2 - xb.2)))
  (fl (fl (fl (fl (xp.1 * fl (xb.2 - xc.2)) + fl (xb.1 * fl (xc.2 - xp.2))) + fl (xc.1 * fl (xp.2 - xb.2))) / a2),
   fl (fl (fl (fl (xa.1 * fl (xp.2 - xc.2)) + fl (xp.1 * fl (xc.2 - xa.2))) + fl (xc.1 * fl (xa.2 - xp.2))) / a2),
   fl (fl (fl (fl (xa.1 * fl (xb.2 - xp.2)) + fl (xb.1 * fl (xp.2 - xa.2))) + fl (xp.1 * fl (xa.2 - xb.2))) / a2))

end
end Gemlab.Rounded
