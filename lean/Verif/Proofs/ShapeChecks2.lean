import Verif.Proofs.ShapeChecks
namespace Gemlab.Shapes
theorem chkEdge_ok (k : GeoKind) : chkEdge k = true := by cases k <;> decide +kernel
theorem chkFace_ok (k : GeoKind) : chkFace k = true := by cases k <;> decide +kernel
end Gemlab.Shapes
