import Verif.Model.Scratchpad
import Verif.Model.Features

/-!
# Model of `mesh/check.rs`: `check_all`, `check_2d_edge_normals`, `check_face_normals`

Numbers are exact reals. `check_ids_and_kind`, `check_jacobian` and `check_overlapping_points` are in `Model/Mesh`, `Model/Scratchpad` and
`Model/Join`.
-/
namespace Gemlab.Mesh
noncomputable section

/-- `Mesh::check_all` — check.rs:63-66. -/
def checkAll (inv : MatInverse) (m : Mesh ℝ) : Res Unit := do
  checkIdsAndKind m
  checkJacobian inv m

/-- `russell_lab::approx_eq`, which panics if the numbers are not within the tolerance — check.rs:84, 110. -/
def approxEq (a b tol : ℝ) : Res Unit := if |a - b| > tol then .panic else pure ()

/-- The comparison of the components of the normal vector — check.rs:85-89, 111-115. -/
def checkUn (ndim : Nat) (un : Nat → ℝ) (correct : List ℝ) (tol : ℝ) (msg : String) : Res Unit :=
  (List.range ndim).forM fun i => do
    let u ← Res.idx correct i
    if |un i - u| > tol then .err msg else pure ()

/-- One iteration of the loops — check.rs:80-89, 106-115; `found` is the result of `edges.get(edge_key)`. -/
def checkNormal (m : Mesh ℝ) (found : Option Feature) (mag : ℝ) (correct : List ℝ) (tol : ℝ) (missing wrong : String) : Res Unit :=
  match found with
  | none => .err missing
  | some f => do
    let pad ← Scratchpad.new m.ndim f.kind
    let pad ← setPad m pad f.points
    let (magN, un, _) ← pad.calcNormalVector m.ndim fun _ => 0
    approxEq magN mag tol
    checkUn m.ndim un correct tol wrong

/-- `Mesh::check_2d_edge_normals` — check.rs:71-92; `iter` is the iteration order of the map `solutions`. -/
def check2dEdgeNormals (iter : List (EdgeKey × ℝ × ℝ × ℝ) → List (EdgeKey × ℝ × ℝ × ℝ)) (m : Mesh ℝ) (edges : HMap EdgeKey Feature)
    (solutions : HMap EdgeKey (ℝ × ℝ × ℝ)) (tol : ℝ) : Res Unit :=
  (iter solutions).forM fun s => checkNormal m (edges.get s.1) s.2.1 [s.2.2.1, s.2.2.2] tol
    "cannot find edge_key in edges map" "wrong 2d edge unit normal vector found"

/-- `Mesh::check_face_normals` — check.rs:97-118. -/
def checkFaceNormals (iter : List (FaceKey × ℝ × ℝ × ℝ × ℝ) → List (FaceKey × ℝ × ℝ × ℝ × ℝ)) (m : Mesh ℝ) (faces : HMap FaceKey Feature)
    (solutions : HMap FaceKey (ℝ × ℝ × ℝ × ℝ)) (tol : ℝ) : Res Unit :=
  (iter solutions).forM fun s => checkNormal m (faces.get s.1) s.2.1 [s.2.2.1, s.2.2.2.1, s.2.2.2.2] tol
    "cannot find face_key in faces map" "wrong face unit normal vector found"

end
end Gemlab.Mesh
