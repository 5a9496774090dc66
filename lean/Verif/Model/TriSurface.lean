import Verif.Model.Features
import Verif.Model.Scratchpad
import Verif.Model.Block

/-!
# Model of `/repo/src/shapes/scratchpad_triangulate.rs`, `/repo/src/mesh/triangulate_surface.rs` and
`Features::triangulate_3d_boundary` (`/repo/src/mesh/features.rs:645-668`)

Real numbers instead of `f64`. A surface (`&[&T]`, `T: AsCell`, as_cell.rs:4-13; implemented by `Cell`, `Edge` and `Face`) is the list
of pairs (kind, points). The vector `x` given to the callback is the list of its components. `usize::MAX`, the value marking an extra
node that has no point yet, is `usizeMax`; the (physically impossible) allocation failures of `Vec::push` are not modelled.
-/
namespace Gemlab
noncomputable section
open Gemlab.Shapes

/-- One corner of one triangle — scratchpad_triangulate.rs:43-56. The callback `f` acts on a state `σ`; `xdim` is `x_work.dim()`. -/
def Scratchpad.triangulateStep {σ : Type} (kind : GeoKind) (xdim : Nat) (f : σ → Nat → Nat → Nat → List ℝ → Res σ) (t : Nat)
    (s : σ × Scratchpad) (i : Nat) : Res (σ × Scratchpad) :=
  if triangulateNode kind t i ≥ kind.nnode then do
    let ksi ← Res.idx kind.triangulateExtraCoords (triangulateNode kind t i - kind.nnode)
    let r ← s.2.calcCoords xdim fun i => ((ksi.getD i 0 : ℚ) : ℝ)
    let u ← f s.1 t i (triangulateNode kind t i) ((List.range xdim).map r.1)
    pure (u, r.2)
  else do
    let u ← f s.1 t i (triangulateNode kind t i) ((List.range xdim).map fun j => s.2.xxt j (triangulateNode kind t i))
    pure (u, s.2)

/-- `Scratchpad::triangulate` — scratchpad_triangulate.rs:27-59. -/
def Scratchpad.triangulate {σ : Type} (pad : Scratchpad) (xdim : Nat) (f : σ → Nat → Nat → Nat → List ℝ → Res σ) (s : σ) :
    Res (σ × Scratchpad) :=
  if ¬(pad.kind.classOf = .tri ∨ pad.kind.classOf = .qua) then .err "triangulate works with Tri and Qua classes only"
  else if xdim ≠ pad.spaceNdim then .err "x_work.dim() must equal space_ndim"
  else
    (List.range pad.kind.triangulateNtriangle).foldlM (fun s t =>
      (List.range 3).foldlM (triangulateStep pad.kind xdim f t) s) (s, pad)

namespace Mesh

/-- The variables modified by the loop of `from_surface`: the results `xx`, `yy`, `zz`, `triangles`, the map
`old_point_id_to_new_point_id` (`newId`), `pads` and `connectivity` — triangulate_surface.rs:8-20, 32-43. -/
structure TriState where
  xx : List ℝ
  yy : List ℝ
  zz : List ℝ
  triangles : List (List Nat)
  newId : HMap Nat Nat
  pads : HMap GeoKind Scratchpad
  conn : List Nat

/-- Appending the coordinates of a new point — triangulate_surface.rs:73-79 and 86-93. -/
def pushPoint (ndim : Nat) (s : TriState) (x : List ℝ) : Res TriState := do
  let x0 ← Res.idx x 0
  let x1 ← Res.idx x 1
  if ndim = 3 then do
    let x2 ← Res.idx x 2
    pure { s with xx := s.xx ++ [x0], yy := s.yy ++ [x1], zz := s.zz ++ [x2] }
  else pure { s with xx := s.xx ++ [x0], yy := s.yy ++ [x1] }

/-- Number of the point of node `m` of the triangulation of a cell; the second component of the state is `extra_points`
— triangulate_surface.rs:67-97. -/
def vertexId (ndim nnode : Nat) (points : List Nat) (s : TriState × List Nat) (m : Nat) (x : List ℝ) :
    Res (Nat × TriState × List Nat) :=
  if m < nnode then do
    let pOld ← Res.idx points m
    match s.1.newId.get pOld with
    | some p => pure (p, s)
    | none => do
      let s' ← pushPoint ndim s.1 x
      pure (s.1.xx.length, { s' with newId := s'.newId.insert pOld s.1.xx.length }, s.2)
  else do
    let q ← Res.idx s.2 (m - nnode)
    if q = usizeMax then do
      let s' ← pushPoint ndim s.1 x
      pure (s.1.xx.length, s', s.2.set (m - nnode) s.1.xx.length)
    else pure (q, s)

/-- The callback given to `triangulate` — triangulate_surface.rs:66-103. -/
def vertexStep (ndim nnode : Nat) (points : List Nat) (s : TriState × List Nat) (_t i m : Nat) (x : List ℝ) :
    Res (TriState × List Nat) := do
  let r ← vertexId ndim nnode points s m x
  let conn ← Res.setIdx r.2.1.conn i r.1
  if i = 2 then pure ({ r.2.1 with conn := conn, triangles := r.2.1.triangles ++ [conn] }, r.2.2)
  else pure ({ r.2.1 with conn := conn }, r.2.2)

/-- `pads.entry(kind).or_insert_with(|| Scratchpad::new(ndim, kind).unwrap())` — triangulate_surface.rs:62. -/
def padOf (ndim : Nat) (kind : GeoKind) (pads : HMap GeoKind Scratchpad) : Res Scratchpad :=
  match pads.get kind with
  | some pad => pure pad
  | none => unwrapRes (Scratchpad.new ndim kind)

/-- One cell of the surface — triangulate_surface.rs:46-105. -/
def surfaceStep (m : Mesh ℝ) (s : TriState) (cell : GeoKind × List Nat) : Res TriState :=
  if ¬(cell.1.classOf = .tri ∨ cell.1.classOf = .qua) then pure s
  else do
    let pad ← padOf m.ndim cell.1 s.pads
    let pad ← setPad m pad cell.2
    let r ← unwrapRes (pad.triangulate m.ndim (vertexStep m.ndim cell.1.nnode cell.2)
      (s, List.replicate cell.1.triangulateExtraNnode usizeMax))
    pure { r.1.1 with pads := s.pads.insert cell.1 r.2 }

/-- `Triangulation::from_surface` — triangulate_surface.rs:27-109 (the results are the first four fields). -/
def fromSurface (m : Mesh ℝ) (surface : List (GeoKind × List Nat)) : Res TriState :=
  surface.foldlM (surfaceStep m) { xx := [], yy := [], zz := [], triangles := [], newId := [], pads := [], conn := [0, 0, 0] }

/-- The faces used by `triangulate_3d_boundary`: those shared by exactly one cell; `iter` is the iteration order of the map of
faces — features.rs:650-663. -/
def Features.boundaryFaces (f : Features) (iter : List (FaceKey × Feature) → List (FaceKey × Feature)) : Res (List (FaceKey × Feature)) :=
  (iter f.faces).foldlM (fun acc e => do
    let cells ← unwrap (f.allFaces.get e.1)
    pure (if cells.length = 1 then acc ++ [e] else acc)) []

/-- `Features::triangulate_3d_boundary` — features.rs:645-668. -/
def Features.triangulate3dBoundary (f : Features) (iter : List (FaceKey × Feature) → List (FaceKey × Feature)) : Res TriState :=
  if f.mesh.ndim ≠ 3 then .panic
  else do
    let surface ← f.boundaryFaces iter
    fromSurface f.mesh (surface.map fun e => (e.2.kind, e.2.points))

end Mesh
end
end Gemlab
