import Verif.Spec.Json

/-!
# Which JSON values stand for the data of blocks (`Blocks2d`, `Blocks3d`)
-/
namespace Gemlab.MeshJson
open Gemlab Gemlab.Structured
open Gemlab.MeshText (InI32)

variable (F : JsonFloat ℝ)

/-- `null`, or a value. -/
def IsOption {α : Type} (R : Json → α → Prop) (v : Json) : Option α → Prop
  | none => v = .null
  | some x => v ≠ .null ∧ R v x

/-- Two numbers. -/
def IsPair (v : Json) (x : ℝ × ℝ) : Prop := ∃ a b, v = .arr [a, b] ∧ IsFloat F a x.1 ∧ IsFloat F b x.2

/-- Three numbers. -/
def IsTriple (v : Json) (x : ℝ × ℝ × ℝ) : Prop :=
  ∃ a b c, v = .arr [a, b, c] ∧ IsFloat F a x.1 ∧ IsFloat F b x.2.1 ∧ IsFloat F c x.2.2

/-- The weights of the divisions along two directions. -/
def IsWeights2 (v : Json) (x : List ℝ × List ℝ) : Prop :=
  ∃ a b, v = .arr [a, b] ∧ IsList (IsFloat F) a x.1 ∧ IsList (IsFloat F) b x.2

/-- The weights of the divisions along three directions. -/
def IsWeights3 (v : Json) (x : List ℝ × List ℝ × List ℝ) : Prop :=
  ∃ a b c, v = .arr [a, b, c] ∧ IsList (IsFloat F) a x.1 ∧ IsList (IsFloat F) b x.2.1 ∧ IsList (IsFloat F) c x.2.2

/-- Marker and eight points. -/
def IsRegion3 (v : Json) (x : Int × Nat × Nat × Nat × Nat × Nat × Nat × Nat × Nat) : Prop :=
  ∃ m a b c d e f g h, v = .arr [m, a, b, c, d, e, f, g, h] ∧ IsInt m x.1 ∧ IsNat a x.2.1 ∧ IsNat b x.2.2.1 ∧ IsNat c x.2.2.2.1 ∧
    IsNat d x.2.2.2.2.1 ∧ IsNat e x.2.2.2.2.2.1 ∧ IsNat f x.2.2.2.2.2.2.1 ∧ IsNat g x.2.2.2.2.2.2.2.1 ∧ IsNat h x.2.2.2.2.2.2.2.2

/-- `{"Circle":[xc,yc,r]}`. -/
def IsConstraint2 (v : Json) : Constraint2d → Prop
  | .circle a b c => ∃ w, v = .obj [("Circle".toList, w)] ∧ IsTriple F w (a, b, c)

/-- `{"CylinderX":[yc,zc,r]}`, … -/
def IsConstraint3 (v : Json) : Constraint3d → Prop
  | .cylinderX a b c => ∃ w, v = .obj [("CylinderX".toList, w)] ∧ IsTriple F w (a, b, c)
  | .cylinderY a b c => ∃ w, v = .obj [("CylinderY".toList, w)] ∧ IsTriple F w (a, b, c)
  | .cylinderZ a b c => ∃ w, v = .obj [("CylinderZ".toList, w)] ∧ IsTriple F w (a, b, c)

/-- Index of an edge and constraint. -/
def IsSide2 (v : Json) (x : Nat × Constraint2d) : Prop := ∃ i c, v = .arr [i, c] ∧ IsNat i x.1 ∧ IsConstraint2 F c x.2

/-- Index of a face and constraint. -/
def IsSide3 (v : Json) (x : Nat × Constraint3d) : Prop := ∃ i c, v = .arr [i, c] ∧ IsNat i x.1 ∧ IsConstraint3 F c x.2

/-- The data of blocks (2D). -/
def IsBlocks2d (v : Json) (b : Blocks2d) : Prop :=
  ∃ p r w c e, HasFields ["points", "regions", "div_weights", "edge_constraints", "marked_edges"] v [p, r, w, c, e] ∧
    IsList (IsPair F) p b.points ∧ IsList IsFace r b.regions ∧ IsList (IsWeights2 F) w b.divWeights ∧
    IsList (IsOption (IsSide2 F)) c b.edgeConstraints ∧ IsList IsEdge e b.markedEdges

/-- The data of blocks (3D). -/
def IsBlocks3d (v : Json) (b : Blocks3d) : Prop :=
  ∃ p r w c e f, HasFields ["points", "regions", "div_weights", "face_constraints", "marked_edges", "marked_faces"] v [p, r, w, c, e, f] ∧
    IsList (IsTriple F) p b.points ∧ IsList IsRegion3 r b.regions ∧ IsList (IsWeights3 F) w b.divWeights ∧
    IsList (IsOption (IsSide3 F)) c b.faceConstraints ∧ IsList IsEdge e b.markedEdges ∧ IsList IsFace f b.markedFaces

/-- The numbers of a constraint. -/
def Constraint2d.numbers : Constraint2d → List ℝ
  | .circle a b c => [a, b, c]

/-- The numbers of a constraint. -/
def Constraint3d.numbers : Constraint3d → List ℝ
  | .cylinderX a b c => [a, b, c]
  | .cylinderY a b c => [a, b, c]
  | .cylinderZ a b c => [a, b, c]

/-- All integers are values of their machine types (true of every value of type `Blocks2d`) and all numbers are read as they are written. -/
structure Exact2d (b : Blocks2d) : Prop where
  points : ∀ p ∈ b.points, Reread F p.1 p.1 ∧ Reread F p.2 p.2
  regions : ∀ f ∈ b.regions, InI32 f.1 ∧ f.2.1 < 2 ^ 64 ∧ f.2.2.1 < 2 ^ 64 ∧ f.2.2.2.1 < 2 ^ 64 ∧ f.2.2.2.2 < 2 ^ 64
  weights : ∀ w ∈ b.divWeights, (∀ x ∈ w.1, Reread F x x) ∧ ∀ x ∈ w.2, Reread F x x
  constraints : ∀ i c, some (i, c) ∈ b.edgeConstraints → i < 2 ^ 64 ∧ ∀ x ∈ Constraint2d.numbers c, Reread F x x
  edges : ∀ e ∈ b.markedEdges, InI32 e.1 ∧ e.2.1 < 2 ^ 64 ∧ e.2.2 < 2 ^ 64

/-- The same for `Blocks3d`. -/
structure Exact3d (b : Blocks3d) : Prop where
  points : ∀ p ∈ b.points, Reread F p.1 p.1 ∧ Reread F p.2.1 p.2.1 ∧ Reread F p.2.2 p.2.2
  regions : ∀ f ∈ b.regions, InI32 f.1 ∧ f.2.1 < 2 ^ 64 ∧ f.2.2.1 < 2 ^ 64 ∧ f.2.2.2.1 < 2 ^ 64 ∧ f.2.2.2.2.1 < 2 ^ 64 ∧
    f.2.2.2.2.2.1 < 2 ^ 64 ∧ f.2.2.2.2.2.2.1 < 2 ^ 64 ∧ f.2.2.2.2.2.2.2.1 < 2 ^ 64 ∧ f.2.2.2.2.2.2.2.2 < 2 ^ 64
  weights : ∀ w ∈ b.divWeights, (∀ x ∈ w.1, Reread F x x) ∧ (∀ x ∈ w.2.1, Reread F x x) ∧ ∀ x ∈ w.2.2, Reread F x x
  constraints : ∀ i c, some (i, c) ∈ b.faceConstraints → i < 2 ^ 64 ∧ ∀ x ∈ Constraint3d.numbers c, Reread F x x
  edges : ∀ e ∈ b.markedEdges, InI32 e.1 ∧ e.2.1 < 2 ^ 64 ∧ e.2.2 < 2 ^ 64
  faces : ∀ f ∈ b.markedFaces, InI32 f.1 ∧ f.2.1 < 2 ^ 64 ∧ f.2.2.1 < 2 ^ 64 ∧ f.2.2.2.1 < 2 ^ 64 ∧ f.2.2.2.2 < 2 ^ 64

end Gemlab.MeshJson
